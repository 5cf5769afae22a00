import Verif.Model.DataContainer
import Verif.Spec.Angle

/-!
# Specification vocabulary for histories and extrema
-/

namespace Shgpy

variable {K : Type} [Field K] [LinearOrder K] [FloorRing K] [HasPi K]

/-- `c` can be obtained from a constructor call by any sequence of method calls (failing ones included). -/
def DataContainer.Reachable (c : DataContainer K) : Prop :=
  ∃ iter units b c₀ w ops, DataContainer.init iter units b = .ok (c₀, w) ∧ c = DataContainer.run c₀ ops

namespace Spec

/-- Among the items of a container, `k` is the first combination containing the extreme value `m`, where
`better x y` reads "`x` beats `y`". -/
def FirstExtremum (better : K → K → Prop) (items : List (Key × List (K × K))) (k : Key) (m : K) : Prop :=
  ∃ pre pts post, items = pre ++ (k, pts) :: post ∧ (∃ p ∈ pts, p.2 = m) ∧ (∀ p ∈ pts, ¬ better p.2 m) ∧
    (∀ it ∈ pre, ∀ p ∈ it.2, better m p.2) ∧ (∀ it ∈ post, ∀ p ∈ it.2, ¬ better p.2 m)

/-- The operations that leave the values' zero point alone. -/
def ScalesOrShifts : DataContainer.Op K → Prop
  | .scale _ => True
  | .normalize _ => True
  | .phaseShift _ _ => True
  | _ => False

end Spec
end Shgpy
