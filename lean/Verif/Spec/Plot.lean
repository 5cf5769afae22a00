import Verif.Model.Plotter

/-!
# What a plot should show (C63, C73)
-/

namespace Shgpy
namespace Spec

section
variable {K P : Type} [Field K] [LinearOrder K] [IsStrictOrderedRing K] [FloorRing K] [HasPi K]

/-- The cell shows the combination `pc` of the containers: its title is `pc`, and it holds, in order, one curve per
container, namely the container's points of combination `pc` in radians, drawn with the parameters given for that
container. -/
def Shows (dats : List (DataContainer K)) (params : List P) (legend : Bool) (pc : Key) (c : Cell K P) : Prop :=
  c.title = some pc ∧ c.legend = legend ∧
  List.Forall₂ (fun dp v => dp.1.getPc pc sRadians = .ok v.1 ∧ v.2 = dp.2) (dats.zip params) c.curves

/-- The value `m` (`none`: minus infinity) is the largest value in any combination of any of the containers. -/
def LargestValue (dats : List (DataContainer K)) (m : Option K) : Prop :=
  (∀ d ∈ dats, ∀ k pts, d.getPc k sRadians = .ok pts → ∀ p ∈ pts, ∃ x, m = some x ∧ p.2 ≤ x) ∧
  (∀ x, m = some x → ∃ d ∈ dats, ∃ k pts, d.getPc k sRadians = .ok pts ∧ ∃ p ∈ pts, p.2 = x)

end
end Spec
end Shgpy
