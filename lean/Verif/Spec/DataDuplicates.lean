import Verif.Spec.DataInput
import Mathlib.Data.List.Range

/-!
# Specification vocabulary for repeated angles (C03)
-/

namespace Shgpy.Spec

variable {K : Type} [Field K] [LinearOrder K] [HasPi K]

/-- Point `j` repeats a direction: an earlier point has the same direction and an angle written within one turn, `0 ≤ θ < 2π`. -/
def Repeats (units : Key) (xs : List K) (j : ℕ) : Prop :=
  ∃ i, i < j ∧ ∃ x y, xs[i]? = some x ∧ xs[j]? = some y ∧ InTurn (rad units x) ∧ AngleEq (rad units x) (rad units y)

open Classical in
/-- The points that do not repeat a direction, in the order of the input. -/
noncomputable def survivors (units : Key) (xs ys : List K) : List (K × K) :=
  ((List.range (xs.zip ys).length).filter (fun j => ¬ Repeats units xs j)).filterMap (fun j => (xs.zip ys)[j]?)

end Shgpy.Spec
