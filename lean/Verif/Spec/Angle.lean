import Verif.Py.Num
import Mathlib.Data.List.Forall2
import Mathlib.Data.List.Perm.Basic

/-!
# Specification vocabulary for angles and data points

Nothing here refers to the model.
-/

namespace Shgpy.Spec

variable {K : Type} [Field K] [LinearOrder K] [HasPi K]

/-- `x` and `y` are the same direction: they differ by a whole number of turns. -/
def AngleEq (x y : K) : Prop := ∃ n : ℤ, x = y + n * (2 * HasPi.pi)

/-- `0 ≤ x < 2π`. -/
def InTurn (x : K) : Prop := 0 ≤ x ∧ x < 2 * HasPi.pi

/-- The normal form of the points of one polarization combination: non-empty, all angles in `[0, 2π)`,
ascending. -/
def NormalForm (pts : List (K × K)) : Prop :=
  pts ≠ [] ∧ (∀ p ∈ pts, InTurn p.1) ∧ pts.Pairwise (fun p q => p.1 ≤ q.1)

/-- The points of `after` are, in some order, in one-to-one correspondence with those of `before`, and
corresponding points are related by `R`. -/
def Matched {α β : Type} (R : α → β → Prop) (before : List α) (after : List β) : Prop :=
  ∃ m, List.Forall₂ R before m ∧ after.Perm m

/-- `q` is the point `p` moved by the angle `a` and with its value multiplied by `s`. -/
def Moved (a s : K) (p q : K × K) : Prop := AngleEq q.1 (p.1 + a) ∧ q.2 = s * p.2

/-- The angles are pairwise different directions. -/
def DistinctAngles (pts : List (K × K)) : Prop := pts.Pairwise (fun p q => ¬ AngleEq p.1 q.1)

/-- The elements of a list without repetitions, ordered by first occurrence. -/
def firstOcc {α : Type} [DecidableEq α] : List α → List α
  | [] => []
  | a :: r => a :: (firstOcc r).filter (fun b => b ≠ a)

end Shgpy.Spec
