import Verif.Spec.Angle

/-!
# Specification vocabulary for calls that are stopped in the middle (C134)
-/

namespace Shgpy.Spec

variable {K : Type} [Field K] [LinearOrder K] [HasPi K]

/-- The first `n` items are those after the call, the others those before it. -/
def partly {α : Type} (n : ℕ) (before after : List α) : List α := after.take n ++ before.drop n

/-- Points whose angles are within one turn, in any order. -/
def Unordered (pts : List (K × K)) : Prop := pts ≠ [] ∧ ∀ p ∈ pts, InTurn p.1

end Shgpy.Spec
