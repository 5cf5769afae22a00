import Verif.Spec.Selection

/-!
# Specification vocabulary for crystals in other orientations (C69, C99)
-/

namespace Shgpy.Spec
open PG

/-- A rotation or a rotation followed by the inversion. -/
def Orthogonal (R : SymOp) : Prop := R * R.transpose = 1

/-- The operations of the crystal turned by `R`: turn it back, apply an operation, turn it again. -/
def turnedBy (R : SymOp) (G : Set SymOp) : Set SymOp := {B | ∃ A ∈ G, B = R * A * R.transpose}

/-- The matrix of expressions has the numbers `R` as values when the symbols have the values `σ`. -/
def HasValue (A : Nd Expr) (σ : Sym → ℂ) (R : SymOp) : Prop :=
  ∀ i j : Fin 3, (A.get [i.val, j.val]).eval σ = (R i j : ℂ)

end Shgpy.Spec
