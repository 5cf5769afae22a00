import Verif.Spec.Selection
import Verif.Spec.TensorSym

/-!
# Specification vocabulary for tables made symmetric with `particularize` (C42, C55)
-/

namespace Shgpy.Spec
open PG

/-- The tensor is unchanged when its last two indices are exchanged. -/
def SymmetricTensor {r : ℕ} (T : Tens r) : Prop :=
  ∀ (i j : Fin r → Fin 3) (I : List (Fin 3)) (a b : Fin 3), List.ofFn i = I ++ [a, b] → List.ofFn j = I ++ [b, a] → T i = T j

/-- The array of expressions with parameters stands for the tensors of the set: they are those that are obtained by choosing values of
the parameters. -/
def DescribesSet (r : ℕ) (t : Nd Expr) (V : Set (Tens r)) : Prop :=
  t.shape = List.replicate r 3 ∧ ∀ T : Tens r, T ∈ V ↔ ∃ σ, T = valueOf r t σ

end Shgpy.Spec
