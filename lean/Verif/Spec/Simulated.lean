import Verif.Spec.Fit
import Verif.Spec.Subs
import Verif.Spec.Selection

/-!
# Specification vocabulary for fits of simulated data, and for what fits cannot determine
-/

namespace Shgpy.Spec

/-- The dictionary gives the symbols of the formula the values `r`. -/
structure Values (fform : FFormContainer) (subs : Dict Sym Expr) (r : Sym → ℝ) : Prop where
  numeric : Numeric subs
  covers : ∀ s, FOccurs fform s → s ∈ Dict.keys subs
  agrees : Agrees (realVal r) subs

/-- With the values `r'` of the parameters all given tensors are `lam` times what they are with the values `r`. -/
def Multiplied (lam : ℂ) (eee qee : Option (Nd Expr)) (r r' : Sym → ℝ) : Prop :=
  ∀ t, eee = some t ∨ qee = some t → ∀ idx, Nd.InRange t.shape idx →
    (t.get idx).eval (realVal r') = lam * (t.get idx).eval (realVal r)

/-- The given tensors are taken from the tables, perhaps made symmetric by `particularize`, and made real or complex. -/
structure FromTables (S : Sympy) (eee qee : Option (Nd Expr)) : Prop where
  eee3 : ∀ t, eee = some t → ∃ t₀ G, FromTable S 3 t₀ G ∧ MadeReal S t₀ t
  qee4 : ∀ t, qee = some t → ∃ t₀ G, FromTable S 4 t₀ G ∧ MadeReal S t₀ t

/-- The given tensors are tensors of the tables (perhaps made symmetric by `particularize`) to which `make_tensor_complex` was applied with these names. -/
structure ComplexFromTables (S : Sympy) (pr pi sr si : Key) (eee qee : Option (Nd Expr)) : Prop where
  eee3 : ∀ t, eee = some t → ∃ t₀ G, FromTable S 3 t₀ G ∧ t = makeTensorComplex S pr pi sr si t₀
  qee4 : ∀ t, qee = some t → ∃ t₀ G, FromTable S 4 t₀ G ∧ t = makeTensorComplex S pr pi sr si t₀

end Shgpy.Spec
