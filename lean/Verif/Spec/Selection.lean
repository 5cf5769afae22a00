import Verif.Model.TensorTable
import Verif.Model.TensorSym
import Verif.Spec.PointGroup
import Verif.Spec.Intensity

/-!
# Specification vocabulary for the symmetry of patterns: crystals taken from the tables
-/

namespace Shgpy.Spec
open PG TensorDef

/-- A tensor of rank `r` from one of the tables, and the operations of its point group. -/
inductive OfTable (S : Sympy) : ℕ → Nd Expr → Set SymOp → Prop
  | dipole {g : Key} {gens : List SymOp} {t : Nd Expr} :
      (g, gens) ∈ pointGroups → Dict.get (dipole S) g = .ok t → OfTable S 3 t (generated gens)
  | surface {g : Key} {gens : List SymOp} {t : Nd Expr} :
      (g, gens) ∈ pointGroups → Dict.get (surface S) g = .ok t → OfTable S 3 t (generated gens)
  | quadrupole {g : Key} {gens : List SymOp} {t : Nd Expr} :
      (g, gens) ∈ quadrupoleGroups → Dict.get (quadrupole S) g = .ok t → OfTable S 4 t (generated gens)
  | isotropic {t : Nd Expr} :
      Dict.get (quadrupole S) ['I', 's', 'o', 't', 'r', 'o', 'p', 'i', 'c'] = .ok t → OfTable S 4 t allRotations

/-- The tensor is an entry of a table, or the result of `particularize` of one (with or without `permute_all_indices`); the entry is that
for the group `G`. -/
inductive FromTable (S : Sympy) (r : ℕ) : Nd Expr → Set SymOp → Prop
  | entry {t : Nd Expr} {G : Set SymOp} : OfTable S r t G → FromTable S r t G
  | particularized {solve : Solver} {exclude : List Sym} {permuteAll : Bool} {t res : Nd Expr} {G : Set SymOp} : OfTable S r t G →
      GoodSolver S solve → particularize S solve exclude permuteAll t = .ok res → FromTable S r res G

/-- `make_tensor_real(t)` or `make_tensor_complex(t, ...)`: what has to be done before a tensor of a table can be passed to
`formgen`. -/
inductive MadeReal (S : Sympy) (t : Nd Expr) : Nd Expr → Prop
  | real : MadeReal S t (makeTensorReal S t)
  | complex (prefixRe prefixIm suffixRe suffixIm : Key) : MadeReal S t (makeTensorComplex S prefixRe prefixIm suffixRe suffixIm t)

/-- The tensors are taken from the tables (and perhaps made symmetric by `particularize`), and the operation `A` belongs to the point groups of both. -/
structure Tabulated (S : Sympy) (A : SymOp) (eee qee : Option (Nd Expr)) : Prop where
  eee3 : ∀ t, eee = some t → ∃ t₀ G, FromTable S 3 t₀ G ∧ MadeReal S t₀ t ∧ A ∈ G
  qee4 : ∀ t, qee = some t → ∃ t₀ G, FromTable S 4 t₀ G ∧ MadeReal S t₀ t ∧ A ∈ G

end Shgpy.Spec
