import Verif.Props.Selection
import Verif.Spec.Particularized

/-!
# Specification vocabulary for crystals of lower symmetry (C104)
-/

namespace Shgpy.Spec
open PG

/-- The names of the real parts of the parameters of the tensor are never those of the imaginary parts. -/
def ClearNames (prefixRe prefixIm suffixRe suffixIm : Key) (t : Nd Expr) : Prop :=
  ∀ s s', OccursIn t s → OccursIn t s' → prefixRe ++ s.name ++ suffixRe ≠ prefixIm ++ s'.name ++ suffixIm

/-- The tensor is an entry of a table, or the result of `particularize` of one (without `permute_all_indices`). -/
inductive TableTensor (S : Sympy) (n : ℕ) : Nd Expr → Set SymOp → Prop
  | entry {t : Nd Expr} {G : Set SymOp} : OfTable S n t G → TableTensor S n t G
  | particularized {solve : Solver} {exclude : List Sym} {t res : Nd Expr} {G : Set SymOp} : OfTable S n t G → GoodSolver S solve →
      particularize S solve exclude false t = .ok res → TableTensor S n res G

/-- The exchange of the last two of `n` positions. -/
def lastSwap (n : ℕ) (k : Fin n) : Fin n :=
  if h : k.val + 1 = n then ⟨k.val - 1, by omega⟩ else if h : k.val + 2 = n then ⟨k.val + 1, by omega⟩ else k

/-- The symmetric part of a tensor: the mean of it and the tensor with the last two indices exchanged. -/
noncomputable def symmetricPart {n : ℕ} (T : Tens n) : Tens n := fun i => (T i + T (fun k => i (lastSwap n k))) / 2

/-- The tensor `u` (of rank `n`; `none` is a tensor that is not given) may be used instead of `t` if the crystal has a lower symmetry
than supposed, or if more sources than supposed radiate.  `P` are the parameters of `u`.

* `same`: nothing is changed;
* `added`: a tensor of a table is given where none was;
* `real`, `complex`: both tensors are taken from the tables (and perhaps made symmetric by `particularize`), the operations of the second
  point group are operations of the first one, and both are made real, or the second is made complex;
* `turned`: both are transformed by the same matrix, in which there are no parameters of `u`. -/
inductive Lowered (S : Sympy) (n : ℕ) : Option (Nd Expr) → Option (Nd Expr) → (Sym → Prop) → Prop
  | same {t : Option (Nd Expr)} : (∀ u, t = some u → IsTensor 3 n u) → Lowered S n t t (fun _ => False)
  | added {u₀ u : Nd Expr} {G : Set SymOp} : FromTable S n u₀ G → MadeReal S u₀ u → Lowered S n none (some u) (OccursIn u)
  | real {t₀ u₀ : Nd Expr} {G G' : Set SymOp} : FromTable S n t₀ G → TableTensor S n u₀ G' → G' ⊆ G →
      Lowered S n (some (makeTensorReal S t₀)) (some (makeTensorReal S u₀)) (OccursIn (makeTensorReal S u₀))
  | complex {t₀ t u₀ : Nd Expr} {G G' : Set SymOp} {pr pi sr si : Key} : FromTable S n t₀ G → MadeReal S t₀ t → TableTensor S n u₀ G' →
      G' ⊆ G → ClearNames pr pi sr si u₀ →
      Lowered S n (some t) (some (makeTensorComplex S pr pi sr si u₀)) (OccursIn (makeTensorComplex S pr pi sr si u₀))
  | turned {t u t' u' : Option (Nd Expr)} {P : Sym → Prop} {A : Nd Expr} : Lowered S n t u P → IsMatrix 3 3 A →
      (∀ s, OccursIn A s → ¬ P s) → transformGiven S A t = .ok t' → transformGiven S A u = .ok u' → Lowered S n t' u' P

/-- The tensor `u` was made from the same entry of a table as `t`, but the entry was made symmetric by `particularize` first.  The
parameters of both are among `P`.  (`none`: neither is given; `turned`: both are transformed by the same matrix.) -/
inductive Symmetrized (S : Sympy) (n : ℕ) : Option (Nd Expr) → Option (Nd Expr) → (Sym → Prop) → Prop
  | none : Symmetrized S n none none (fun _ => False)
  | real {solve : Solver} {exclude : List Sym} {t₀ u₀ : Nd Expr} {G : Set SymOp} : OfTable S n t₀ G → GoodSolver S solve →
      particularize S solve exclude false t₀ = .ok u₀ → Symmetrized S n (some (makeTensorReal S t₀)) (some (makeTensorReal S u₀))
        (fun s => OccursIn (makeTensorReal S t₀) s ∨ OccursIn (makeTensorReal S u₀) s)
  | complex {solve : Solver} {exclude : List Sym} {t₀ u₀ : Nd Expr} {G : Set SymOp} {pr pi sr si : Key} : OfTable S n t₀ G →
      GoodSolver S solve → particularize S solve exclude false t₀ = .ok u₀ → ClearNames pr pi sr si t₀ →
      Symmetrized S n (some (makeTensorComplex S pr pi sr si t₀)) (some (makeTensorComplex S pr pi sr si u₀))
        (fun s => OccursIn (makeTensorComplex S pr pi sr si t₀) s ∨ OccursIn (makeTensorComplex S pr pi sr si u₀) s)
  | turned {t u t' u' : Option (Nd Expr)} {P : Sym → Prop} {A : Nd Expr} : Symmetrized S n t u P → IsMatrix 3 3 A →
      (∀ s, OccursIn A s → ¬ P s) → transformGiven S A t = .ok t' → transformGiven S A u = .ok u' → Symmetrized S n t' u' P

/-- The value of a tensor that may not be given. -/
noncomputable def optionValue (n : ℕ) (t : Option (Nd Expr)) (σ : Valuation) : Tens n := (t.map (fun t => valueOf n t σ)).getD 0

/-- The parameters `P3` of the dipole tensor, the parameters `P4` of the quadrupole tensor, and the symbols of the angle of incidence
are different symbols. -/
structure SeparateParameters (theta : Expr) (eee qee : Option (Nd Expr)) (P3 P4 : Sym → Prop) : Prop where
  eee : ∀ t s, eee = some t → OccursIn t s → ¬ P4 s
  qee : ∀ t s, qee = some t → OccursIn t s → ¬ P3 s
  theta : ∀ s ∈ theta.free, ¬ P3 s ∧ ¬ P4 s

/-- Two sets of Fourier formulas, for two sets of tensors, that were made in the same way: by `form_to_fform(formgen(...))`, or by the
functions of `fformgen`. -/
inductive FourierPair (S : Sympy) (ex : Rewriting) (R : Repr) (theta : Expr) : Option (Nd Expr) → Option (Nd Expr) → FFormContainer →
    Option (Nd Expr) → Option (Nd Expr) → FFormContainer → Prop
  | easy {eee qee eee' qee' : Option (Nd Expr)} {form form' : FormContainer} {c c' : FFormContainer} : phi ∉ theta.free →
      (∀ r : Sym → ℝ, ∃ θ : ℝ, theta.eval (realVal r) = (θ : ℂ)) →
      formgen S ex theta eee none qee = .ok form → (∀ k e, form.getPc k = .ok e → Supported e) → formToFform S form 16 = .ok c →
      formgen S ex theta eee' none qee' = .ok form' → (∀ k e, form'.getPc k = .ok e → Supported e) → formToFform S form' 16 = .ok c' →
      FourierPair S ex R theta eee qee c eee' qee' c'
  | hard {chiD chiQ chiD' chiQ' : Nd Expr} {c c' : FFormContainer} : HardWay S R chiD chiQ c theta → HardWay S R chiD' chiQ' c' theta →
      FourierPair S ex R theta (some chiD) (some chiQ) c (some chiD') (some chiQ') c'

end Shgpy.Spec
