import Verif.Model.TensorSym
import Verif.Spec.Tensor
import Verif.Spec.Form

/-!
# Specification vocabulary for symbolic tensors
-/

namespace Shgpy.Spec

/-- The valuation in which every symbol `x` not known to be real or non-real has the value of `real_x + i * imag_x`
(with the given prefixes and suffixes). -/
noncomputable def complexified (prefixRe prefixIm suffixRe suffixIm : Key) (σ : Valuation) : Valuation := fun s =>
  if s.isReal = none then
    σ (realSym (prefixRe ++ s.name ++ suffixRe)) + Complex.I * σ (realSym (prefixIm ++ s.name ++ suffixIm))
  else σ s

/-- The valuation in which every symbol not known to be real or non-real has the value of the real symbol of the same
name. -/
def realified (σ : Valuation) : Valuation := fun s => if s.isReal = none then σ (realSym s.name) else σ s

/-- The symbols of a tensor. -/
def OccursIn (t : Nd Expr) (s : Sym) : Prop := ∃ idx, Nd.InRange t.shape idx ∧ s ∈ (t.get idx).free

/-- Every symbol of the tensor of which sympy does not know whether it is real was made by `sp.symbols(name)`, without
assumptions. -/
def PlainSymbols (t : Nd Expr) : Prop := ∀ s, OccursIn t s → s.isReal = none → s.tag = 0

/-- Two tensors with the same value at every index, for every valuation. -/
def SameValues (a b : Nd Expr) : Prop :=
  a.shape = b.shape ∧ ∀ idx, Nd.InRange a.shape idx → ∀ σ : Valuation, (a.get idx).eval σ = (b.get idx).eval σ

/-- Symmetric in the last two indices, as a function of the valuation. -/
def SymmetricLastTwo (t : Nd Expr) : Prop :=
  ∀ I a b, Nd.InRange t.shape (I ++ [a, b]) → ∀ σ : Valuation,
    (t.get (I ++ [a, b])).eval σ = (t.get (I ++ [b, a])).eval σ

/-- Symmetric under all permutations of the indices, as a function of the valuation. -/
def SymmetricAll (t : Nd Expr) : Prop :=
  ∀ idx idx', Nd.InRange t.shape idx → idx.Perm idx' → ∀ σ : Valuation, (t.get idx).eval σ = (t.get idx').eval σ

/-- The solver is sound: substituting the first solution it returns makes every equation zero. -/
def SolverSound (S : Sympy) (solve : Solver) : Prop :=
  ∀ eqs exclude sol rest, solve eqs exclude = sol :: rest →
    ∀ q ∈ eqs, ∀ σ : Valuation, (S.subs sol q).eval σ = 0

/-- The expression is a linear function of the values of its symbols. -/
def IsLinear (e : Expr) : Prop :=
  ∃ c : List (ℂ × Sym), ∀ σ : Valuation, e.eval σ = (c.map (fun p => p.1 * σ p.2)).sum

/-- The solver is complete for linear equations: values of the symbols that solve the equations agree with the first solution that it
returns. -/
def SolverComplete (solve : Solver) : Prop :=
  ∀ eqs exclude sol rest, (∀ q ∈ eqs, IsLinear q) → solve eqs exclude = sol :: rest →
    ∀ σ : Valuation, (∀ q ∈ eqs, q.eval σ = 0) → ∀ p ∈ sol, p.2.eval σ = σ p.1

/-- The first solution expresses some symbols by other symbols of the equations. -/
def SolverReduced (solve : Solver) : Prop :=
  ∀ eqs exclude sol rest, solve eqs exclude = sol :: rest →
    ∀ p ∈ sol, ∀ s ∈ p.2.free, s ∉ sol.map Prod.fst ∧ ∃ q ∈ eqs, s ∈ q.free

/-- What is assumed of `sympy.solve` for linear equations: the first solution solves the equations, excludes no solution, and expresses
some symbols of the equations by the others. -/
structure GoodSolver (S : Sympy) (solve : Solver) : Prop where
  sound : SolverSound S solve
  complete : SolverComplete solve
  reduced : SolverReduced solve

end Shgpy.Spec
