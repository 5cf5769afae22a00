import Verif.Model.Form
import Verif.Spec.Fourier

/-!
# Specification vocabulary for formulas

A formula is read as a function of the valuation of its symbols.
-/

namespace Shgpy.Spec

/-- A value for every symbol. -/
abbrev Valuation := Sym → ℂ

/-- The valuation in which the symbol `s` has been given the value `z`. -/
def assign (σ : Valuation) (s : Sym) (z : ℂ) : Valuation := fun u => if u = s then z else σ u

/-- The valuation under which the original formula has the value that the substituted one has under `σ`: replacing
`s₁` by `e₁` and then substituting the rest means reading `s₁` as the value of `e₁` after the remaining
substitutions. -/
noncomputable def assigned : List (Sym × Expr) → Valuation → Valuation
  | [], σ => σ
  | (s, e) :: r, σ => assign (assigned r σ) s (e.eval (assigned r σ))

/-- The value of an array element. -/
noncomputable def objValue (σ : Valuation) : PyObj → ℂ
  | .native re im => (re : ℂ) + (im : ℂ) * Complex.I
  | .sy e => e.eval σ

/-- Component `m` of combination `k` of the Fourier formula is the function `f` of the valuation. -/
def FRepresents (c : FFormContainer) (k : Key) (m : ℤ) (f : Valuation → ℂ) : Prop :=
  ∃ a o, c.getPc k = .ok a ∧ Component a.objs c.getM m o ∧ ∀ σ, objValue σ o = f σ

/-- The formula of combination `k` is the function `f` of the valuation. -/
def Represents (c : FormContainer) (k : Key) (f : Valuation → ℂ) : Prop :=
  ∃ e, c.getPc k = .ok e ∧ ∀ σ, e.eval σ = f σ

/-- What an operation does to the function represented by a formula. -/
noncomputable def formEffect : FormContainer.Op → (Valuation → ℂ) → Valuation → ℂ
  | .subs pairs, f, σ => f (assigned pairs σ)
  | .phaseShift a v, f, σ => f (assign σ v (σ v + a.eval σ))
  | .scale s, f, σ => s.eval σ * f σ
  | .rewrite _, f, σ => f σ

/-- What an operation does to the function represented by the component of frequency `m`. -/
noncomputable def fformEffect : FFormContainer.Op → ℤ → (Valuation → ℂ) → Valuation → ℂ
  | .subs pairs, _, f, σ => f (assigned pairs σ)
  | .phaseShift a, m, f, σ => f σ * Complex.exp (Complex.I * (m * a.eval σ))
  | .scale s, _, f, σ => s.eval σ * f σ

/-- No array of the container has a numeric dtype. -/
def Symbolic (c : FFormContainer) : Prop := ∀ k a, c.getPc k = .ok a → a.isNative = false

/-- The symbol occurs in some component of the Fourier formula. -/
def FOccurs (c : FFormContainer) (s : Sym) : Prop :=
  ∃ k a m e, c.getPc k = .ok a ∧ Component a.objs c.getM m (.sy e) ∧ s ∈ e.free

/-- The symbol occurs in some formula. -/
def Occurs (c : FormContainer) (s : Sym) : Prop := ∃ k e, c.getPc k = .ok e ∧ s ∈ e.free

end Shgpy.Spec
