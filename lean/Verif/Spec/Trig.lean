import Verif.Model.FourierTransform
import Verif.Spec.Form
import Mathlib.Analysis.SpecialFunctions.Integrals.Basic

/-!
# Specification vocabulary for Fourier transforms of formulas
-/

namespace Shgpy.Spec

/-- The Fourier coefficient `1/(2π) ∫₀^{2π} F(x) e^{-inx} dx`. -/
noncomputable def integralCoeff (F : ℝ → ℂ) (n : ℤ) : ℂ :=
  (1 / (2 * (Real.pi : ℂ))) * ∫ x in (0 : ℝ)..(2 * Real.pi), F x * Complex.exp (-(Complex.I * (n * x)))

/-- The formula as a function of the angle, the other symbols having the values given by `σ`. -/
noncomputable def ofAngle (e : Expr) (σ : Valuation) (x : ℂ) : ℂ := e.eval (assign σ phi x)

/-- `cos(phi)`, `sin(phi)` or a power of one of them, with the number of cosines and the number of sines. -/
inductive TrigFactor : Expr → ℕ → ℕ → Prop
  | cos : TrigFactor (.cos (.sym phi)) 1 0
  | sin : TrigFactor (.sin (.sym phi)) 0 1
  | cosPow (n : ℕ) : TrigFactor (.pow (.cos (.sym phi)) n) n 0
  | sinPow (n : ℕ) : TrigFactor (.pow (.sin (.sym phi)) n) 0 n

/-- The factors are coefficients free of `phi` and, taken together, `a` cosines and `b` sines of `phi`. -/
inductive TrigProduct : List Expr → ℕ → ℕ → Prop
  | nil : TrigProduct [] 0 0
  | coeff {c : Expr} {r : List Expr} {a b : ℕ} : phi ∉ c.free → TrigProduct r a b → TrigProduct (c :: r) a b
  | trig {f : Expr} {r : List Expr} {a b a' b' : ℕ} :
      TrigFactor f a' b' → TrigProduct r a b → TrigProduct (f :: r) (a' + a) (b' + b)

/-- A sum of explicit products, each of degree at most `8`. -/
def ExpandedSum (e : Expr) : Prop :=
  ∃ ts : List Expr, e = .add ts ∧ ∀ t ∈ ts, ∃ l a b, t = .mul l ∧ TrigProduct l a b ∧ a + b ≤ 8

/-- The expression has, for all values of its symbols, the value of a sum of explicit products of degree at most `d`. -/
def TrigSum (d : ℕ) (e : Expr) : Prop :=
  ∃ ts : List Expr, (∀ t ∈ ts, ∃ l a b, t = .mul l ∧ TrigProduct l a b ∧ a + b ≤ d) ∧
    ∀ σ : Valuation, Expr.eval σ (.add ts) = Expr.eval σ e

/-- The formulas on which the transform is right: formulas without `phi`; sums of explicit products; a single product,
provided that it does not have exactly one cosine or exactly one sine and nothing else; a power of the cosine or of the
sine. -/
inductive Supported : Expr → Prop
  | const {e : Expr} : phi ∉ e.free → Supported e
  | sum {e : Expr} : ExpandedSum e → Supported e
  | prod {l : List Expr} {a b : ℕ} : TrigProduct l a b → a + b ≤ 8 → (a, b) ≠ (1, 0) → (a, b) ≠ (0, 1) →
      Supported (.mul l)
  | cosPow {n : ℕ} : n ≤ 8 → Supported (.pow (.cos (.sym phi)) n)
  | sinPow {n : ℕ} : n ≤ 8 → Supported (.pow (.sin (.sym phi)) n)

/-- `form_to_fform` takes the formula `e` for the formula `e'`: a sum for the sum of the products of the *arguments* of its summands
(those of a power are the base and the exponent, and a symbol has none); a product with a single cosine or sine for the product
of the other factors; and a single cosine or sine for `1`. -/
inductive ReadAs : Expr → Expr → Prop
  | const {e : Expr} : phi ∉ e.free → ReadAs e e
  | sum {ts : List Expr} : phi ∈ (Expr.add ts).free → (∀ t ∈ ts, ∃ a b, TrigProduct t.args a b ∧ a + b ≤ 8) →
      ReadAs (.add ts) (.add (ts.map (fun t => .mul t.args)))
  | prod {l : List Expr} {a b : ℕ} : TrigProduct l a b → a + b ≤ 8 → a + b ≠ 1 → ReadAs (.mul l) (.mul l)
  | factor {l : List Expr} {a b : ℕ} : TrigProduct l a b → a + b = 1 →
      ReadAs (.mul l) (.mul (l.filter (fun f => decide (phi ∉ f.free))))
  | cosPow {n : ℕ} : n ≤ 8 → ReadAs (.pow (.cos (.sym phi)) n) (.pow (.cos (.sym phi)) n)
  | sinPow {n : ℕ} : n ≤ 8 → ReadAs (.pow (.sin (.sym phi)) n) (.pow (.sin (.sym phi)) n)
  | cos : ReadAs (.cos (.sym phi)) (.num 1)
  | sin : ReadAs (.sin (.sym phi)) (.num 1)

end Shgpy.Spec
