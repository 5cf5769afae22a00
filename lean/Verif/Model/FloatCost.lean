import Verif.Model.FloatSynth
import Verif.Model.FFormFit

/-!
# Model of the compiled functions of fformfit.py with floating point numbers

`Verif.Model.FFormFit` lets the compiled code compute with exact numbers.  Here every operation of the generated C code
(fformfit.py:188-216, 338-365, 394-436) is rounded.  In which order sympy's printer writes the terms of a sum and the factors of a product,
and how the C compiler groups them, is left open.  Overflow, underflow, infinities and NaN are not modelled.
-/

namespace Shgpy

/-- The arithmetic of the compiled code. -/
structure FloatC (p : ℕ) where
  /-- `double` -/
  work : FloatArith p
  /-- a number as it is written in the C code, such as `2` or `1.0/3.0` -/
  lit : ℚ → ℝ
  /-- the product of two complex numbers -/
  mul : ℂ → ℂ → ℂ
  /-- `pow` of `<math.h>`, with an integer exponent -/
  pow : ℝ → ℕ → ℝ
  /-- `cos` of `<math.h>` -/
  cos : ℝ → ℝ
  /-- `sin` of `<math.h>` -/
  sin : ℝ → ℝ

/-- What is to be computed: the value of an expression, the sum of the values of some expressions, or their product. -/
inductive Job
  | one (e : Expr)
  | sum (l : List Expr)
  | prod (l : List Expr)

/-- The C code for an expression, called with the numbers `x`, can compute `z` (fformfit.py:188-216, 338-365).  A sum is computed as the
rounded sum of two partial sums, whatever these are; likewise a product.  `pow`, `cos` and `sin` see the real part of their argument. -/
inductive FloatC.Runs {p : ℕ} (E : FloatC p) (x : List ℝ) : Job → ℂ → Prop
  | num (q : ℚ) : Runs E x (.one (.num q)) (E.lit q)
  | I : Runs E x (.one .I) Complex.I
  | sym (s : Sym) : Runs E x (.one (.sym s)) (xsVal x s)
  | add {l : List Expr} {z : ℂ} : Runs E x (.sum l) z → Runs E x (.one (.add l)) z
  | mul {l : List Expr} {z : ℂ} : Runs E x (.prod l) z → Runs E x (.one (.mul l)) z
  | pow {b : Expr} {z : ℂ} (n : ℕ) : Runs E x (.one b) z → Runs E x (.one (.pow b n)) (E.pow z.re n)
  | cos {e : Expr} {z : ℂ} : Runs E x (.one e) z → Runs E x (.one (.cos e)) (E.cos z.re)
  | sin {e : Expr} {z : ℂ} : Runs E x (.one e) z → Runs E x (.one (.sin e)) (E.sin z.re)
  | sumNil : Runs E x (.sum []) 0
  | sumOne {e : Expr} {z : ℂ} : Runs E x (.one e) z → Runs E x (.sum [e]) z
  | sumTwo {l l₁ l₂ : List Expr} {z₁ z₂ : ℂ} : l.Perm (l₁ ++ l₂) → l₁ ≠ [] → l₂ ≠ [] → Runs E x (.sum l₁) z₁ → Runs E x (.sum l₂) z₂ →
      Runs E x (.sum l) (E.work.rndC (z₁ + z₂))
  | prodNil : Runs E x (.prod []) 1
  | prodOne {e : Expr} {z : ℂ} : Runs E x (.one e) z → Runs E x (.prod [e]) z
  | prodTwo {l l₁ l₂ : List Expr} {z₁ z₂ : ℂ} : l.Perm (l₁ ++ l₂) → l₁ ≠ [] → l₂ ≠ [] → Runs E x (.prod l₁) z₁ → Runs E x (.prod l₂) z₂ →
      Runs E x (.prod l) (E.mul z₁ z₂)

/-- `autofunc`, compiled from an expression, can return `y`: its type is `double`, the imaginary part is dropped (fformfit.py:338-351). -/
def FloatC.Returns {p : ℕ} (E : FloatC p) (x : List ℝ) (e : Expr) (y : ℝ) : Prop := ∃ z, E.Runs x (.one e) z ∧ z.re = y

/-- `autofunc` of `_make_energy_func_chunked`, fformfit.py:405-417, `expr0(xs)+expr1(xs)+...`: the values are added from left to right.
Without chunks there is no program. -/
def FloatC.chunkSum {p : ℕ} (E : FloatC p) : List ℝ → Option ℝ
  | [] => none
  | y :: ys => some (ys.foldl (fun s y => E.work.rnd (s + y)) y)

/-- The function that `gen_cost_func` compiles, fformfit.py:504-534, called with the numbers `x`, can return `y`. -/
def FloatC.CostReturns {p : ℕ} (E : FloatC p) (S : Sympy) (fform : FFormContainer) (fdat : FDataContainer) (arguments : Option (List Sym))
    (x : List ℝ) (y : ℝ) : Bool → Prop
  | false => ∃ e, energyExpr S fform fdat arguments = .ok e ∧ E.Returns x e y
  | true => ∃ es ys, energyExprList S fform fdat arguments = .ok es ∧ List.Forall₂ (E.Returns x) es ys ∧ E.chunkSum ys = some y

/-- The component `i` of the gradient, compiled by `_make_denergy_func_auto`, fformfit.py:571-580, called with the numbers `x`, can be
`y`. -/
def FloatC.GradReturns {p : ℕ} (E : FloatC p) (S : Sympy) (fform : FFormContainer) (fdat : FDataContainer) (symbols : List Sym)
    (x : List ℝ) (i : ℕ) (y : ℝ) : Prop :=
  ∃ e es d, energyExpr S fform fdat (some symbols) = .ok e ∧ denergyExpr S symbols.length e = .ok es ∧ es[i]? = some d ∧ E.Returns x d y

end Shgpy
