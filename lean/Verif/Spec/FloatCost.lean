import Verif.Model.FloatCost
import Verif.Spec.CText

/-!
# Specification vocabulary for compiled functions in floating point arithmetic (C122)
-/

namespace Shgpy.Spec

/-- The operations of the compiled code are accurate: written numbers, products, powers, cosines and sines have at most the error of four
roundings. -/
structure AccurateC {p : ℕ} (E : FloatC p) : Prop where
  lit : ∀ q : ℚ, |E.lit q - q| ≤ ((1 + 2⁻¹ ^ p) ^ 4 - 1) * |(q : ℝ)|
  mul : ∀ z w : ℂ, ‖E.mul z w - z * w‖ ≤ ((1 + 2⁻¹ ^ p) ^ 4 - 1) * (‖z‖ * ‖w‖)
  pow : ∀ (a : ℝ) (n : ℕ), |E.pow a n - a ^ n| ≤ ((1 + 2⁻¹ ^ p) ^ 4 - 1) * |a| ^ n
  cos : ∀ a : ℝ, |E.cos a - Real.cos a| ≤ (1 + 2⁻¹ ^ p) ^ 4 - 1
  sin : ∀ a : ℝ, |E.sin a - Real.sin a| ≤ (1 + 2⁻¹ ^ p) ^ 4 - 1

mutual
/-- The number of roundings in the evaluation of an expression: one for a sum of two terms, four for other operations.  The roundings in
the base of a power count as often as the exponent says. -/
def roundings : Expr → ℕ
  | .num _ => 4
  | .I => 0
  | .sym _ => 0
  | .add l => roundingsL l + (l.length - 1)
  | .mul l => roundingsL l + 4 * (l.length - 1)
  | .pow b n => n * roundings b + 4
  | .cos e => roundings e + 4
  | .sin e => roundings e + 4
/-- The number of roundings in the terms or factors. -/
def roundingsL : List Expr → ℕ
  | [] => 0
  | e :: l => roundings e + roundingsL l
end

mutual
/-- The size of the quantities in the evaluation of an expression: its value when all numbers and parameters are replaced by their absolute
values (and a cosine or sine of `e` by one plus the size of `e`). -/
noncomputable def size (x : List ℝ) : Expr → ℝ
  | .num q => |(q : ℝ)|
  | .I => 1
  | .sym s => ‖xsVal x s‖
  | .add l => sizeSum x l
  | .mul l => sizeProd x l
  | .pow b n => size x b ^ n
  | .cos e => 1 + size x e
  | .sin e => 1 + size x e
/-- The sum of the sizes. -/
noncomputable def sizeSum (x : List ℝ) : List Expr → ℝ
  | [] => 0
  | e :: l => size x e + sizeSum x l
/-- The product of the sizes. -/
noncomputable def sizeProd (x : List ℝ) : List Expr → ℝ
  | [] => 1
  | e :: l => size x e * sizeProd x l
end

/-- The relative error of `n` roundings to `p` digits. -/
noncomputable def roundingError (p n : ℕ) : ℝ := (1 + 2⁻¹ ^ p) ^ n - 1

/-- The number of roundings in the cost function. -/
def CostRoundings (S : Sympy) (fform : FFormContainer) (fdat : FDataContainer) (arguments : Option (List Sym)) (n : ℕ) : Bool → Prop
  | false => ∃ e, energyExpr S fform fdat arguments = .ok e ∧ roundings e = n
  | true => ∃ es, energyExprList S fform fdat arguments = .ok es ∧ roundingsL es + (es.length - 1) = n

/-- The size of the quantities in the evaluation of the cost function. -/
def CostSize (S : Sympy) (fform : FFormContainer) (fdat : FDataContainer) (arguments : Option (List Sym)) (x : List ℝ) (B : ℝ) : Bool → Prop
  | false => ∃ e, energyExpr S fform fdat arguments = .ok e ∧ size x e = B
  | true => ∃ es, energyExprList S fform fdat arguments = .ok es ∧ sizeSum x es = B

/-- The expression of the component `i` of the gradient has `n` roundings and quantities of size `B`. -/
def GradRounding (S : Sympy) (fform : FFormContainer) (fdat : FDataContainer) (symbols : List Sym) (x : List ℝ) (i n : ℕ) (B : ℝ) : Prop :=
  ∃ e es d, energyExpr S fform fdat (some symbols) = .ok e ∧ denergyExpr S symbols.length e = .ok es ∧ es[i]? = some d ∧
    roundings d = n ∧ size x d = B

end Shgpy.Spec
