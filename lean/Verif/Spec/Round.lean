import Verif.Spec.Form
import Verif.Model.SaveFform

/-!
# Specification vocabulary for rounded formulas
-/

namespace Shgpy.Spec

mutual
/-- All numbers in the expression have at most `n` digits after the decimal point. -/
def Digits (n : ℕ) : Expr → Prop
  | .num q => ∃ z : ℤ, q = z / 10 ^ n
  | .I => True
  | .sym _ => True
  | .add l => DigitsL n l
  | .mul l => DigitsL n l
  | .pow b _ => Digits n b
  | .cos e => Digits n e
  | .sin e => Digits n e
/-- The same for a list of expressions. -/
def DigitsL (n : ℕ) : List Expr → Prop
  | [] => True
  | e :: r => Digits n e ∧ DigitsL n r
end

mutual
/-- The arguments of all cosines and sines (outside of other cosines and sines) satisfy the property. -/
def AnglesP (P : Expr → Prop) : Expr → Prop
  | .num _ => True
  | .I => True
  | .sym _ => True
  | .add l => AnglesPL P l
  | .mul l => AnglesPL P l
  | .pow b _ => AnglesP P b
  | .cos e => P e
  | .sin e => P e
/-- The same for a list. -/
def AnglesPL (P : Expr → Prop) : List Expr → Prop
  | [] => True
  | e :: r => AnglesP P e ∧ AnglesPL P r
end

/-- The numbers in the arguments of the cosines and sines of the expression have at most `n₀` digits. -/
def ShortAngles (n₀ : ℕ) (e : Expr) : Prop := ∀ n, n₀ ≤ n → AnglesP (Digits n) e

/-- There are no cosines and sines in the expression. -/
def NoAngles (e : Expr) : Prop := AnglesP (fun _ => False) e

/-- sympy's automatic simplification does not lengthen the numbers in the arguments of cosines and sines. -/
def KeepsAngles (S : Sympy) (n₀ : ℕ) : Prop := ∀ n e, n₀ ≤ n → AnglesP (Digits n) e → AnglesP (Digits n) (S.norm e)

/-- The terms of a sum are products `q * f_1 * f_2 * ...` whose factors have numbers of at most `n` digits only, except for terms
without any longer number; the last argument lists the factors `[f_1, f_2, ...]` of the former. -/
inductive Terms (n : ℕ) : List Expr → List (List Expr) → Prop
  | nil : Terms n [] []
  | exact {e : Expr} {l : List Expr} {ts : List (List Expr)} : Digits n e → Terms n l ts → Terms n (e :: l) ts
  | number {q : ℚ} {l : List Expr} {ts : List (List Expr)} : Terms n l ts → Terms n (.num q :: l) ([] :: ts)
  | product {q : ℚ} {fs l : List Expr} {ts : List (List Expr)} : (∀ f ∈ fs, Digits n f) → Terms n l ts →
      Terms n (.mul (.num q :: fs) :: l) (fs :: ts)

/-- The expression is a sum of such terms, or one such term. -/
def Expanded (n : ℕ) (e : Expr) (ts : List (List Expr)) : Prop :=
  (∃ l, e = .add l ∧ Terms n l ts) ∨ Terms n [e] ts

/-- Element `i` of the saved formula of the combination `k` is the expression `e`. -/
def Saved (R : Repr) (content : Dict Key (List Key)) (k : Key) (i : ℕ) (e : Expr) : Prop :=
  ∃ v s, Dict.get? content k = some v ∧ v[i]? = some s ∧ R.parse s = .ok e

end Shgpy.Spec
