import Verif.Model.Fformgen
import Mathlib.Algebra.Order.Round

/-!
# Rounding the Fourier formulas: `ndigits` of `generate_contracted_fourier_transforms` (fformgen.py:66-90, 755-756)
-/

namespace Shgpy

/-- What the model assumes of `round(q, n)` for a number `q` and `n >= 0` digits: the result is at most half a unit of the last
digit away, and a number with at most `n` digits after the point stays as it is.  (How ties are broken does not matter.)  The
numbers of the model are exact: the error of the binary floating-point number next to the decimal result is left out.  Negative
`ndigits` are not modelled. -/
structure DecRound (n : ℕ) where
  rnd : ℚ → ℚ
  close : ∀ q, |rnd q - q| ≤ (1 / 2) * (1 / 10) ^ n
  digits : ∀ (z : ℤ), rnd (z / 10 ^ n) = z / 10 ^ n

namespace Expr

mutual
/-- `expr.xreplace({n: round(sp.re(n), ndigits) + 1j*round(sp.im(n), ndigits) for n in expr.atoms(sp.Number)})`,
fformgen.py:73-76: every number in the tree is rounded.  The numbers are real, so the second summand is zero; the exponents are
integers, so they stay. -/
def roundNums (rnd : ℚ → ℚ) : Expr → Expr
  | .num q => .num (rnd q)
  | .I => .I
  | .sym s => .sym s
  | .add l => .add (roundNumsL rnd l)
  | .mul l => .mul (roundNumsL rnd l)
  | .pow b n => .pow (roundNums rnd b) n
  | .cos e => .cos (roundNums rnd e)
  | .sin e => .sin (roundNums rnd e)
/-- Rounding in a list of arguments. -/
def roundNumsL (rnd : ℚ → ℚ) : List Expr → List Expr
  | [] => []
  | e :: r => roundNums rnd e :: roundNumsL rnd r
end

end Expr

section
variable (S : Sympy)

/-- `_round_expr`, fformgen.py:70-78.  A Python number (`_round_complex`, fformgen.py:66-67) is a number like any other. -/
def roundExpr (ex : Rewriting) {n : ℕ} (D : DecRound n) (e : Expr) : Expr := S.norm ((ex.run e).roundNums D.rnd)

/-- `generate_contracted_fourier_transforms` with `ndigits=n`, fformgen.py:640-759, with `_round_complex_tensor`,
fformgen.py:81-90. -/
def generateContractedRounded (ex : Rewriting) {n : ℕ} (D : DecRound n) (R : Repr) (fs : Files) (nfs : NpFiles) (save pre : Key)
    (chiD chiQ : Nd Expr) (M : ℕ) : Except Err Files := do
  let d ← contractedFform S nfs pre chiD chiQ M
  return fun name => if name = save then some (d.mapVals (fun v => v.map (fun e => R.srepr (.sy (roundExpr S ex D e))))) else fs name

end

end Shgpy
