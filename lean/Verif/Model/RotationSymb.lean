import Verif.Model.Rotation
import Verif.Py.Expr

/-!
# Model of `rotation_matrix3symb` (utilities.py:181-205)

The trees of `Expr` have no square roots and quotients, so this function has its own small language of real sympy expressions.
Automatic evaluation of sympy, which keeps the value, is left out.
-/

namespace Shgpy

/-- A real sympy expression. -/
inductive SymE
  | sym (s : Sym)
  | num (q : ℚ)
  | add (a b : SymE)
  | sub (a b : SymE)
  | mul (a b : SymE)
  | div (a b : SymE)
  | sq (a : SymE)
  | sqrt (a : SymE)
  | cos (a : SymE)
  | sin (a : SymE)

/-- The value of an expression when the symbols have the values `ν`; `none` if it is not a finite real number (`zoo`, `nan`, the
root of a negative number). -/
noncomputable def SymE.eval (ν : Sym → ℝ) : SymE → Option ℝ
  | .sym s => some (ν s)
  | .num q => some q
  | .add a b => do return (← a.eval ν) + (← b.eval ν)
  | .sub a b => do return (← a.eval ν) - (← b.eval ν)
  | .mul a b => do return (← a.eval ν) * (← b.eval ν)
  | .div a b => do
    let x ← a.eval ν
    let y ← b.eval ν
    if y = 0 then none else return x / y
  | .sq a => do return (← a.eval ν) ^ 2
  | .sqrt a => do
    let x ← a.eval ν
    if x < 0 then none else return Real.sqrt x
  | .cos a => do return Real.cos (← a.eval ν)
  | .sin a => do return Real.sin (← a.eval ν)

/-- `_normsymb`, utilities.py:235-236. -/
def normSymb (v : Fin 3 → SymE) : SymE := .sqrt (.add (.add (.sq (v 0)) (.sq (v 1))) (.sq (v 2)))

/-- `1-c`. -/
def SymE.oneMinus (c : SymE) : SymE := .sub (.num 1) c

/-- The entries computed in utilities.py:198-204 from the stored axis `n` and the angle `t`. -/
def rodriguesSymb (n : Fin 3 → SymE) (t : SymE) : Fin 3 → Fin 3 → SymE :=
  let c := SymE.cos t
  let s := SymE.sin t
  let nx := n 0
  let ny := n 1
  let nz := n 2
  let row1 := ![.add c (.mul (.sq nx) c.oneMinus), .sub (.mul (.mul nx ny) c.oneMinus) (.mul nz s),
    .add (.mul (.mul nx nz) c.oneMinus) (.mul ny s)]
  let row2 := ![.add (.mul (.mul ny nx) c.oneMinus) (.mul nz s), .add c (.mul (.sq ny) c.oneMinus),
    .sub (.mul (.mul ny nz) c.oneMinus) (.mul nx s)]
  let row3 := ![.sub (.mul (.mul nz nx) c.oneMinus) (.mul ny s), .add (.mul (.mul nz ny) c.oneMinus) (.mul nx s),
    .add c (.mul (.sq nz) c.oneMinus)]
  ![row1, row2, row3]

/-- `rotation_matrix3symb`, utilities.py:181-205, for an axis that is a list or an array of objects: the entries, and the passed
axis afterwards.  `ndigits` is not used. -/
def rotationMatrix3symb (n : Fin 3 → SymE) (t : SymE) : (Fin 3 → Fin 3 → SymE) × (Fin 3 → SymE) :=
  let nMag := normSymb n
  let n' : Fin 3 → SymE := fun i => .div (n i) nMag
  (rodriguesSymb n' t, n')

/-- `int(e)` of a real number: truncation towards zero. -/
noncomputable def pyInt (x : ℝ) : ℤ := if 0 ≤ x then ⌊x⌋ else ⌈x⌉

/-- `n[i] /= n_mag`, utilities.py:195-197, for an integer array `n`: the quotient is converted with `int`, which raises for the
`nan` of a division by zero. -/
noncomputable def storeSymbInt (n : Fin 3 → ℤ) (i : Fin 3) : Except Err ℤ :=
  match (SymE.div (.num (n i)) (normSymb fun i => .num (n i))).eval (fun _ => 0) with
  | none => .error .typeError
  | some x => .ok (pyInt x)

/-- `rotation_matrix3symb`, utilities.py:181-205, for an axis that is an array of integer dtype: the entries, and the passed axis
afterwards.  The length `n_mag` is calculated before the axis is changed. -/
noncomputable def rotationMatrix3symbInt (n : Fin 3 → ℤ) (t : SymE) :
    Except Err ((Fin 3 → Fin 3 → SymE) × (Fin 3 → ℤ)) := do
  let nx ← storeSymbInt n 0
  let ny ← storeSymbInt n 1
  let nz ← storeSymbInt n 2
  return (rodriguesSymb ![.num nx, .num ny, .num nz] t, ![nx, ny, nz])

end Shgpy
