import Verif.Model.LookupTable

/-!
# Model of `shgpy/core/_fourier_transform.py`

The expression trees are the ones the caller's formulas have (sympy keeps them flattened and sorted; the order of
arguments plays no role below).
-/

namespace Shgpy

/-- `shg_symbols.phi = sp.symbols('phi', real=True)`, shg_symbols.py:293; tag `1` stands for `real=True`. -/
def phi : Sym := ⟨['p', 'h', 'i'], 1⟩

/-- `S.phi in e.free_symbols`, `e.has(S.phi)`. -/
def hasPhi (e : Expr) : Bool := decide (phi ∈ e.free)

/-- The generator `gen` of `_get_keyterms`, _fourier_transform.py:24-31, on one argument. -/
def genArg : Expr → List Expr
  | .pow b n => List.replicate n b
  | e => [e]

/-- The generator `gen` of `_get_keyterms`, _fourier_transform.py:24-31. -/
def gen (e : Expr) : List Expr := (e.args.filter hasPhi).flatMap genArg

/-- Count one more factor. -/
def bump (b : Expr) : List (Expr × ℕ) → List (Expr × ℕ)
  | [] => [(b, 1)]
  | (b', n) :: r => if b' = b then (b', n + 1) :: r else (b', n) :: bump b r

/-- The factors of a product grouped by equality. -/
def collect (l : List Expr) : List (Expr × ℕ) := l.foldl (fun acc b => bump b acc) []

/-- One grouped factor as an expression. -/
def factorExpr (p : Expr × ℕ) : Expr := if p.2 = 1 then p.1 else .pow p.1 p.2

/-- `sp.Mul(*factors)`: equal factors are combined to a power, and a product of one factor is that factor. -/
def mulOf (l : List Expr) : Expr :=
  match collect l with
  | [] => .num 1
  | [p] => factorExpr p
  | ps => .mul (ps.map factorExpr)

/-- `_get_keyterms`, _fourier_transform.py:21-40, for an expression that is not a sum: a single key term. -/
def keyterm : Expr → Expr
  | .mul l => mulOf (gen (.mul l))
  | e => e

/-- What a base contributes to the numbers of cosines and sines, _fourier_transform.py:49-53 and 55-59. -/
def codeOf (b : Expr) (n : ℕ) : ℕ × ℕ :=
  match b with
  | .sin _ => (0, n)
  | .cos _ => (n, 0)
  | _ => (0, 0)

/-- One pass of the loop of `_get_code`, _fourier_transform.py:47-59. -/
def codeArg : Expr → ℕ × ℕ
  | .pow b n => codeOf b n
  | e => codeOf e 1

/-- `_get_code`, _fourier_transform.py:43-66: (number of cosines, number of sines). -/
def getCode : Expr → ℕ × ℕ
  | .mul l => l.foldl (fun acc e => (acc.1 + (codeArg e).1, acc.2 + (codeArg e).2)) (0, 0)
  | .pow b n => codeOf b n
  | _ => (0, 0)

/-- Which key `cos(phi)**a*sin(phi)**b` of `mapping` (_fourier_transform.py:78-81) the product of the factors is, if
any. -/
def monoCode : List Expr → Option (ℕ × ℕ)
  | [] => some (0, 0)
  | e :: r =>
      match monoCode r with
      | none => none
      | some (a, b) =>
        if e = .cos (.sym phi) then some (a + 1, b)
        else if e = .sin (.sym phi) then some (a, b + 1)
        else match e with
          | .pow c n =>
            if c = .cos (.sym phi) then some (a + n, b)
            else if c = .sin (.sym phi) then some (a, b + n)
            else none
          | _ => none

/-- `mapping[sp.Mul(*has_phi)]`, _fourier_transform.py:92. -/
def mappingGet (rel : Dict (ℕ × ℕ) PyObj) (has : List Expr) : Except Err PyObj :=
  match monoCode has with
  | none => .error .keyError
  | some c => Dict.get rel c

/-- Whether the expression is an `Add`. -/
def isAdd : Expr → Bool
  | .add _ => true
  | _ => false

/-- `relevant_codes`, _fourier_transform.py:75-77. -/
def relevantCodes (n : ℤ) : Except Err (Dict (ℕ × ℕ) PyObj) :=
  Dict.mapValsM (fun row => pyGet row (n2i n 16)) Lookup.table

/-- The body of the loop over the arguments of a sum, _fourier_transform.py:84-93. -/
def transformArg (S : Sympy) (rel : Dict (ℕ × ℕ) PyObj) (arg : Expr) : Except Err Expr := do
  let has := arg.args.filter hasPhi
  let no := arg.args.filter (fun a => !hasPhi a)
  let v ← mappingGet rel has
  return S.norm (.mul (no ++ [v.sympify S]))

/-- The factors that `expr / keyterm` (_fourier_transform.py:104) leaves. -/
def quotientArgs : Expr → List Expr
  | .mul l => l.filter (fun a => !hasPhi a)
  | _ => []

/-- `ftval != 0`, _fourier_transform.py:103. -/
def PyObj.isZero : PyObj → Bool
  | .native re im => decide (re = 0 ∧ im = 0)
  | .sy e => decide (e = .num 0)

/-- `_fourier_transform`, _fourier_transform.py:69-107.  The argument `M` is not used there. -/
def fourierTransform (S : Sympy) (e : Expr) (n : ℤ) : Except Err PyObj :=
  if isAdd e = true ∨ hasPhi e = false then
    if hasPhi e = false then
      if n = 0 then .ok (.sy e) else .ok (.native 0 0)
    else do
      let rel ← relevantCodes n
      let args ← e.args.mapM (transformArg S rel)
      return .sy (S.norm (.add args))
  else do
    let row ← Dict.get Lookup.table (getCode (keyterm e))
    let v ← pyGet row (n2i n 16)
    if v.isZero = false then return .sy (S.norm (.mul (quotientArgs e ++ [v.sympify S])))
    else return .native 0 0

/-- `form_to_fform`, data_handler.py:1285-1312. -/
def formToFform (S : Sympy) (form : FormContainer) (M : ℕ) : Except Err FFormContainer := do
  let iterable ← form.getItems.foldlM (fun (it : Dict Key RawFF) kv => do
    let a ← fillFreqs M (PyObj.native 0 0) (2 * M + 1) (fun m => fourierTransform S kv.2 m)
    return Dict.set it kv.1 (.objArr a)) []
  FFormContainer.init S (iterable.map (fun kv => (.str kv.1, kv.2))) M

/-- `_formula_from_fexpr`, data_handler.py:1217-1221. -/
def formulaFromFexpr (S : Sympy) (t : FArr) (M : ℕ) : Except Err Expr :=
  (freqs M).foldlM (fun expr m => do
    let o ← pyGet t.objs (n2i m M)
    return S.add expr (S.mul (o.sympify S) (FFormContainer.phaseFactor S (.sym phi) m))) (.num 0)

/-- `fform_to_form`, data_handler.py:1192-1214. -/
def fformToForm (S : Sympy) (fform : FFormContainer) : Except Err FormContainer := do
  let iterable ← fform.getItems.foldlM (fun (it : Dict Key PyObj) kv => do
    let e ← formulaFromFexpr S kv.2 fform.getM
    return Dict.set it kv.1 (.sy e)) []
  FormContainer.init S (iterable.map (fun kv => (.str kv.1, kv.2)))

end Shgpy
