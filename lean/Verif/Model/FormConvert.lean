import Verif.Model.FourierTransform
import Verif.Model.Convert

/-!
# Model of the conversions from formulas to data (data_handler.py:1103-1129, 1164-1189, 1238-1274, 1315-1338)

The numbers of a substitution dictionary are sympy expressions (a number handed to `subs` is sympified).  Numeric
evaluation of an expression without symbols is exact.
-/

namespace Shgpy

/-- `complex(e)`, as called by `astype(complex)` on an object array: sympy raises `TypeError` for an expression in which
a symbol is left.  The valuation is irrelevant then. -/
noncomputable def Expr.toComplex (e : Expr) : Except Err ℂ :=
  if e.free = [] then .ok (e.eval (fun _ => 0)) else .error .typeError

/-- `v.astype(complex)`, data_handler.py:1128. -/
noncomputable def FArr.astypeComplex : FArr → Except Err (List ℂ)
  | .obj v => v.mapM Expr.toComplex
  | .native v => .ok (v.map (fun z => (z.1 : ℂ) + (z.2 : ℂ) * Complex.I))

/-- A method call inside a function: an exception propagates. -/
def FFormContainer.call (S : Sympy) (c : FFormContainer) (op : FFormContainer.Op) : Except Err FFormContainer :=
  match FFormContainer.step S c op with
  | (c', none) => .ok c'
  | (_, some e) => .error e

/-- A method call inside a function: an exception propagates. -/
def FormContainer.call (S : Sympy) (c : FormContainer) (op : FormContainer.Op) : Except Err FormContainer :=
  match FormContainer.step S c op with
  | (c', none) => .ok c'
  | (_, some e) => .error e

/-- `fform_to_fdat`, data_handler.py:1103-1129.  The copy `fFormContainer(fform.get_items())` has the default
`M = 16`. -/
noncomputable def fformToFdat (S : Sympy) (fform : FFormContainer) (subs : Dict Sym Expr) :
    Except Err FDataContainer := do
  let syms ← fform.getFreeSymbols S
  let pairs ← syms.mapM (fun k => do
    let v ← Dict.get subs k
    return (k, v))
  let new ← FFormContainer.init S fform.toIterable 16
  let new ← new.call S (.subs pairs)
  let iterable ← Dict.mapValsM FArr.astypeComplex new.getItems
  FDataContainer.init (iterable.map (fun kv => (.str kv.1, .arr1 .complex128 kv.2))) new.getM

/-- `fform_to_dat`, data_handler.py:1164-1189. -/
noncomputable def fformToDat (S : Sympy) (fform : FFormContainer) (subs : Dict Sym Expr) (N : ℕ) :
    Except Err (DataContainer ℝ × List Key) := do
  let fdat ← fformToFdat S fform subs
  fdatToDat fdat N

/-- The function `sp.lambdify(S.phi, v)`, data_handler.py:1268, for an expression in which only `phi` is left. -/
noncomputable def lambdifyPhi (v : Expr) (x : ℝ) : ℂ := v.eval (fun s => if s = phi then (x : ℂ) else 0)

/-- `form_to_dat`, data_handler.py:1238-1274. -/
noncomputable def formToDat (S : Sympy) (form : FormContainer) (subs : Dict Sym Expr) (N : ℕ) :
    Except Err (DataContainer ℝ × List Key) := do
  let pairs ← (Dict.keys subs).mapM (fun k => do
    let v ← Dict.get subs k
    return (k, v))
  let new ← FormContainer.init S (form.getItems.map (fun kv => (.str kv.1, .sy kv.2)))
  let new ← new.call S (.subs pairs)
  let syms ← new.getFreeSymbols S
  if syms ≠ [phi] then throw .valueError
  let iterable : Dict Key (RawVal ℝ) := new.getItems.foldl (fun it kv =>
    let xdata := linspace2pi N
    let ydata := xdata.map (lambdifyPhi kv.2)
    Dict.set it kv.1 (.arr2 .float [xdata, ydata.map Complex.re])) []
  DataContainer.init (iterable.map (fun kv => (.str kv.1, kv.2))) sRadians false

/-- `form_to_fdat`, data_handler.py:1315-1338. -/
noncomputable def formToFdat (S : Sympy) (form : FormContainer) (subs : Dict Sym Expr) (M : ℕ) :
    Except Err FDataContainer := do
  let fform ← formToFform S form M
  fformToFdat S fform subs

end Shgpy
