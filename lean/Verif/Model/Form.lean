import Verif.Py.Expr
import Verif.Py.Arr
import Verif.Model.DataContainer

/-!
# Model of `fFormContainer` and `FormContainer` (data_handler.py:678-1092)

`M` is a natural number.  `as_pandas` is in `Model/Pandas.lean`; `__repr__` is not modelled.
-/

namespace Shgpy

/-- An element of an object array or a value handed to sympy: a native Python number (`int`, `float` or `complex`, by
its real and imaginary part) or a sympy expression. -/
inductive PyObj
  | native (re im : ℚ)
  | sy (e : Expr)

namespace PyObj

/-- `sp.sympify`. -/
def sympify (S : Sympy) : PyObj → Expr
  | .native re im => if im = 0 then .num re else S.norm (.add [.num re, .mul [.num im, .I]])
  | .sy e => e

/-- Whether the object is a native number. -/
def isNative : PyObj → Bool
  | .native _ _ => true
  | .sy _ => false

/-- `obj.free_symbols`: numbers have no such attribute. -/
def freeSymbols : PyObj → Except Err (List Sym)
  | .native _ _ => .error .attributeError
  | .sy e => .ok e.free

/-- `obj.subs(pairs)`. -/
def subs (S : Sympy) (pairs : List (Sym × Expr)) : PyObj → Except Err Expr
  | .native _ _ => .error .attributeError
  | .sy e => .ok (S.subs pairs e)

end PyObj

/-- A value of the defining iterable of an `fFormContainer`: a one-dimensional array of dtype `object`, or anything
else (another dtype, another dimension, not an array). -/
inductive RawFF
  | objArr (v : List PyObj)
  | other

/-- A one-dimensional array stored in an `fFormContainer`: of dtype `object` holding sympy expressions, or of a numeric
dtype (real and imaginary parts). -/
inductive FArr
  | obj (v : List Expr)
  | native (v : List (ℚ × ℚ))

namespace FArr

/-- The elements as Python objects. -/
def objs : FArr → List PyObj
  | .obj v => v.map .sy
  | .native v => v.map (fun z => .native z.1 z.2)

/-- Whether the dtype is numeric. -/
def isNative : FArr → Bool
  | .obj _ => false
  | .native _ => true

/-- The array as a value of a defining iterable: a numeric dtype is not `object`. -/
def toRaw : FArr → RawFF
  | .obj v => .objArr (v.map .sy)
  | .native _ => .other

end FArr

/-- The real and imaginary part of a native number. -/
def PyObj.parts : PyObj → ℚ × ℚ
  | .native re im => (re, im)
  | .sy _ => (0, 0)

/-- The new array `np.array([s for s in v])` of `_copy_iterable` (data_handler.py:711-712) after `_sympify`
(data_handler.py:729-732): numpy gives a list of native numbers a numeric dtype, and assigning the sympified numbers
back converts them to native numbers again; otherwise the dtype is `object` and every element is sympified. -/
def fformArray (S : Sympy) (v : List PyObj) : FArr :=
  if v.all PyObj.isNative then .native (v.map PyObj.parts) else .obj (v.map (PyObj.sympify S))

/-- An `fFormContainer` instance, data_handler.py:699-703. -/
structure FFormContainer where
  fform : Dict Key FArr
  M : ℕ

/-- The value test of `_check_defining_iterable`, data_handler.py:721. -/
def checkFFVal (M : ℕ) : RawFF → Option (List PyObj)
  | .objArr v => if v.length = 2 * M + 1 then some v else none
  | .other => none

/-- `_check_defining_iterable`, data_handler.py:716-727, applied to `dict(iterable)`. -/
def checkFFIterable (M : ℕ) : Dict RawKey RawFF → Except Err (Dict Key (List PyObj))
  | [] => .ok []
  | (k, v) :: r =>
      match k, checkFFVal M v, checkFFIterable M r with
      | .str s, some a, .ok r' => .ok ((s, a) :: r')
      | _, _, _ => .error .valueError

namespace FFormContainer
open DataContainer (Meth liftE)

/-- `fFormContainer.__init__`, data_handler.py:699-703. -/
def init (S : Sympy) (iter : List (RawKey × RawFF)) (M : ℕ) : Except Err FFormContainer := do
  let d ← checkFFIterable M (Dict.ofPairs iter)
  return ⟨d.mapVals (fformArray S), M⟩

/-- `get_keys`, data_handler.py:853-862. -/
def getKeys (c : FFormContainer) : List Key := c.fform.keys
/-- `get_values`, data_handler.py:864-875. -/
def getValues (c : FFormContainer) : List FArr := c.fform.values
/-- `get_items`, data_handler.py:877-888. -/
def getItems (c : FFormContainer) : Dict Key FArr := c.fform
/-- `get_pc`, data_handler.py:838-851. -/
def getPc (c : FFormContainer) (pc : Key) : Except Err FArr := Dict.get c.fform pc
/-- `get_M`, data_handler.py:781-785. -/
def getM (c : FFormContainer) : ℕ := c.M

/-- The items of a container, as a defining iterable. -/
def toIterable (c : FFormContainer) : List (RawKey × RawFF) := c.fform.map (fun kv => (.str kv.1, kv.2.toRaw))

/-- `copy`, data_handler.py:705-708. -/
def copy (S : Sympy) (c : FFormContainer) : Except Err FFormContainer := init S c.toIterable c.M

/-- The free symbols of one array, data_handler.py:738-740. -/
def arrFree (M : ℕ) (a : FArr) : Except Err (List Sym) := do
  let ls ← (freqs M).mapM (fun m => do
    let o ← pyGet a.objs (n2i m M)
    o.freeSymbols)
  return ls.flatten

/-- `get_free_symbols`, data_handler.py:735-744. -/
def getFreeSymbols (S : Sympy) (c : FFormContainer) : Except Err (List Sym) := do
  let ls ← c.getKeys.mapM (fun k => do
    let a ← Dict.get c.fform k
    arrFree c.M a)
  return S.sortSyms ls.flatten

/-- The inner loop of `subs`, data_handler.py:757-759. -/
def subsArr (S : Sympy) (M : ℕ) (pairs : List (Sym × Expr)) (a : FArr) : Except Err (List Expr) :=
  fillFreqs M (.num 0) (2 * M + 1) (fun m => do
    let o ← pyGet a.objs (n2i m M)
    o.subs S pairs)

/-- `subs`, data_handler.py:746-760. -/
def subsM (S : Sympy) (pairs : List (Sym × Expr)) : Meth FFormContainer Unit := do
  let c ← get
  let d ← liftE (c.getItems.foldlM (fun (d : Dict Key FArr) kv => do
    let a ← Dict.get c.fform kv.1
    let v ← subsArr S c.M pairs a
    return Dict.set d kv.1 (.obj v)) [])
  modify fun c => { c with fform := d }

/-- `sp.cos(m * a) + 1j*sp.sin(m * a)`, data_handler.py:778. -/
def phaseFactor (S : Sympy) (a : Expr) (m : ℤ) : Expr :=
  S.add (S.cos (S.mul (.num m) a)) (S.mul .I (S.sin (S.mul (.num m) a)))

/-- The inner loop of `apply_phase_shift`, data_handler.py:777-778. -/
def shiftFArr (S : Sympy) (M : ℕ) (a : Expr) (v : FArr) : Except Err (List Expr) :=
  fillFreqs M (.num 0) (2 * M + 1) (fun m => do
    let o ← pyGet v.objs (n2i m M)
    return S.mul (o.sympify S) (phaseFactor S a m))

/-- `apply_phase_shift`, data_handler.py:762-779.  The new dictionary starts with zero arrays for all keys, which the loop
replaces. -/
def applyPhaseShiftM (S : Sympy) (a : Expr) : Meth FFormContainer Unit := do
  let c ← get
  let zero : Dict Key FArr := Dict.ofPairs (c.getKeys.map (fun k => (k, .obj (List.replicate (2 * c.M + 1) (.num 0)))))
  let d ← liftE (c.getKeys.foldlM (fun (d : Dict Key FArr) k => do
    let v ← Dict.get c.fform k
    let v' ← shiftFArr S c.M a v
    return Dict.set d k (.obj v')) zero)
  modify fun c => { c with fform := d }

/-- `apply_arbitrary_scale`, data_handler.py:890-892, with a sympy expression as the scale. -/
def applyScaleM (S : Sympy) (s : Expr) : Meth FFormContainer Unit :=
  modify fun c => { c with fform := c.fform.mapVals (fun v => .obj (v.objs.map (fun o => S.mul s (o.sympify S)))) }

/-- The mutating methods. -/
inductive Op
  | subs (pairs : List (Sym × Expr))
  | phaseShift (a : Expr)
  | scale (s : Expr)

/-- The method body of an operation. -/
def Op.body (S : Sympy) : Op → Meth FFormContainer Unit
  | .subs pairs => subsM S pairs
  | .phaseShift a => applyPhaseShiftM S a
  | .scale s => applyScaleM S s

/-- One method call: the state afterwards and the exception raised, if any. -/
def step (S : Sympy) (c : FFormContainer) (op : Op) : FFormContainer × Option Err :=
  match op.body S c with
  | (.ok _, c') => (c', none)
  | (.error e, c') => (c', some e)

/-- A history: the caller catches exceptions and goes on. -/
def run (S : Sympy) (c : FFormContainer) (ops : List Op) : FFormContainer :=
  ops.foldl (fun c op => (step S c op).1) c

end FFormContainer

/-- A `FormContainer` instance, data_handler.py:915-918. -/
structure FormContainer where
  form : Dict Key Expr

/-- `_check_defining_iterable`, data_handler.py:971-979, applied to `dict(iterable)`. -/
def checkFormIterable : Dict RawKey PyObj → Except Err (Dict Key PyObj)
  | [] => .ok []
  | (k, v) :: r =>
      match k, checkFormIterable r with
      | .str s, .ok r' => .ok ((s, v) :: r')
      | _, _ => .error .valueError

/-- `sp.simplify` and `sp.expand`: sound rewritings. -/
structure Rewriting where
  run : Expr → Expr
  eval_run : ∀ σ e, (run e).eval σ = e.eval σ
  free_run : ∀ e s, s ∈ (run e).free → s ∈ e.free

namespace FormContainer
open DataContainer (Meth liftE)

/-- `FormContainer.__init__`, data_handler.py:915-918. -/
def init (S : Sympy) (iter : List (RawKey × PyObj)) : Except Err FormContainer := do
  let d ← checkFormIterable (Dict.ofPairs iter)
  return ⟨d.mapVals (PyObj.sympify S)⟩

/-- `get_keys`, data_handler.py:1040-1049. -/
def getKeys (c : FormContainer) : List Key := c.form.keys
/-- `get_values`, data_handler.py:1051-1060. -/
def getValues (c : FormContainer) : List Expr := c.form.values
/-- `get_items`, data_handler.py:1062-1073. -/
def getItems (c : FormContainer) : Dict Key Expr := c.form
/-- `get_pc`, data_handler.py:1075-1088. -/
def getPc (c : FormContainer) (pc : Key) : Except Err Expr := Dict.get c.form pc

/-- `copy`, data_handler.py:920-923. -/
def copy (S : Sympy) (c : FormContainer) : Except Err FormContainer :=
  init S (c.form.map (fun kv => (.str kv.1, .sy kv.2)))

/-- `get_free_symbols`, data_handler.py:931-939. -/
def getFreeSymbols (S : Sympy) (c : FormContainer) : Except Err (List Sym) := do
  let ls ← c.getKeys.mapM (fun k => do
    let e ← Dict.get c.form k
    return e.free)
  return S.sortSyms ls.flatten

/-- `subs`, data_handler.py:941-953. -/
def subsM (S : Sympy) (pairs : List (Sym × Expr)) : Meth FormContainer Unit := do
  let c ← get
  let d ← liftE (c.getItems.foldlM (fun (d : Dict Key Expr) kv => do
    let e ← Dict.get c.form kv.1
    return Dict.set d kv.1 (S.subs pairs e)) [])
  modify fun c => { c with form := d }

/-- `apply_phase_shift`, data_handler.py:955-969. -/
def applyPhaseShiftM (S : Sympy) (a : Expr) (var : Sym) : Meth FormContainer Unit :=
  subsM S [(var, S.add (.sym var) a)]

/-- `apply_arbitrary_scale`, data_handler.py:1090-1092. -/
def applyScaleM (S : Sympy) (s : Expr) : Meth FormContainer Unit :=
  modify fun c => { c with form := c.form.mapVals (S.mul s) }

/-- `simplify` and `expand`, data_handler.py:985-993. -/
def rewriteM (r : Rewriting) : Meth FormContainer Unit :=
  modify fun c => { c with form := c.form.mapVals r.run }

/-- The mutating methods. -/
inductive Op
  | subs (pairs : List (Sym × Expr))
  | phaseShift (a : Expr) (var : Sym)
  | scale (s : Expr)
  | rewrite (r : Rewriting)

/-- The method body of an operation. -/
def Op.body (S : Sympy) : Op → Meth FormContainer Unit
  | .subs pairs => subsM S pairs
  | .phaseShift a v => applyPhaseShiftM S a v
  | .scale s => applyScaleM S s
  | .rewrite r => rewriteM r

/-- One method call: the state afterwards and the exception raised, if any. -/
def step (S : Sympy) (c : FormContainer) (op : Op) : FormContainer × Option Err :=
  match op.body S c with
  | (.ok _, c') => (c', none)
  | (.error e, c') => (c', some e)

/-- A history: the caller catches exceptions and goes on. -/
def run (S : Sympy) (c : FormContainer) (ops : List Op) : FormContainer :=
  ops.foldl (fun c op => (step S c op).1) c

end FormContainer

end Shgpy
