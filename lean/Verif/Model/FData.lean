import Verif.Model.DataContainer
import Verif.Py.Arr
import Mathlib.Analysis.Complex.Trigonometric
import Mathlib.Analysis.Complex.Norm

/-!
# Model of `shgpy/core/data_handler.py`, class `fDataContainer` (lines 420-675)

Complex arrays are lists over `ℂ` with exact arithmetic (the rounding to `complex64` is not modelled); real
factors and angles are reals.  `M` is a natural number.
-/

namespace Shgpy

/-- dtypes as far as `_check_defining_iterable` (data_handler.py:461) distinguishes them. -/
inductive CDType
  | complex64
  | complex128
  | other
  deriving DecidableEq

/-- A value of the defining iterable: a one-dimensional `ndarray`, or anything else. -/
inductive RawFVal
  | arr1 (dt : CDType) (v : List ℂ)
  | other

/-- The value of the attribute `_phase_shift`: a number, the one-element tuple that `copy` stores
(data_handler.py:453), or the array that `np.rad2deg` makes of such a tuple. -/
inductive Phase
  | num (a : ℝ)
  | tup (p : Phase)
  | nd (p : Phase)

/-- An `fDataContainer` instance, data_handler.py:443-447. -/
structure FDataContainer where
  fdata : Dict Key (List ℂ)
  M : ℕ
  scale : ℝ
  phaseShift : Phase

/-- The value test of `_check_defining_iterable`, data_handler.py:461. -/
def checkFVal (M : ℕ) : RawFVal → Option (List ℂ)
  | .arr1 dt v => if v.length = 2 * M + 1 ∧ (dt = .complex64 ∨ dt = .complex128) then some v else none
  | .other => none

/-- `_check_defining_iterable`, data_handler.py:456-465, applied to `dict(iterable)`. -/
def checkFIterable (M : ℕ) : Dict RawKey RawFVal → Except Err (Dict Key (List ℂ))
  | [] => .ok []
  | (k, v) :: r =>
      match k, checkFVal M v, checkFIterable M r with
      | .str s, some a, .ok r' => .ok ((s, a) :: r')
      | _, _, _ => .error .valueError

namespace FDataContainer

/-- `fDataContainer.__init__`, data_handler.py:442-447. -/
def init (iter : List (RawKey × RawFVal)) (M : ℕ) : Except Err FDataContainer := do
  let d ← checkFIterable M (Dict.ofPairs iter)
  return ⟨d, M, 1, .num 0⟩

/-- `get_keys`, data_handler.py:522-531. -/
def getKeys (c : FDataContainer) : List Key := c.fdata.keys

/-- `get_items`, data_handler.py:546-557. -/
def getItems (c : FDataContainer) : Dict Key (List ℂ) := c.fdata

/-- `get_values`, data_handler.py:533-544. -/
def getValues (c : FDataContainer) : List (List ℂ) := c.fdata.values

/-- `get_pc`, data_handler.py:593-606. -/
def getPc (c : FDataContainer) (pc : Key) : Except Err (List ℂ) := Dict.get c.fdata pc

/-- `get_M`, data_handler.py:563-567. -/
def getM (c : FDataContainer) : ℕ := c.M

/-- `get_scale`, data_handler.py:559-561. -/
def getScale (c : FDataContainer) : ℝ := c.scale

/-- `np.rad2deg` of the attribute: tuples become arrays. -/
noncomputable def phaseToDeg : Phase → Phase
  | .num a => .num (rad2deg a)
  | .tup p => .nd (phaseToDeg p)
  | .nd p => .nd (phaseToDeg p)

/-- `get_phase_shift`, data_handler.py:569-584. -/
noncomputable def getPhaseShift (c : FDataContainer) (units : Key) : Except Err Phase := do
  checkAngleUnits (lower units)
  if lower units = sDegrees then return phaseToDeg c.phaseShift
  return c.phaseShift

/-- The loop of `get_maxval`, data_handler.py:626-630; `none` stands for `(None, -inf)`. -/
noncomputable def maxLoop (best : Option (Key × ℝ)) : Dict Key (List ℂ) → Except Err (Option (Key × ℝ))
  | [] => .ok best
  | (k, v) :: r => do
      let m ← DataContainer.pyMax (v.map (fun z => ‖z‖))
      match best with
      | none => maxLoop (some (k, m)) r
      | some (k', m') => if m > m' then maxLoop (some (k, m)) r else maxLoop (some (k', m')) r

/-- `get_maxval`, data_handler.py:608-631. -/
noncomputable def getMaxval (c : FDataContainer) : Except Err (Option (Key × ℝ)) := maxLoop none c.fdata

/-- `get_pc_maxval`, data_handler.py:633-649. -/
noncomputable def getPcMaxval (c : FDataContainer) (pc : Key) : Except Err ℝ := do
  let v ← Dict.get c.fdata pc
  DataContainer.pyMax (v.map (fun z => ‖z‖))

open DataContainer (Meth liftE)

/-- `scale_fdata`, data_handler.py:586-591. -/
noncomputable def scaleFdataM (s : ℝ) : Meth FDataContainer Unit := do
  if s < 0 then throw .valueError
  modify fun c => { c with fdata := c.fdata.mapVals (fun v => v.map (fun z => (s : ℂ) * z)) }
  modify fun c => { c with scale := c.scale * s }

/-- `normalize_fdata`, data_handler.py:651-654.  Without keys the maximum is `-inf` and the factor is a zero.
A zero maximum gives `inf`/`nan` (`nonFinite`), or `-inf`, which `scale_fdata` rejects. -/
noncomputable def normalizeFdataM (d : ℝ) : Meth FDataContainer Unit := do
  let m ← liftE (← get).getMaxval
  match m with
  | none => scaleFdataM 0
  | some (_, m) =>
    if m = 0 then (if d < 0 then throw .valueError else throw .nonFinite)
    else scaleFdataM (d / m)

/-- The inner loop of `phase_shift_fdata`, data_handler.py:671-673. -/
noncomputable def shiftArr (M : ℕ) (angle : ℝ) (fexpr : List ℂ) : Except Err (List ℂ) :=
  fillFreqs M 0 fexpr.length (fun m => do
    let z ← pyGet fexpr (n2i m M)
    return z * ((Real.cos (m * angle) : ℂ) + Complex.I * (Real.sin (m * angle) : ℂ)))

/-- The outer loop of `phase_shift_fdata`, data_handler.py:669-674, over the remaining keys. -/
noncomputable def shiftLoop (angle : ℝ) : List Key → Meth FDataContainer Unit
  | [] => pure ()
  | k :: ks => do
      let fexpr ← liftE (Dict.get (← get).fdata k)
      let ans ← liftE (shiftArr (← get).M angle fexpr)
      modify fun c => { c with fdata := Dict.set c.fdata k ans }
      shiftLoop angle ks

/-- `self._phase_shift += angle`, data_handler.py:675: adding a number to a tuple raises `TypeError`; an
array never occurs here. -/
noncomputable def addPhase (angle : ℝ) : Meth FDataContainer Unit := do
  match (← get).phaseShift with
  | .num a => modify fun c => { c with phaseShift := .num (a + angle) }
  | _ => throw .typeError

/-- `phase_shift_fdata`, data_handler.py:656-675. -/
noncomputable def phaseShiftFdataM (angle : ℝ) (units : Key) : Meth FDataContainer Unit := do
  let units := lower units
  liftE (checkAngleUnits units)
  let angle := if units = sDegrees then deg2rad angle else angle
  shiftLoop angle (← get).getKeys
  addPhase angle

/-- `copy`, data_handler.py:449-454 (the stray comma in line 453 makes a tuple).  The dictionary passes the
check of the constructor unchanged; its arrays are complex. -/
def copy (c : FDataContainer) : Except Err FDataContainer := do
  let f ← init (c.fdata.map (fun it => (.str it.1, .arr1 .complex128 it.2))) c.M
  let f := { f with scale := c.scale }
  let f := { f with phaseShift := .tup c.phaseShift }
  return f

/-- The mutating methods of `fDataContainer`. -/
inductive Op
  | scale (s : ℝ)
  | normalize (d : ℝ)
  | phaseShift (a : ℝ) (units : Key)

/-- The method body of an operation. -/
noncomputable def Op.body : Op → Meth FDataContainer Unit
  | .scale s => scaleFdataM s
  | .normalize d => normalizeFdataM d
  | .phaseShift a u => phaseShiftFdataM a u

/-- One method call: the state afterwards and the exception raised, if any. -/
noncomputable def step (c : FDataContainer) (op : Op) : FDataContainer × Option Err :=
  match op.body c with
  | (.ok _, c') => (c', none)
  | (.error e, c') => (c', some e)

/-- A history: the caller catches exceptions and goes on. -/
noncomputable def run (c : FDataContainer) (ops : List Op) : FDataContainer :=
  ops.foldl (fun c op => (step c op).1) c

end FDataContainer
end Shgpy
