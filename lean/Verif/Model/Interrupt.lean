import Verif.Model.FData
import Verif.Model.Form

/-!
# Methods that are stopped in the middle

`KeyboardInterrupt` (or an exception from a signal handler) can end a method between any two of its statements.  What it leaves is the
instance as the assignments made so far have made it.  `moments op` lists the instance before the call and after each assignment to an
attribute or to an item of its dictionary.  A single assignment is atomic.  The arrays are new objects in each assignment, so
none is seen half filled.
-/

namespace Shgpy

/-- `for k, v in d.items(): d[k] = f(v)`: the dictionary after each assignment; the first argument are the remaining items. -/
def loopStates {α : Type} (f : α → α) : List (Key × α) → Dict Key α → List (Dict Key α)
  | [], _ => []
  | (k, v) :: r, d => Dict.set d k (f v) :: loopStates f r (Dict.set d k (f v))

namespace DataContainer

variable {K : Type} [Field K] [LinearOrder K] [FloorRing K] [HasPi K]

/-- The loop of `filter`, data_handler.py:157-159: the dictionary after each assignment.  The loop ends when the user function, or making
the array, raises. -/
def filterStates (f : List K → Except Err (List K)) : List (Key × List (K × K)) → Dict Key (List (K × K)) → List (Dict Key (List (K × K)))
  | [], _ => []
  | (k, v) :: r, d =>
      match f (v.map Prod.snd) with
      | .error _ => []
      | .ok ys =>
        if ys.length = v.length then
          Dict.set d k ((v.map Prod.fst).zip ys) :: filterStates f r (Dict.set d k ((v.map Prod.fst).zip ys))
        else []

/-- `scale_data`, data_handler.py:161-166: the new dictionary is assigned, and then the scale. -/
def scaleMoments (c : DataContainer K) (s : K) : List (DataContainer K) :=
  if s < 0 then [c]
  else
    let d := c.data.mapVals (fun v => v.map (fun p => (p.1, s * p.2)))
    [c, { c with data := d }, { c with data := d, scale := c.scale * s }]

/-- `subtract_min`, data_handler.py:168-173: each combination is assigned, and then the offset. -/
def subtractMoments (c : DataContainer K) : List (DataContainer K) :=
  match c.getMinval with
  | .error _ => [c]
  | .ok none => [c, { c with offset := none }]
  | .ok (some (_, m)) =>
    let l := loopStates (fun v => v.map (fun p => (p.1, p.2 - m))) c.data c.data
    c :: l.map (fun d => { c with data := d }) ++ [{ c with data := l.getLastD c.data, offset := c.offset.map (fun o => o - m) }]

/-- `phase_shift_data`, data_handler.py:248-263: the new dictionary, the phase shift, and then each combination with its points sorted
(`_sort_data_dict`, data_handler.py:126-129). -/
def shiftMoments (c : DataContainer K) (a : K) (units : Key) : List (DataContainer K) :=
  match angleOf a units with
  | .error _ => [c]
  | .ok a =>
    let d := c.data.mapVals (fun v => v.map (fun p => (pmod (p.1 + a), p.2)))
    [c, { c with data := d }, { c with data := d, phaseShift := c.phaseShift + a }] ++
      (loopStates sortPts d d).map (fun d' => { c with data := d', phaseShift := c.phaseShift + a })

/-- `normalize_data`, data_handler.py:243-246; see `normalizeData` for the empty and zero cases. -/
def normalizeMoments (c : DataContainer K) (d : K) : List (DataContainer K) :=
  match c.getMaxval with
  | .error _ => [c]
  | .ok none => c.scaleMoments 0
  | .ok (some (_, m)) => if m = 0 then [c] else c.scaleMoments (d / m)

/-- The instance at the moments of a method call. -/
def moments (c : DataContainer K) : Op K → List (DataContainer K)
  | .scale s => c.scaleMoments s
  | .subtractMin => c.subtractMoments
  | .normalize d => c.normalizeMoments d
  | .phaseShift a u => c.shiftMoments a u
  | .filter f => c :: (filterStates f c.data c.data).map (fun d => { c with data := d })

/-- A history in which each call is stopped at the moment with the given number, or completed when there are fewer. -/
def runCut (c : DataContainer K) (l : List (Op K × ℕ)) : DataContainer K :=
  l.foldl (fun c on => ((c.moments on.1)[on.2]?).getD (step c on.1).1) c

end DataContainer

namespace FDataContainer

/-- `scale_fdata`, data_handler.py:586-591. -/
noncomputable def scaleMoments (c : FDataContainer) (s : ℝ) : List FDataContainer :=
  if s < 0 then [c]
  else
    let d := c.fdata.mapVals (fun v => v.map (fun z => (s : ℂ) * z))
    [c, { c with fdata := d }, { c with fdata := d, scale := c.scale * s }]

/-- `normalize_fdata`, data_handler.py:651-654. -/
noncomputable def normalizeMoments (c : FDataContainer) (d : ℝ) : List FDataContainer :=
  match c.getMaxval with
  | .error _ => [c]
  | .ok none => c.scaleMoments 0
  | .ok (some (_, m)) => if m = 0 then [c] else c.scaleMoments (d / m)

/-- The loop of `phase_shift_fdata`, data_handler.py:669-674, over the remaining keys: the instance after each assignment. -/
noncomputable def shiftStates (angle : ℝ) : List Key → FDataContainer → List FDataContainer
  | [], _ => []
  | k :: ks, c =>
    match Dict.get c.fdata k with
    | .error _ => []
    | .ok fexpr =>
      match shiftArr c.M angle fexpr with
      | .error _ => []
      | .ok ans => { c with fdata := Dict.set c.fdata k ans } :: shiftStates angle ks { c with fdata := Dict.set c.fdata k ans }

/-- `self._phase_shift += angle`, data_handler.py:675, when the loop has ended with this instance. -/
noncomputable def recordShift (angle : ℝ) (c : FDataContainer) : List FDataContainer :=
  match c.phaseShift with
  | .num p => [{ c with phaseShift := .num (p + angle) }]
  | _ => []

/-- `phase_shift_fdata`, data_handler.py:656-675: each combination, and then the phase shift.  For arrays of the right length, which a
container always has, the loop does not raise. -/
noncomputable def shiftMoments (c : FDataContainer) (a : ℝ) (units : Key) : List FDataContainer :=
  match checkAngleUnits (lower units) with
  | .error _ => [c]
  | .ok _ =>
    let angle := if lower units = sDegrees then deg2rad a else a
    let l := shiftStates angle c.getKeys c
    c :: l ++ recordShift angle (l.getLastD c)

/-- The instance at the moments of a method call. -/
noncomputable def moments (c : FDataContainer) : Op → List FDataContainer
  | .scale s => c.scaleMoments s
  | .normalize d => c.normalizeMoments d
  | .phaseShift a u => c.shiftMoments a u

end FDataContainer

/-- `subs` (data_handler.py:746-760, 941-953), `apply_phase_shift` (762-779, 955-969): the dictionary of the results is made first, and
assigned in the last statement. -/
def atOnce {σ : Type} (body : DataContainer.Meth σ Unit) (c : σ) : List σ :=
  match body c with
  | (.ok _, c') => [c, c']
  | (.error _, _) => [c]

/-- The instance at the moments of a method call of an `fFormContainer`.  `apply_arbitrary_scale`, data_handler.py:890-892, assigns each
combination. -/
def FFormContainer.moments (S : Sympy) (c : FFormContainer) : FFormContainer.Op → List FFormContainer
  | .subs pairs => atOnce (FFormContainer.subsM S pairs) c
  | .phaseShift a => atOnce (FFormContainer.applyPhaseShiftM S a) c
  | .scale s => c :: (loopStates (fun v => .obj (v.objs.map (fun o => S.mul s (o.sympify S)))) c.fform c.fform).map (fun d => { c with fform := d })

/-- The instance at the moments of a method call of a `FormContainer`.  `apply_arbitrary_scale`, `simplify` and `expand`,
data_handler.py:985-993, 1090-1092, assign each combination. -/
def FormContainer.moments (S : Sympy) (c : FormContainer) : FormContainer.Op → List FormContainer
  | .subs pairs => atOnce (FormContainer.subsM S pairs) c
  | .phaseShift a v => atOnce (FormContainer.applyPhaseShiftM S a v) c
  | .scale s => c :: (loopStates (S.mul s) c.form c.form).map (fun d => { c with form := d })
  | .rewrite r => c :: (loopStates r.run c.form c.form).map (fun d => { c with form := d })

end Shgpy
