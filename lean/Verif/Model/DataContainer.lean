import Verif.Py.Basic
import Verif.Py.Num

/-!
# Model of `shgpy/core/data_handler.py`, class `DataContainer` (lines 18-417)

`K` stands for the numpy floats (exact arithmetic, see `Verif/Py/Num.lean`).  Numpy arrays of shape `(2, n)`
are lists of `(x, y)` points.  Complex arrays are in `Model/ComplexInput.lean`, `nan` and `inf`
in `Model/NonFinite.lean`.
-/

namespace Shgpy

/-- A key of the defining iterable: a `str`, or some object of another type (numbered). -/
inductive RawKey
  | str (s : Key)
  | other (n : Nat)
  deriving DecidableEq, Repr

/-- The dtype classes that `DataContainer` distinguishes. -/
inductive DType
  | int
  | float
  | object
  deriving DecidableEq, Repr

/-- A value of the defining iterable: a 2-D `ndarray` given by its rows, or anything else (an array of
another dimension, a list, ...). -/
inductive RawVal (K : Type)
  | arr2 (dt : DType) (rows : List (List K))
  | other

/-- A validated array: whether its dtype is integral, and the points `zip(v[0], v[1])`.  Rows beyond the
second are dropped: `_remove_duplicates` (data_handler.py:92-99) rebuilds every array from `v[0], v[1]`. -/
structure NArr (K : Type) where
  isInt : Bool
  pts : List (K × K)

/-- `'radians'`. -/
def sRadians : Key := ['r', 'a', 'd', 'i', 'a', 'n', 's']
/-- `'degrees'`. -/
def sDegrees : Key := ['d', 'e', 'g', 'r', 'e', 'e', 's']
def kPP : Key := ['P', 'P']
def kPS : Key := ['P', 'S']
def kSP : Key := ['S', 'P']
def kSS : Key := ['S', 'S']

/-- `str.lower` (ASCII letters only). -/
def lower (s : Key) : Key := s.map Char.toLower
/-- `str.upper` (ASCII letters only). -/
def upper (s : Key) : Key := s.map Char.toUpper

/-- A `DataContainer` instance: `_data_dict` (data_handler.py:54), `_scale`, `_phase_shift`, `_offset`,
`_coerced`, `_input_angle_units` (data_handler.py:52-57).  `offset = none` stands for `-inf`, which
`subtract_min` records on a container without keys. -/
structure DataContainer (K : Type) where
  data : Dict Key (List (K × K))
  scale : K
  phaseShift : K
  offset : Option K
  coerced : Bool
  units : Key

/-- `_check_angle_units`, data_handler.py:75-77 (and 467-469). -/
def checkAngleUnits (u : Key) : Except Err Unit :=
  if u = sRadians ∨ u = sDegrees then .ok () else .error .valueError

section
variable {K : Type} [Field K] [LinearOrder K] [FloorRing K] [HasPi K]

/-- One value test of `_check_defining_iterable`, data_handler.py:82, together with the projection to
`(v[0], v[1])`.  A missing row makes `v[1]` raise, which lines 83-84 turn into `ValueError` as well. -/
def checkVal : RawVal K → Option (NArr K)
  | .arr2 dt (r0 :: r1 :: _) =>
      if r0.length = r1.length ∧ dt ≠ .object then
        some ⟨decide (dt = .int), r0.zip r1⟩
      else none
  | _ => none

/-- `_check_defining_iterable`, data_handler.py:79-86, applied to `dict(iterable)`. -/
def checkIterable : Dict RawKey (RawVal K) → Except Err (Dict Key (NArr K))
  | [] => .ok []
  | (k, v) :: r =>
      match k, checkVal v, checkIterable r with
      | .str s, some a, .ok r' => .ok ((s, a) :: r')
      | _, _, _ => .error .valueError

/-- Assigning a float into an array of integer dtype truncates towards zero. -/
def castTo (isInt : Bool) (x : K) : K :=
  if isInt then (if 0 ≤ x then ((⌊x⌋ : ℤ) : K) else ((⌈x⌉ : ℤ) : K)) else x

/-- `_convert_data_dict_to_radians`, data_handler.py:137-138; the result has float dtype. -/
def toRadians (d : Dict Key (NArr K)) : Dict Key (NArr K) :=
  d.mapVals (fun v => ⟨false, v.pts.map (fun p => (deg2rad p.1, p.2))⟩)

/-- `k.upper()[:2]`, data_handler.py:102. -/
def normKey (k : Key) : Key := (upper k).take 2

/-- The partner `copy_pc` of a missing combination, data_handler.py:118-121. -/
def copyPc : Key → Key
  | [a, b] => if a = b then (if a = 'P' then kSS else kPP) else [b, a]
  | k => k

/-- The loop over `leftover`, data_handler.py:117-124. -/
def fillLeftover (d : Dict Key (NArr K)) : List Key → Except Err (Dict Key (NArr K))
  | [] => .ok d
  | k :: r => do
      let v ← Dict.get d (copyPc k)
      let v' : NArr K :=
        ⟨v.isInt, v.pts.map (fun p => (castTo v.isInt (pmod (p.1 + HasPi.pi / 2)), p.2))⟩
      fillLeftover (Dict.set d k v') r

/-- `_coerce_to_oblique_incidence`, data_handler.py:101-124. -/
def coerceOblique (d : Dict Key (NArr K)) : Except Err (Dict Key (NArr K)) :=
  let ks := (Dict.keys d).map normKey
  let renamed : Dict Key (NArr K) := Dict.ofPairs (d.map (fun p => (normKey p.1, p.2)))
  if setEq ks [kPP, kPS, kSP, kSS] then .ok renamed
  else if setEq ks [kPP, kPS] || setEq ks [kPP, kSP] || setEq ks [kSS, kPS] || setEq ks [kSS, kSP] then
    fillLeftover renamed
      ((Dict.keys renamed).foldl (fun l k => l.erase k) [kPP, kPS, kSP, kSS])
  else .error .valueError

/-- The inner loop of `_remove_duplicates`, data_handler.py:90-95: a point is kept unless its angle modulo
2π equals an angle (not reduced) that was kept before. -/
def dedupFrom (kept : List (K × K)) : List (K × K) → List (K × K)
  | [] => kept
  | p :: r =>
      if pmod p.1 ∈ kept.map Prod.fst then dedupFrom kept r else dedupFrom (kept ++ [p]) r

/-- `_remove_duplicates`, data_handler.py:88-99. -/
def removeDuplicates (d : Dict Key (NArr K)) : Dict Key (NArr K) :=
  d.mapVals (fun v => ⟨v.isInt, dedupFrom [] v.pts⟩)

/-- The keys for which `_remove_duplicates` warns, data_handler.py:96-97. -/
def duplicateWarnings (d : Dict Key (NArr K)) : List Key :=
  (d.filter (fun p => (dedupFrom [] p.2.pts).length != p.2.pts.length)).map Prod.fst

/-- `_modulate_data_dict` on one array, data_handler.py:133-135.  An array without points has become
one-dimensional in `_remove_duplicates`, so the unpacking in line 133 raises `ValueError`. -/
def modulate (v : NArr K) : Except Err (NArr K) :=
  if v.pts = [] then .error .valueError
  else .ok ⟨v.isInt, v.pts.map (fun p => (castTo v.isInt (pmod p.1), p.2))⟩

/-- `sorted(zip(v[0], v[1]), key=lambda x: x[0])`, data_handler.py:128; Python's sort is stable. -/
def sortPts (l : List (K × K)) : List (K × K) := l.mergeSort (fun a b => decide (a.1 ≤ b.1))

/-- `DataContainer.__init__`, data_handler.py:48-65.  The second component lists the keys for which a
duplicate warning was issued. -/
def DataContainer.init (iter : List (RawKey × RawVal K)) (units : Key) (normalToOblique : Bool) :
    Except Err (DataContainer K × List Key) := do
  checkAngleUnits units
  let d ← checkIterable (Dict.ofPairs iter)
  let d := if units = sDegrees then toRadians d else d
  let d ← if normalToOblique then coerceOblique d else .ok d
  let w := duplicateWarnings d
  let d := removeDuplicates d
  let d ← d.mapValsM modulate
  let d := d.mapVals (fun v => sortPts v.pts)
  return (⟨d, 1, 0, some 0, normalToOblique, units⟩, w)

namespace DataContainer

/-- `max(l)` on a sequence; `ValueError` when empty. -/
def pyMax : List K → Except Err K
  | [] => .error .valueError
  | a :: r => .ok (r.foldl (fun m x => if x > m then x else m) a)

/-- `min(l)` on a sequence; `ValueError` when empty. -/
def pyMin : List K → Except Err K
  | [] => .error .valueError
  | a :: r => .ok (r.foldl (fun m x => if x < m then x else m) a)

/-- The loop of `get_maxval`, data_handler.py:185-191; `none` stands for `(None, -inf)`. -/
def maxLoop (best : Option (Key × K)) : Dict Key (List (K × K)) → Except Err (Option (Key × K))
  | [] => .ok best
  | (k, v) :: r => do
      let m ← pyMax (v.map Prod.snd)
      match best with
      | none => maxLoop (some (k, m)) r
      | some (k', m') => if m > m' then maxLoop (some (k, m)) r else maxLoop (some (k', m')) r

/-- `get_maxval`, data_handler.py:175-191. -/
def getMaxval (c : DataContainer K) : Except Err (Option (Key × K)) := maxLoop none c.data

/-- The loop of `get_minval`, data_handler.py:217-223; `none` stands for `(None, inf)`. -/
def minLoop (best : Option (Key × K)) : Dict Key (List (K × K)) → Except Err (Option (Key × K))
  | [] => .ok best
  | (k, v) :: r => do
      let m ← pyMin (v.map Prod.snd)
      match best with
      | none => minLoop (some (k, m)) r
      | some (k', m') => if m < m' then minLoop (some (k, m)) r else minLoop (some (k', m')) r

/-- `get_minval`, data_handler.py:207-223. -/
def getMinval (c : DataContainer K) : Except Err (Option (Key × K)) := minLoop none c.data

/-- `get_pc_maxval`, data_handler.py:193-205. -/
def getPcMaxval (c : DataContainer K) (pc : Key) : Except Err K := do
  let v ← Dict.get c.data pc
  pyMax (v.map Prod.snd)

/-- `get_pc_minval`, data_handler.py:225-237. -/
def getPcMinval (c : DataContainer K) (pc : Key) : Except Err K := do
  let v ← Dict.get c.data pc
  pyMin (v.map Prod.snd)

/-- `scale_data`, data_handler.py:161-166, as a function returning the updated instance (see `scaleDataM` for
the statement order). -/
def scaleData (c : DataContainer K) (s : K) : Except Err (DataContainer K) :=
  if s < 0 then .error .valueError
  else .ok { c with
    data := c.data.mapVals (fun v => v.map (fun p => (p.1, s * p.2)))
    scale := c.scale * s }

/-- `subtract_min`, data_handler.py:168-173, as a function (see `subtractMinM`). -/
def subtractMin (c : DataContainer K) : Except Err (DataContainer K) := do
  match ← c.getMinval with
  | none => return { c with offset := none }
  | some (_, m) =>
    return { c with
      data := c.data.mapVals (fun v => v.map (fun p => (p.1, p.2 - m)))
      offset := c.offset.map (fun o => o - m) }

/-- `normalize_data`, data_handler.py:243-246.  On a container without keys the maximum is `-inf` and the
factor is `-0.0`.  A zero maximum makes the factor `inf`, `nan` (outside the model: `nonFinite`) or, for a
negative `d`, `-inf` (rejected by `scale_data`). -/
def normalizeData (c : DataContainer K) (d : K) : Except Err (DataContainer K) := do
  match ← c.getMaxval with
  | none => c.scaleData 0
  | some (_, m) =>
    if m = 0 then (if d < 0 then .error .valueError else .error .nonFinite)
    else c.scaleData (d / m)

/-- The angle in radians that `phase_shift_data` and `phase_shift_fdata` use, data_handler.py:257-260. -/
def angleOf (a : K) (units : Key) : Except Err K := do
  checkAngleUnits (lower units)
  if lower units = sDegrees then return deg2rad a else return a

/-- `phase_shift_data`, data_handler.py:248-263, as a function (see `phaseShiftDataM`). -/
def phaseShiftData (c : DataContainer K) (a : K) (units : Key) : Except Err (DataContainer K) := do
  let a ← angleOf a units
  return { c with
    data := c.data.mapVals (fun v => sortPts (v.map (fun p => (pmod (p.1 + a), p.2))))
    phaseShift := c.phaseShift + a }

/-- The loop of `filter`, data_handler.py:157-159: the dictionary reached and the exception that stopped
the loop, if any.  The user function is modelled as not writing into the array it receives.  A result of another length makes `np.array([xdata, new_ydata])` raise `ValueError`. -/
def filterLoop (f : List K → Except Err (List K)) :
    Dict Key (List (K × K)) → Dict Key (List (K × K)) × Option Err
  | [] => ([], none)
  | (k, v) :: r =>
      match f (v.map Prod.snd) with
      | .error e => ((k, v) :: r, some e)
      | .ok ys =>
        if ys.length = v.length then
          let (r', e) := filterLoop f r
          ((k, (v.map Prod.fst).zip ys) :: r', e)
        else ((k, v) :: r, some .valueError)

/-- `_get_data_dict_degrees`, data_handler.py:140-141. -/
def dataDegrees (c : DataContainer K) : Dict Key (List (K × K)) :=
  c.data.mapVals (fun v => v.map (fun p => (rad2deg p.1, p.2)))

/-- `get_items`, data_handler.py:374-395. -/
def getItems (c : DataContainer K) (units : Key) : Except Err (Dict Key (List (K × K))) := do
  checkAngleUnits (lower units)
  if lower units = sRadians then return c.data else return c.dataDegrees

/-- `get_values`, data_handler.py:299-320. -/
def getValues (c : DataContainer K) (units : Key) : Except Err (List (List (K × K))) := do
  checkAngleUnits (lower units)
  if lower units = sRadians then return c.data.values else return c.dataDegrees.values

/-- `get_pc`, data_handler.py:265-286. -/
def getPc (c : DataContainer K) (pc : Key) (units : Key) : Except Err (List (K × K)) := do
  checkAngleUnits (lower units)
  if lower units = sRadians then Dict.get c.data pc else Dict.get c.dataDegrees pc

/-- `get_keys`, data_handler.py:288-297. -/
def getKeys (c : DataContainer K) : List Key := c.data.keys

/-- `get_scale`, data_handler.py:397-399. -/
def getScale (c : DataContainer K) : K := c.scale

/-- `get_offset`, data_handler.py:239-241; `none` is `-inf`. -/
def getOffset (c : DataContainer K) : Option K := c.offset

/-- `get_phase_shift`, data_handler.py:401-417. -/
def getPhaseShift (c : DataContainer K) (units : Key) : Except Err K := do
  checkAngleUnits (lower units)
  if lower units = sRadians then return c.phaseShift else return rad2deg c.phaseShift

/-! ### The mutating methods statement by statement

`ExceptT Err (StateM _)`: an exception leaves the instance as the statements executed so far have made it. -/

/-- A method body acting on an instance. -/
abbrev Meth (σ α : Type) := ExceptT Err (StateM σ) α

/-- Raise the exception of a pure computation. -/
def liftE {σ α : Type} (x : Except Err α) : Meth σ α := fun s => (x, s)

/-- `scale_data`, data_handler.py:161-166. -/
def scaleDataM (s : K) : Meth (DataContainer K) Unit := do
  if s < 0 then throw .valueError
  modify fun c => { c with data := c.data.mapVals (fun v => v.map (fun p => (p.1, s * p.2))) }
  modify fun c => { c with scale := c.scale * s }

/-- `subtract_min`, data_handler.py:168-173. -/
def subtractMinM : Meth (DataContainer K) Unit := do
  let m ← liftE (← get).getMinval
  match m with
  | none => modify fun c => { c with offset := none }
  | some (_, m) =>
    modify fun c => { c with data := c.data.mapVals (fun v => v.map (fun p => (p.1, p.2 - m))) }
    modify fun c => { c with offset := c.offset.map (fun o => o - m) }

/-- `normalize_data`, data_handler.py:243-246; see `normalizeData` for the empty and zero cases. -/
def normalizeDataM (d : K) : Meth (DataContainer K) Unit := do
  let m ← liftE (← get).getMaxval
  match m with
  | none => scaleDataM 0
  | some (_, m) =>
    if m = 0 then (if d < 0 then throw .valueError else throw .nonFinite)
    else scaleDataM (d / m)

/-- `phase_shift_data`, data_handler.py:248-263. -/
def phaseShiftDataM (a : K) (units : Key) : Meth (DataContainer K) Unit := do
  let units := lower units
  liftE (checkAngleUnits units)
  let a := if units = sDegrees then deg2rad a else a
  modify fun c => { c with data := c.data.mapVals (fun v => v.map (fun p => (pmod (p.1 + a), p.2))) }
  modify fun c => { c with phaseShift := c.phaseShift + a }
  modify fun c => { c with data := c.data.mapVals sortPts }

/-- `filter`, data_handler.py:143-159; the loop is `filterLoop`. -/
def filterM (f : List K → Except Err (List K)) : Meth (DataContainer K) Unit := fun c =>
  let (d, e) := filterLoop f c.data
  ((match e with | none => .ok () | some e => .error e), { c with data := d })

/-- The mutating methods of `DataContainer`. -/
inductive Op (K : Type)
  | scale (s : K)
  | subtractMin
  | normalize (d : K)
  | phaseShift (a : K) (units : Key)
  | filter (f : List K → Except Err (List K))

/-- The method body of an operation. -/
def Op.body : Op K → Meth (DataContainer K) Unit
  | .scale s => scaleDataM s
  | .subtractMin => subtractMinM
  | .normalize d => normalizeDataM d
  | .phaseShift a u => phaseShiftDataM a u
  | .filter f => filterM f

/-- One method call: the state afterwards and the exception raised, if any. -/
def step (c : DataContainer K) (op : Op K) : DataContainer K × Option Err :=
  match op.body c with
  | (.ok _, c') => (c', none)
  | (.error e, c') => (c', some e)

/-- A history: the caller catches exceptions and goes on. -/
def run (c : DataContainer K) (ops : List (Op K)) : DataContainer K :=
  ops.foldl (fun c op => (step c op).1) c

end DataContainer
end
end Shgpy
