import Verif.Model.DataContainer

/-!
# Complex arrays given to `DataContainer` (`shgpy/core/data_handler.py`, lines 48-138)

The test of `_check_defining_iterable` (data_handler.py:82) rejects `object` arrays only, so a 2-D array of
complex numbers passes it.  Numpy has neither `deg2rad` nor `%` for complex numbers: both raise `TypeError`
(`deg2rad` by the dtype alone, so also on an array without points; `x % (2*np.pi)` on a scalar taken from the
array).  The constructor is modelled once more, with complex arrays among the values, statement by statement;
on real arrays every step is the one of `Model/DataContainer.lean`.
-/

namespace Shgpy

/-- A value of the defining iterable: one of `RawVal`, or a 2-D array of complex numbers `(re, im)` given by its
rows. -/
inductive RawValC (K : Type)
  | real (v : RawVal K)
  | cplx (rows : List (List (K × K)))

/-- A validated array: real, or complex with the points `zip(v[0], v[1])`. -/
inductive NArrC (K : Type)
  | real (a : NArr K)
  | cplx (pts : List ((K × K) × (K × K)))

section
variable {K : Type} [Field K] [LinearOrder K] [FloorRing K] [HasPi K]

/-- One value test of `_check_defining_iterable`, data_handler.py:82. -/
def checkValC : RawValC K → Option (NArrC K)
  | .real v => (checkVal v).map .real
  | .cplx (r0 :: r1 :: _) => if r0.length = r1.length then some (.cplx (r0.zip r1)) else none
  | .cplx _ => none

/-- `_check_defining_iterable`, data_handler.py:79-86, applied to `dict(iterable)`. -/
def checkIterableC : Dict RawKey (RawValC K) → Except Err (Dict Key (NArrC K))
  | [] => .ok []
  | (k, v) :: r =>
      match k, checkValC v, checkIterableC r with
      | .str s, some a, .ok r' => .ok ((s, a) :: r')
      | _, _, _ => .error .valueError

/-- `_convert_data_dict_to_radians` on one array, data_handler.py:137-138. -/
def toRadiansC : NArrC K → Except Err (NArrC K)
  | .real v => .ok (.real ⟨false, v.pts.map (fun p => (deg2rad p.1, p.2))⟩)
  | .cplx _ => .error .typeError

/-- The loop over the points of a copied array, data_handler.py:122-124: the first complex angle raises. -/
def rotateC : NArrC K → Except Err (NArrC K)
  | .real v => .ok (.real ⟨v.isInt, v.pts.map (fun p => (castTo v.isInt (pmod (p.1 + HasPi.pi / 2)), p.2))⟩)
  | .cplx [] => .ok (.cplx [])
  | .cplx (_ :: _) => .error .typeError

/-- The loop over `leftover`, data_handler.py:117-124. -/
def fillLeftoverC (d : Dict Key (NArrC K)) : List Key → Except Err (Dict Key (NArrC K))
  | [] => .ok d
  | k :: r => do
      let v ← Dict.get d (copyPc k)
      let v' ← rotateC v
      fillLeftoverC (Dict.set d k v') r

/-- `_coerce_to_oblique_incidence`, data_handler.py:101-124. -/
def coerceObliqueC (d : Dict Key (NArrC K)) : Except Err (Dict Key (NArrC K)) :=
  let ks := (Dict.keys d).map normKey
  let renamed : Dict Key (NArrC K) := Dict.ofPairs (d.map (fun p => (normKey p.1, p.2)))
  if setEq ks [kPP, kPS, kSP, kSS] then .ok renamed
  else if setEq ks [kPP, kPS] || setEq ks [kPP, kSP] || setEq ks [kSS, kPS] || setEq ks [kSS, kSP] then
    fillLeftoverC renamed
      ((Dict.keys renamed).foldl (fun l k => l.erase k) [kPP, kPS, kSP, kSS])
  else .error .valueError

/-- `_remove_duplicates` on one array, data_handler.py:89-99: the first complex angle raises in line 93. -/
def removeDuplicatesC : NArrC K → Except Err (NArrC K)
  | .real v => .ok (.real ⟨v.isInt, dedupFrom [] v.pts⟩)
  | .cplx [] => .ok (.cplx [])
  | .cplx (_ :: _) => .error .typeError

/-- Whether `_remove_duplicates` warns about an array, data_handler.py:96-97. -/
def warnsC : NArrC K → Bool
  | .real v => (dedupFrom [] v.pts).length != v.pts.length
  | .cplx _ => false

/-- `_modulate_data_dict` on one array, data_handler.py:132-135.  Line 133 raises `ValueError` on an array
without points, line 134 `TypeError` on other complex arrays. -/
def modulateC : NArrC K → Except Err (NArr K)
  | .real v => modulate v
  | .cplx [] => .error .valueError
  | .cplx (_ :: _) => .error .typeError

/-- `DataContainer.__init__`, data_handler.py:48-65, on an iterable with real and complex arrays. -/
def DataContainer.initC (iter : List (RawKey × RawValC K)) (units : Key) (normalToOblique : Bool) :
    Except Err (DataContainer K × List Key) := do
  checkAngleUnits units
  let d ← checkIterableC (Dict.ofPairs iter)
  let d ← if units = sDegrees then d.mapValsM toRadiansC else .ok d
  let d ← if normalToOblique then coerceObliqueC d else .ok d
  let w := (d.filter (fun p => warnsC p.2)).map Prod.fst
  let d ← d.mapValsM removeDuplicatesC
  let d ← d.mapValsM modulateC
  let d := d.mapVals (fun v => sortPts v.pts)
  return (⟨d, 1, 0, some 0, normalToOblique, units⟩, w)

end

end Shgpy
