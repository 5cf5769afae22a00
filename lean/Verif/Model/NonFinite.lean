import Verif.Model.DataContainer

/-!
# Data with values that are infinite or not numbers

The constructor of `DataContainer` does not look at the values, so that `nan` and `inf` get in (a csv file can have them as well:
`float('nan')`).  Here the queries and operations on values are modelled with the arithmetic of IEEE 754 for `nan` and infinite
values.  Angles are finite.  Finite arithmetic is exact, and the sign of zero is not modelled.
-/

namespace Shgpy

/-- A floating point value. -/
inductive Fl (K : Type)
  | num (x : K)
  | pinf
  | ninf
  | nan
  deriving DecidableEq

section
variable {K : Type} [Field K] [LinearOrder K]

namespace Fl

/-- `a < b`.  Comparisons with `nan` are false. -/
def lt : Fl K → Fl K → Bool
  | .num x, .num y => decide (x < y)
  | .ninf, .num _ => true
  | .ninf, .pinf => true
  | .num _, .pinf => true
  | _, _ => false


/-- `x * inf` for a number. -/
def timesInf (x : K) : Fl K := if x = 0 then .nan else if 0 < x then .pinf else .ninf

/-- `a * b`. -/
def mul : Fl K → Fl K → Fl K
  | .num x, .num y => .num (x * y)
  | .num x, .pinf => timesInf x
  | .num x, .ninf => timesInf (-x)
  | .pinf, .num y => timesInf y
  | .ninf, .num y => timesInf (-y)
  | .pinf, .pinf => .pinf
  | .ninf, .ninf => .pinf
  | .pinf, .ninf => .ninf
  | .ninf, .pinf => .ninf
  | .nan, _ => .nan
  | _, .nan => .nan

/-- `a - b`. -/
def sub : Fl K → Fl K → Fl K
  | .num x, .num y => .num (x - y)
  | .num _, .pinf => .ninf
  | .num _, .ninf => .pinf
  | .pinf, .num _ => .pinf
  | .ninf, .num _ => .ninf
  | .pinf, .ninf => .pinf
  | .ninf, .pinf => .ninf
  | _, _ => .nan

/-- `d / b` for a number `d`; zero is taken as positive. -/
def divNum (d : K) : Fl K → Fl K
  | .num y => if y = 0 then timesInf d else .num (d / y)
  | .pinf => .num 0
  | .ninf => .num 0
  | .nan => .nan

end Fl

/-- `max(l)` (`better x m` is `x > m`) and `min(l)` (`better x m` is `x < m`), which go through the sequence and keep the first
element until a better one comes; `ValueError` when empty. -/
def pyBest (better : Fl K → Fl K → Bool) : List (Fl K) → Except Err (Fl K)
  | [] => .error .valueError
  | a :: r => .ok (r.foldl (fun m x => if better x m then x else m) a)

/-- The loops of `get_maxval`, data_handler.py:187-190, and `get_minval`, data_handler.py:219-222. -/
def bestLoop (better : Fl K → Fl K → Bool) (best : Option Key × Fl K) :
    Dict Key (List (K × Fl K)) → Except Err (Option Key × Fl K)
  | [] => .ok best
  | (k, v) :: r => do
      let m ← pyBest better (v.map Prod.snd)
      bestLoop better (if better m best.2 then (some k, m) else best) r

/-- A `DataContainer` whose values can be infinite or `nan`: `_data_dict`, `_scale`, `_offset` (data_handler.py:53-56). -/
structure FlContainer (K : Type) where
  data : Dict Key (List (K × Fl K))
  scale : Fl K
  offset : Fl K

namespace FlContainer

/-- `get_maxval`, data_handler.py:175-191. -/
def getMaxval (c : FlContainer K) : Except Err (Option Key × Fl K) := bestLoop (fun x m => m.lt x) (none, .ninf) c.data

/-- `get_minval`, data_handler.py:207-223. -/
def getMinval (c : FlContainer K) : Except Err (Option Key × Fl K) := bestLoop (fun x m => x.lt m) (none, .pinf) c.data

/-- `scale_data`, data_handler.py:161-166. -/
def scaleData (c : FlContainer K) (s : Fl K) : Except Err (FlContainer K) :=
  if s.lt (.num 0) then .error .valueError
  else .ok { c with
    data := c.data.mapVals (fun v => v.map (fun p => (p.1, s.mul p.2)))
    scale := c.scale.mul s }

/-- `normalize_data`, data_handler.py:243-246, for a finite argument. -/
def normalizeData (c : FlContainer K) (d : K) : Except Err (FlContainer K) := do
  let (_, m) ← c.getMaxval
  c.scaleData (Fl.divNum d m)

/-- `subtract_min`, data_handler.py:168-173. -/
def subtractMin (c : FlContainer K) : Except Err (FlContainer K) := do
  let (_, m) ← c.getMinval
  return { c with
    data := c.data.mapVals (fun v => v.map (fun p => (p.1, p.2.sub m)))
    offset := c.offset.sub m }

/-- `get_items('radians')`, data_handler.py:392-393. -/
def getItems (c : FlContainer K) : Dict Key (List (K × Fl K)) := c.data

end FlContainer

section
variable [FloorRing K] [HasPi K]

/-- The inner loop of `_remove_duplicates`, data_handler.py:90-95 (`dedupFrom` for values of any kind). -/
def dedupFl (kept : List (K × Fl K)) : List (K × Fl K) → List (K × Fl K)
  | [] => kept
  | p :: r => if pmod p.1 ∈ kept.map Prod.fst then dedupFl kept r else dedupFl (kept ++ [p]) r

/-- `_modulate_data_dict`, data_handler.py:131-135, and `_sort_data_dict`, data_handler.py:126-129, on one array. -/
def normalFl (v : List (K × Fl K)) : Except Err (List (K × Fl K)) :=
  if v = [] then .error .valueError
  else .ok ((v.map (fun p => (pmod p.1, p.2))).mergeSort (fun a b => decide (a.1 ≤ b.1)))

/-- `DataContainer.__init__`, data_handler.py:48-65, for a dictionary of float arrays with two rows and angles in radians, without
`normal_to_oblique`. -/
def FlContainer.init (d : Dict Key (List (K × Fl K))) : Except Err (FlContainer K) := do
  let d' ← d.mapValsM (fun v => normalFl (dedupFl [] v))
  return ⟨d', .num 1, .num 0⟩

end
end
end Shgpy
