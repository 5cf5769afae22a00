import Verif.Model.DataContainer
import Verif.Model.FData

/-!
# Array aliasing: containers on a heap of numpy arrays

`DataContainer` and `fDataContainer` store references to arrays.  Here the arrays live in a heap, callers hold
references and may overwrite what they hold; the pure models (`Verif/Model/DataContainer.lean`,
`Verif/Model/FData.lean`) say what is computed, this file says which arrays are shared.
-/

namespace Shgpy

/-- A heap of arrays with contents in `A`; references at or above `next` are unused. -/
structure Heap (A : Type) where
  cells : ℕ → A
  next : ℕ

namespace Heap
variable {A : Type}

/-- A new array (`np.array(...)`, `np.copy(...)`, the result of an arithmetic expression). -/
def alloc (h : Heap A) (a : A) : ℕ × Heap A :=
  (h.next, ⟨fun r => if r = h.next then a else h.cells r, h.next + 1⟩)

/-- An in-place write by the holder of a reference. -/
def write (h : Heap A) (r : ℕ) (a : A) : Heap A := ⟨fun r' => if r' = r then a else h.cells r', h.next⟩

/-- A dictionary of new arrays. -/
def allocDict {κ : Type} (h : Heap A) : Dict κ A → Dict κ ℕ × Heap A
  | [] => ([], h)
  | (k, a) :: r =>
      let (ref, h) := h.alloc a
      let (r', h) := allocDict h r
      ((k, ref) :: r', h)

/-- The contents of a dictionary of references. -/
def read {κ : Type} (h : Heap A) (d : Dict κ ℕ) : Dict κ A := d.mapVals h.cells

end Heap

section DataContainer
variable {K : Type} [Field K] [LinearOrder K] [FloorRing K] [HasPi K]

/-- The array `np.array([xdata, ydata])` of a list of points. -/
def toRaw (pts : List (K × K)) : RawVal K := .arr2 .float [pts.map Prod.fst, pts.map Prod.snd]

/-- The points of an array. -/
def toPts : RawVal K → List (K × K)
  | .arr2 _ (xs :: ys :: _) => xs.zip ys
  | _ => []

/-- A `DataContainer` instance whose `_data_dict` holds references. -/
structure HData (K : Type) where
  refs : Dict Key ℕ
  scale : K
  phaseShift : K
  offset : Option K
  coerced : Bool
  units : Key

namespace HData

/-- What the instance amounts to in a given heap. -/
def view (h : Heap (RawVal K)) (o : HData K) : DataContainer K :=
  ⟨(h.read o.refs).mapVals toPts, o.scale, o.phaseShift, o.offset, o.coerced, o.units⟩

/-- Store the arrays of a container as new arrays. -/
def store (h : Heap (RawVal K)) (c : DataContainer K) : HData K × Heap (RawVal K) :=
  let (refs, h) := h.allocDict (c.data.mapVals toRaw)
  (⟨refs, c.scale, c.phaseShift, c.offset, c.coerced, c.units⟩, h)

/-- `DataContainer.__init__`, data_handler.py:48-65, on references: `deepcopy` (line 54) copies every array, and
`_sort_data_dict` (line 128) stores new arrays. -/
def init (h : Heap (RawVal K)) (iter : List (RawKey × ℕ)) (units : Key) (b : Bool) :
    Except Err (HData K) × Heap (RawVal K) :=
  let (copies, h) := h.allocDict (h.read iter)
  match DataContainer.init (h.read copies) units b with
  | .ok (c, _) => let (o, h) := store h c; (.ok o, h)
  | .error e => (.error e, h)

/-- A mutating method: `scale_data` (165), `subtract_min` (172), `phase_shift_data` (261, 128) and `filter` (159)
store new arrays; a rejected call keeps the instance.  (A raising `filter` keeps the arrays it has not reached;
they are modelled as replaced by equal copies.  The user function is modelled as not writing into and not
keeping the array it receives.) -/
def call (h : Heap (RawVal K)) (o : HData K) (op : DataContainer.Op K) : HData K × Heap (RawVal K) :=
  match op, DataContainer.step (view h o) op with
  | .filter _, (c', _) => store h c'
  | _, (c', none) => store h c'
  | _, (_, some _) => (o, h)

/-- `get_pc`, data_handler.py:281-286: `np.copy`. -/
def getPc (h : Heap (RawVal K)) (o : HData K) (pc units : Key) : Except Err ℕ × Heap (RawVal K) :=
  match DataContainer.getPc (view h o) pc units with
  | .error e => (.error e, h)
  | .ok pts => let (r, h) := h.alloc (toRaw pts); (.ok r, h)

/-- `get_items`, data_handler.py:390-395: in radians the stored references themselves, in degrees new arrays
(`_get_data_dict_degrees`, 141). -/
def getItems (h : Heap (RawVal K)) (o : HData K) (units : Key) : Except Err (Dict Key ℕ) × Heap (RawVal K) :=
  match checkAngleUnits (lower units) with
  | .error e => (.error e, h)
  | .ok _ =>
    if lower units = sRadians then (.ok o.refs, h)
    else let (d, h) := h.allocDict ((view h o).dataDegrees.mapVals toRaw); (.ok d, h)

/-- `get_values`, data_handler.py:315-320: as `get_items`. -/
def getValues (h : Heap (RawVal K)) (o : HData K) (units : Key) : Except Err (List ℕ) × Heap (RawVal K) :=
  match getItems h o units with
  | (.ok d, h) => (.ok d.values, h)
  | (.error e, h) => (.error e, h)

/-- What a caller can do with a container. -/
inductive Ev (K : Type)
  | write (r : ℕ) (a : RawVal K)
  | getPc (pc units : Key)
  | getItems (units : Key)
  | getValues (units : Key)
  | call (op : DataContainer.Op K)

/-- A heap, the container, and the references the caller holds. -/
structure World (K : Type) where
  heap : Heap (RawVal K)
  obj : HData K
  held : List ℕ

/-- One action of the caller.  A caller can write only to arrays it holds. -/
def World.next (w : World K) : Ev K → World K
  | .write r a => if r ∈ w.held then { w with heap := w.heap.write r a } else w
  | .getPc pc u =>
      match getPc w.heap w.obj pc u with
      | (.ok r, h) => { w with heap := h, held := r :: w.held }
      | (.error _, h) => { w with heap := h }
  | .getItems u =>
      match getItems w.heap w.obj u with
      | (.ok d, h) => { w with heap := h, held := d.values ++ w.held }
      | (.error _, h) => { w with heap := h }
  | .getValues u =>
      match getValues w.heap w.obj u with
      | (.ok d, h) => { w with heap := h, held := d ++ w.held }
      | (.error _, h) => { w with heap := h }
  | .call op => let (o, h) := call w.heap w.obj op; { w with heap := h, obj := o }

end HData
end DataContainer

/-! ### `fDataContainer` -/

/-- An `fDataContainer` instance whose `_fdata_dict` holds references. -/
structure HFData where
  refs : Dict Key ℕ
  M : ℕ
  scale : ℝ
  phaseShift : Phase

namespace HFData

/-- The components of an array. -/
def toComps : RawFVal → List ℂ
  | .arr1 _ v => v
  | .other => []

/-- What the instance amounts to in a given heap. -/
def view (h : Heap RawFVal) (o : HFData) : FDataContainer :=
  ⟨(h.read o.refs).mapVals toComps, o.M, o.scale, o.phaseShift⟩

/-- Store the arrays of a container as new arrays. -/
def store (h : Heap RawFVal) (c : FDataContainer) : HFData × Heap RawFVal :=
  let (refs, h) := h.allocDict (c.fdata.mapVals (fun v => .arr1 .complex128 v))
  (⟨refs, c.M, c.scale, c.phaseShift⟩, h)

/-- `fDataContainer.__init__`, data_handler.py:442-447: `deepcopy` copies every array. -/
def init (h : Heap RawFVal) (iter : List (RawKey × ℕ)) (M : ℕ) : Except Err HFData × Heap RawFVal :=
  match FDataContainer.init (h.read iter) M with
  | .ok c => let (o, h) := store h c; (.ok o, h)
  | .error e => (.error e, h)

/-- A mutating method: `scale_fdata` (590) and `phase_shift_fdata` (671-674) store new arrays; a rejected call keeps
the instance. -/
noncomputable def call (h : Heap RawFVal) (o : HFData) (op : FDataContainer.Op) : HFData × Heap RawFVal :=
  match FDataContainer.step (view h o) op with
  | (c', none) => store h c'
  | (_, some _) => (o, h)

/-- `get_pc`, data_handler.py:606: `np.copy`. -/
def getPc (h : Heap RawFVal) (o : HFData) (pc : Key) : Except Err ℕ × Heap RawFVal :=
  match Dict.get o.refs pc with
  | .error e => (.error e, h)
  | .ok r => let (r, h) := h.alloc (h.cells r); (.ok r, h)

/-- `get_items`, data_handler.py:557: the stored references themselves. -/
def getItems (o : HFData) : Dict Key ℕ := o.refs

/-- `get_values`, data_handler.py:544: the stored references themselves. -/
def getValues (o : HFData) : List ℕ := o.refs.values

/-- What a caller can do with a container. -/
inductive Ev
  | write (r : ℕ) (a : RawFVal)
  | getPc (pc : Key)
  | getItems
  | getValues
  | call (op : FDataContainer.Op)

/-- A heap, the container, and the references the caller holds. -/
structure World where
  heap : Heap RawFVal
  obj : HFData
  held : List ℕ

/-- One action of the caller.  A caller can write only to arrays it holds. -/
noncomputable def World.next (w : World) : Ev → World
  | .write r a => if r ∈ w.held then { w with heap := w.heap.write r a } else w
  | .getPc pc =>
      match getPc w.heap w.obj pc with
      | (.ok r, h) => { w with heap := h, held := r :: w.held }
      | (.error _, h) => { w with heap := h }
  | .getItems => { w with held := (getItems w.obj).values ++ w.held }
  | .getValues => { w with held := getValues w.obj ++ w.held }
  | .call op => let (o, h) := call w.heap w.obj op; { w with heap := h, obj := o }

end HFData
end Shgpy
