import Verif.Model.Heap
import Verif.Model.Form

/-!
# Array aliasing: Fourier formulas on a heap of numpy arrays

As `Verif/Model/Heap.lean`, for `fFormContainer`, and with `copy`, so that there can be several containers.
`Verif/Model/Form.lean` says what is computed, this file says which arrays are shared.
-/

namespace Shgpy

/-- An array on the heap: one made by the caller, or one made by a container. -/
inductive FCell
  | raw (a : RawFF)
  | arr (a : FArr)

namespace FCell

/-- The array as a value of a defining iterable. -/
def toRaw : FCell → RawFF
  | .raw a => a
  | .arr a => a.toRaw

/-- The array as the content of a container (which holds only arrays that containers made). -/
def toArr : FCell → FArr
  | .raw _ => .obj []
  | .arr a => a

end FCell

/-- An `fFormContainer` instance whose `_fform_dict` holds references. -/
structure HFForm where
  refs : Dict Key ℕ
  M : ℕ

namespace HFForm
variable (S : Sympy)

/-- What the instance amounts to in a given heap. -/
def view (h : Heap FCell) (o : HFForm) : FFormContainer := ⟨(h.read o.refs).mapVals FCell.toArr, o.M⟩

/-- Store the arrays of a container as new arrays. -/
def store (h : Heap FCell) (c : FFormContainer) : HFForm × Heap FCell :=
  let (refs, h) := h.allocDict (c.fform.mapVals .arr)
  (⟨refs, c.M⟩, h)

/-- `fFormContainer.__init__`, data_handler.py:699-703: `_copy_iterable` (710-715) makes a new array for every key, and `_sympify`
writes into these. -/
def init (h : Heap FCell) (iter : List (RawKey × ℕ)) (M : ℕ) : Except Err HFForm × Heap FCell :=
  match FFormContainer.init S ((h.read iter).map (fun kv => (kv.1, kv.2.toRaw))) M with
  | .ok c => let (o, h) := store h c; (.ok o, h)
  | .error e => (.error e, h)

/-- `copy`, data_handler.py:705-708: the constructor, applied to the container's own dictionary. -/
def copy (h : Heap FCell) (o : HFForm) : Except Err HFForm × Heap FCell :=
  init S h (o.refs.map (fun kv => (.str kv.1, kv.2))) o.M

/-- A mutating method: `subs` (754-760), `apply_phase_shift` (775-779) and `apply_arbitrary_scale` (890-892) store new arrays; a rejected
call keeps the instance. -/
def call (h : Heap FCell) (o : HFForm) (op : FFormContainer.Op) : HFForm × Heap FCell :=
  match FFormContainer.step S (view h o) op with
  | (c', none) => store h c'
  | (_, some _) => (o, h)

/-- `get_pc`, data_handler.py:851: `np.copy`. -/
def getPc (h : Heap FCell) (o : HFForm) (pc : Key) : Except Err ℕ × Heap FCell :=
  match Dict.get o.refs pc with
  | .error e => (.error e, h)
  | .ok r => let (r, h) := h.alloc (h.cells r); (.ok r, h)

/-- `get_items`, data_handler.py:888: the stored references themselves. -/
def getItems (o : HFForm) : Dict Key ℕ := o.refs

/-- `get_values`, data_handler.py:875: the stored references themselves. -/
def getValues (o : HFForm) : List ℕ := o.refs.values

/-- What a caller can do with the `i`-th of its containers. -/
inductive Ev
  | write (r : ℕ) (a : FCell)
  | getPc (i : ℕ) (pc : Key)
  | getItems (i : ℕ)
  | getValues (i : ℕ)
  | call (i : ℕ) (op : FFormContainer.Op)
  | copy (i : ℕ)

/-- A heap, the containers, and the references the caller holds. -/
structure World where
  heap : Heap FCell
  objs : List HFForm
  held : List ℕ

/-- One action of the caller.  A caller can write only to arrays it holds; a copy is appended to the containers. -/
def World.next (w : World) : Ev → World
  | .write r a => if r ∈ w.held then { w with heap := w.heap.write r a } else w
  | .getPc i pc =>
      match w.objs[i]? with
      | none => w
      | some o =>
        match HFForm.getPc w.heap o pc with
        | (.ok r, h) => { w with heap := h, held := r :: w.held }
        | (.error _, h) => { w with heap := h }
  | .getItems i =>
      match w.objs[i]? with
      | none => w
      | some o => { w with held := o.getItems.values ++ w.held }
  | .getValues i =>
      match w.objs[i]? with
      | none => w
      | some o => { w with held := o.getValues ++ w.held }
  | .call i op =>
      match w.objs[i]? with
      | none => w
      | some o => let (o, h) := HFForm.call S w.heap o op; { w with heap := h, objs := w.objs.set i o }
  | .copy i =>
      match w.objs[i]? with
      | none => w
      | some o =>
        match HFForm.copy S w.heap o with
        | (.ok o', h) => { w with heap := h, objs := w.objs ++ [o'] }
        | (.error _, h) => { w with heap := h }

end HFForm
end Shgpy
