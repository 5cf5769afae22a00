import Verif.Model.FData

/-!
# Several threads that use one `fDataContainer`

The methods of `fDataContainer` as sequences of accesses to the instance: reading the attribute `_fdata_dict`, listing the dictionary it
names, reading an item of it, assigning an item, assigning an attribute.  Each access is atomic, as CPython makes it; between two accesses
other threads may run.  Dictionaries are objects: a thread can still read and change a dictionary that another thread has replaced.  The
arrays are new objects in each assignment and are never changed afterwards.  `_M` is never assigned.  Numbers are exact.
-/

namespace Shgpy.FThreads

open FDataContainer

/-- The instance: the dictionary objects that ever were its `_fdata_dict`, the number of the present one, and the other attributes
(data_handler.py:442-447). -/
structure Shared where
  heap : List (Dict Key (List ℂ))
  cur : ℕ
  M : ℕ
  scale : ℝ
  phaseShift : Phase

/-- The present dictionary and attributes. -/
def Shared.inst (m : Shared) : FDataContainer := ⟨m.heap.getD m.cur [], m.M, m.scale, m.phaseShift⟩

/-- What remains to be done of a method: the next access, and what follows it. -/
inductive Prog
  | stop (e : Option Err)
  | ref (k : ℕ → Prog)
  | items (r : ℕ) (k : Dict Key (List ℂ) → Prog)
  | item (r : ℕ) (key : Key) (k : List ℂ → Prog)
  | store (r : ℕ) (key : Key) (v : List ℂ) (p : Prog)
  | assign (d : Dict Key (List ℂ)) (p : Prog)
  | getScale (k : ℝ → Prog)
  | setScale (x : ℝ) (p : Prog)
  | getPhase (k : Phase → Prog)
  | setPhase (x : Phase) (p : Prog)

/-- One access.  `items` is `list(d.items())`; `assign` makes a new dictionary object and names it in `_fdata_dict`. -/
def Prog.exec : Prog → Shared → Prog × Shared
  | .stop e, m => (.stop e, m)
  | .ref k, m => (k m.cur, m)
  | .items r k, m => (k (m.heap.getD r []), m)
  | .item r key k, m =>
      match Dict.get (m.heap.getD r []) key with
      | .ok v => (k v, m)
      | .error e => (.stop (some e), m)
  | .store r key v p, m => (p, { m with heap := m.heap.set r (Dict.set (m.heap.getD r []) key v) })
  | .assign d p, m => (p, { m with heap := m.heap ++ [d], cur := m.heap.length })
  | .getScale k, m => (k m.scale, m)
  | .setScale x p, m => (p, { m with scale := x })
  | .getPhase k, m => (k m.phaseShift, m)
  | .setPhase x p, m => (p, { m with phaseShift := x })

/-- `scale_fdata`, data_handler.py:586-591: `get_items` lists the dictionary (data_handler.py:546-557), the new dictionary is assigned, and
then the scale is read and assigned. -/
noncomputable def scaleProg (s : ℝ) : Prog :=
  if s < 0 then .stop (some .valueError)
  else .ref (fun r => .items r (fun d => .assign (d.mapVals (fun v => v.map (fun z => (s : ℂ) * z)))
    (.getScale (fun x => .setScale (x * s) (.stop none)))))

/-- `normalize_fdata`, data_handler.py:651-654; `get_maxval` lists the dictionary (data_handler.py:608-631).  See `normalizeFdataM` for the
empty and zero cases. -/
noncomputable def normalizeProg (d : ℝ) : Prog :=
  .ref (fun r => .items r (fun l =>
    match maxLoop none l with
    | .error e => .stop (some e)
    | .ok none => scaleProg 0
    | .ok (some (_, m)) => if m = 0 then (if d < 0 then .stop (some .valueError) else .stop (some .nonFinite)) else scaleProg (d / m)))

/-- The outer loop of `phase_shift_fdata`, data_handler.py:669-674, over the remaining keys: `self._fdata_dict` is read for the item, and
again for the assignment. -/
noncomputable def turnLoop (M : ℕ) (angle : ℝ) (next : Prog) : List Key → Prog
  | [] => next
  | k :: ks => .ref (fun r => .item r k (fun v =>
      match shiftArr M angle v with
      | .error e => .stop (some e)
      | .ok w => .ref (fun r' => .store r' k w (turnLoop M angle next ks))))

/-- `self._phase_shift += angle`, data_handler.py:675; see `addPhase`. -/
noncomputable def phaseProg (angle : ℝ) : Prog :=
  .getPhase (fun p =>
    match p with
    | .num a => .setPhase (.num (a + angle)) (.stop none)
    | _ => .stop (some .typeError))

/-- `phase_shift_fdata`, data_handler.py:656-675; `get_keys` lists the keys (data_handler.py:522-531). -/
noncomputable def shiftProg (M : ℕ) (a : ℝ) (units : Key) : Prog :=
  match checkAngleUnits (lower units) with
  | .error e => .stop (some e)
  | .ok _ => .ref (fun r => .items r (fun d =>
      turnLoop M (if lower units = sDegrees then deg2rad a else a) (phaseProg (if lower units = sDegrees then deg2rad a else a)) d.keys))

/-- The accesses of a method call. -/
noncomputable def prog (M : ℕ) : FDataContainer.Op → Prog
  | .scale s => scaleProg s
  | .normalize d => normalizeProg d
  | .phaseShift a u => shiftProg M a u

/-- A thread: what remains of its present call, and its further calls.  It catches exceptions and goes on. -/
structure Thread where
  now : Prog
  later : List FDataContainer.Op

/-- The instance and the threads. -/
structure World where
  mem : Shared
  threads : List Thread

/-- One step of the thread with number `i`: the next access, or the beginning of its next call. -/
noncomputable def World.step (w : World) (i : ℕ) : World :=
  match w.threads[i]? with
  | none => w
  | some ⟨.stop e, []⟩ => ⟨w.mem, w.threads.set i ⟨.stop e, []⟩⟩
  | some ⟨.stop _, op :: l⟩ => ⟨w.mem, w.threads.set i ⟨prog w.mem.M op, l⟩⟩
  | some ⟨p, l⟩ => ⟨(p.exec w.mem).2, w.threads.set i ⟨(p.exec w.mem).1, l⟩⟩

/-- A schedule: the number of the thread that makes each step. -/
noncomputable def World.run (w : World) (s : List ℕ) : World := s.foldl World.step w

/-- The threads that are going to make these calls on a container, before any of them has begun. -/
def start (c : FDataContainer) (calls : List (List FDataContainer.Op)) : World :=
  ⟨⟨[c.fdata], 0, c.M, c.scale, c.phaseShift⟩, calls.map (fun l => ⟨.stop none, l⟩)⟩

end Shgpy.FThreads
