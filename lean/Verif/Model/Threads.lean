import Verif.Model.DataContainer

/-!
# Several threads that use one `DataContainer`

The methods of `DataContainer` as sequences of accesses to the instance: reading the attribute `_data_dict`, reading an item of the
dictionary it names, assigning an item, assigning an attribute.  Each access is atomic, as CPython makes it; between two accesses other
threads may run.  Dictionaries are objects: a thread can still read from a dictionary that another thread has replaced.  The arrays are new
objects in each assignment and are never changed afterwards.  Numbers are exact.
-/

namespace Shgpy.Threads

open DataContainer

variable {K : Type} [Field K] [LinearOrder K] [FloorRing K] [HasPi K]

/-- The instance: the dictionary objects that ever were its `_data_dict`, the number of the present one, and the other attributes
(data_handler.py:48-65). -/
structure Shared (K : Type) where
  heap : List (Dict Key (List (K × K)))
  cur : ℕ
  scale : K
  phaseShift : K
  offset : Option K
  coerced : Bool
  units : Key

/-- The present dictionary and attributes. -/
def Shared.inst (m : Shared K) : DataContainer K := ⟨m.heap.getD m.cur [], m.scale, m.phaseShift, m.offset, m.coerced, m.units⟩

/-- What remains to be done of a method: the next access, and what follows it. -/
inductive Prog (K : Type)
  | stop (e : Option Err)
  | ref (k : ℕ → Prog K)
  | keys (r : ℕ) (k : List Key → Prog K)
  | items (r : ℕ) (k : Dict Key (List (K × K)) → Prog K)
  | item (r : ℕ) (key : Key) (k : List (K × K) → Prog K)
  | store (r : ℕ) (key : Key) (v : List (K × K)) (p : Prog K)
  | assign (d : Dict Key (List (K × K))) (p : Prog K)
  | getScale (k : K → Prog K)
  | setScale (x : K) (p : Prog K)
  | getPhase (k : K → Prog K)
  | setPhase (x : K) (p : Prog K)
  | getOffset (k : Option K → Prog K)
  | setOffset (x : Option K) (p : Prog K)

/-- One access.  `assign` makes a new dictionary object and names it in `_data_dict`. -/
def Prog.exec : Prog K → Shared K → Prog K × Shared K
  | .stop e, m => (.stop e, m)
  | .ref k, m => (k m.cur, m)
  | .keys r k, m => (k (m.heap.getD r []).keys, m)
  | .items r k, m => (k (m.heap.getD r []), m)
  | .item r key k, m =>
      match Dict.get (m.heap.getD r []) key with
      | .ok v => (k v, m)
      | .error e => (.stop (some e), m)
  | .store r key v p, m => (p, { m with heap := m.heap.set r (Dict.set (m.heap.getD r []) key v) })
  | .assign d p, m => (p, { m with heap := m.heap ++ [d], cur := m.heap.length })
  | .getScale k, m => (k m.scale, m)
  | .setScale x p, m => (p, { m with scale := x })
  | .getPhase k, m => (k m.phaseShift, m)
  | .setPhase x p, m => (p, { m with phaseShift := x })
  | .getOffset k, m => (k m.offset, m)
  | .setOffset x p, m => (p, { m with offset := x })

/-- `{k: f(v) for k, v in d.items()}` for the dictionary object `r`: the remaining keys, and the items made so far. -/
def build (f : List (K × K) → List (K × K)) (r : ℕ) (next : Dict Key (List (K × K)) → Prog K) :
    List Key → Dict Key (List (K × K)) → Prog K
  | [], acc => next acc
  | k :: ks, acc => .item r k (fun v => build f r next ks (Dict.set acc k (f v)))

/-- `for k, v in d.items(): self._data_dict[k] = f(v)` for the dictionary object `r`; `self._data_dict` is read again for each assignment.
The loop ends when making the value raises. -/
def loop (f : List (K × K) → Except Err (List (K × K))) (r : ℕ) (next : Prog K) : List Key → Prog K
  | [] => next
  | k :: ks => .item r k (fun v =>
      match f v with
      | .error e => .stop (some e)
      | .ok w => .ref (fun r' => .store r' k w (loop f r next ks)))

/-- `for k, v in l: self._data_dict[k] = f(v)` for a list of items. -/
def loopItems (f : List (K × K) → List (K × K)) (next : Prog K) : List (Key × List (K × K)) → Prog K
  | [] => next
  | (k, v) :: l => .ref (fun r => .store r k (f v) (loopItems f next l))

/-- `scale_data`, data_handler.py:161-166. -/
def scaleProg (s : K) : Prog K :=
  if s < 0 then .stop (some .valueError)
  else .ref (fun r => .keys r (fun ks => build (fun v => v.map (fun p => (p.1, s * p.2))) r
    (fun d => .assign d (.getScale (fun x => .setScale (x * s) (.stop none)))) ks []))

/-- The loop of `get_minval`, data_handler.py:219-222, over the remaining keys of the dictionary object `r`; `none` stands for
`(None, inf)`. -/
def minProg (r : ℕ) (next : Option (Key × K) → Prog K) : List Key → Option (Key × K) → Prog K
  | [], best => next best
  | k :: ks, best => .item r k (fun v =>
      match pyMin (v.map Prod.snd) with
      | .error e => .stop (some e)
      | .ok m => minProg r next ks (match best with
          | none => some (k, m)
          | some (k', m') => if m < m' then some (k, m) else some (k', m')))

/-- The loop of `get_maxval`, data_handler.py:187-190. -/
def maxProg (r : ℕ) (next : Option (Key × K) → Prog K) : List Key → Option (Key × K) → Prog K
  | [], best => next best
  | k :: ks, best => .item r k (fun v =>
      match pyMax (v.map Prod.snd) with
      | .error e => .stop (some e)
      | .ok m => maxProg r next ks (match best with
          | none => some (k, m)
          | some (k', m') => if m > m' then some (k, m) else some (k', m')))

/-- `subtract_min`, data_handler.py:168-173.  With no combinations there is nothing to subtract from, and the offset is no longer finite. -/
def subtractProg : Prog K :=
  .ref (fun r => .keys r (fun ks => minProg r (fun best => .ref (fun r' => .items r' (fun l =>
    match best with
    | none => .getOffset (fun _ => .setOffset none (.stop none))
    | some (_, m) => loopItems (fun v => v.map (fun p => (p.1, p.2 - m)))
        (.getOffset (fun o => .setOffset (o.map (fun o => o - m)) (.stop none))) l))) ks none))

/-- `normalize_data`, data_handler.py:243-246; see `normalizeData` for the empty and zero cases. -/
def normalizeProg (d : K) : Prog K :=
  .ref (fun r => .keys r (fun ks => maxProg r (fun best =>
    match best with
    | none => scaleProg 0
    | some (_, m) => if m = 0 then (if d < 0 then .stop (some .valueError) else .stop (some .nonFinite)) else scaleProg (d / m)) ks none))

/-- `phase_shift_data` with `_sort_data_dict`, data_handler.py:248-263 and 126-129. -/
def shiftProg (a : K) (units : Key) : Prog K :=
  match angleOf a units with
  | .error e => .stop (some e)
  | .ok a => .ref (fun r => .keys r (fun ks => build (fun v => v.map (fun p => (pmod (p.1 + a), p.2))) r
      (fun d => .assign d (.getPhase (fun x => .setPhase (x + a)
        (.ref (fun r => .keys r (fun ks => loop (fun v => .ok (sortPts v)) r (.stop none) ks)))))) ks []))

/-- The body of the loop of `filter`, data_handler.py:158-159; see `filterLoop` for the user function. -/
def filterItem (f : List K → Except Err (List K)) (v : List (K × K)) : Except Err (List (K × K)) :=
  match f (v.map Prod.snd) with
  | .error e => .error e
  | .ok ys => if ys.length = v.length then .ok ((v.map Prod.fst).zip ys) else .error .valueError

/-- `filter`, data_handler.py:143-159. -/
def filterProg (f : List K → Except Err (List K)) : Prog K :=
  .ref (fun r => .keys r (fun ks => loop (filterItem f) r (.stop none) ks))

/-- The accesses of a method call. -/
def prog : DataContainer.Op K → Prog K
  | .scale s => scaleProg s
  | .subtractMin => subtractProg
  | .normalize d => normalizeProg d
  | .phaseShift a u => shiftProg a u
  | .filter f => filterProg f

/-- A thread: what remains of its present call, and its further calls.  It catches exceptions and goes on. -/
structure Thread (K : Type) where
  now : Prog K
  later : List (DataContainer.Op K)

/-- The instance and the threads. -/
structure World (K : Type) where
  mem : Shared K
  threads : List (Thread K)

/-- One step of the thread with number `i`: the next access, or the beginning of its next call. -/
def World.step (w : World K) (i : ℕ) : World K :=
  match w.threads[i]? with
  | none => w
  | some ⟨.stop e, []⟩ => ⟨w.mem, w.threads.set i ⟨.stop e, []⟩⟩
  | some ⟨.stop _, op :: l⟩ => ⟨w.mem, w.threads.set i ⟨prog op, l⟩⟩
  | some ⟨p, l⟩ => ⟨(p.exec w.mem).2, w.threads.set i ⟨(p.exec w.mem).1, l⟩⟩

/-- A schedule: the number of the thread that makes each step. -/
def World.run (w : World K) (s : List ℕ) : World K := s.foldl World.step w

/-- The threads that are going to make these calls on a container, before any of them has begun. -/
def start (c : DataContainer K) (calls : List (List (DataContainer.Op K))) : World K :=
  ⟨⟨[c.data], 0, c.scale, c.phaseShift, c.offset, c.coerced, c.units⟩, calls.map (fun l => ⟨.stop none, l⟩)⟩

end Shgpy.Threads
