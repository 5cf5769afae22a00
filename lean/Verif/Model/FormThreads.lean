import Verif.Model.Form

/-!
# Several threads that use one `fFormContainer` or one `FormContainer`

The methods as sequences of accesses to the instance: reading the attribute that names the dictionary, listing the dictionary, reading an item
of it, assigning an item, assigning the attribute.  Each access is atomic, as CPython makes it; between two accesses other threads may run.
Dictionaries are objects: a thread can still read and change a dictionary that another thread has replaced.  Arrays are filled before they can
be seen by other threads and are never changed afterwards.  `_M` is never assigned.
-/

namespace Shgpy.FormThreads

/-- The instance: the dictionary objects that ever were its dictionary, and the number of the present one (`_fform_dict`,
data_handler.py:699-703; `_form_dict`, data_handler.py:915-918). -/
structure Shared (α : Type) where
  heap : List (Dict Key α)
  cur : ℕ

/-- The present dictionary. -/
def Shared.dict {α : Type} (m : Shared α) : Dict Key α := m.heap.getD m.cur []

/-- What remains to be done of a method: the next access, and what follows it. -/
inductive Prog (α : Type)
  | stop (e : Option Err)
  | ref (k : ℕ → Prog α)
  | items (r : ℕ) (k : Dict Key α → Prog α)
  | item (r : ℕ) (key : Key) (k : α → Prog α)
  | store (r : ℕ) (key : Key) (v : α) (p : Prog α)
  | assign (d : Dict Key α) (p : Prog α)

/-- One access.  `items` is `list(d.items())`; `assign` makes a new dictionary object and names it in the attribute. -/
def Prog.exec {α : Type} : Prog α → Shared α → Prog α × Shared α
  | .stop e, m => (.stop e, m)
  | .ref k, m => (k m.cur, m)
  | .items r k, m => (k (m.heap.getD r []), m)
  | .item r key k, m =>
      match Dict.get (m.heap.getD r []) key with
      | .ok v => (k v, m)
      | .error e => (.stop (some e), m)
  | .store r key v p, m => (p, { m with heap := m.heap.set r (Dict.set (m.heap.getD r []) key v) })
  | .assign d p, m => (p, ⟨m.heap ++ [d], m.heap.length⟩)

/-- `for k, v in self._dict.items(): self._dict[k] = f(v)` of `apply_arbitrary_scale` (data_handler.py:890-892 and 1090-1092), over the
remaining keys: the iteration goes through the dictionary object `r`, each assignment reads the attribute again.  Iterating raises an exception
when the number of keys changes, which no method does. -/
def scaleLoop {α : Type} (f : α → α) (r : ℕ) : List Key → Prog α
  | [] => .stop none
  | k :: ks => .item r k (fun v => .ref (fun r' => .store r' k (f v) (scaleLoop f r ks)))

/-- `for k, v in self.get_items(): self._dict[k] = f(v)` of `simplify` and `expand` (data_handler.py:985-993), over the remaining items:
`get_items` has listed the items before (data_handler.py:1062-1073). -/
def rewriteLoop {α : Type} (f : α → α) : Dict Key α → Prog α
  | [] => .stop none
  | (k, v) :: d => .ref (fun r => .store r k (f v) (rewriteLoop f d))

/-- The inner loop of `fFormContainer.subs` and `fFormContainer.apply_phase_shift` (data_handler.py:758-759 and 777-778) over the remaining
frequencies: `self._fform_dict[k]` is read again for every component. -/
def compLoop (M : ℕ) (rhs : FArr → ℤ → Except Err Expr) (k : Key) (next : List Expr → Prog FArr) : List ℤ → List Expr → Prog FArr
  | [], buf => next buf
  | m :: ms, buf => .ref (fun r => .item r k (fun a =>
      match (do let x ← rhs a m; pySet buf (n2i m M) x) with
      | .error e => .stop (some e)
      | .ok buf' => compLoop M rhs k next ms buf'))

/-- The outer loop (data_handler.py:756-760 and 776-779) over the remaining keys, and the assignment of the new dictionary. -/
def keyLoop (M : ℕ) (rhs : FArr → ℤ → Except Err Expr) : List Key → Dict Key FArr → Prog FArr
  | [], d => .assign d (.stop none)
  | k :: ks, d => compLoop M rhs k (fun v => keyLoop M rhs ks (Dict.set d k (.obj v))) (freqs M) (List.replicate (2 * M + 1) (.num 0))

/-- The accesses of a method of `fFormContainer`: `subs` (data_handler.py:746-760), `apply_phase_shift` (data_handler.py:762-779, which lists the
keys twice), `apply_arbitrary_scale` (data_handler.py:890-892). -/
def fprog (S : Sympy) (M : ℕ) : FFormContainer.Op → Prog FArr
  | .subs pairs => .ref (fun r => .items r (fun d =>
      keyLoop M (fun a m => do let o ← pyGet a.objs (n2i m M); o.subs S pairs) d.keys []))
  | .phaseShift a => .ref (fun r => .items r (fun d => .ref (fun r' => .items r' (fun d' =>
      keyLoop M (fun v m => do let o ← pyGet v.objs (n2i m M); return S.mul (o.sympify S) (FFormContainer.phaseFactor S a m)) d'.keys
        (Dict.ofPairs (d.keys.map (fun k => (k, .obj (List.replicate (2 * M + 1) (.num 0))))))))))
  | .scale s => .ref (fun r => .items r (fun d => scaleLoop (fun v => .obj (v.objs.map (fun o => S.mul s (o.sympify S)))) r d.keys))

/-- The loop of `FormContainer.subs`, data_handler.py:950-953, over the remaining keys, and the assignment of the new dictionary. -/
def subsLoop (S : Sympy) (pairs : List (Sym × Expr)) : List Key → Dict Key Expr → Prog Expr
  | [], d => .assign d (.stop none)
  | k :: ks, d => .ref (fun r => .item r k (fun e => subsLoop S pairs ks (Dict.set d k (S.subs pairs e))))

/-- The accesses of a method of `FormContainer`: `subs` (data_handler.py:941-953), `apply_phase_shift` (data_handler.py:955-969),
`apply_arbitrary_scale` (data_handler.py:1090-1092), `simplify` and `expand` (data_handler.py:985-993). -/
def prog (S : Sympy) : FormContainer.Op → Prog Expr
  | .subs pairs => .ref (fun r => .items r (fun d => subsLoop S pairs d.keys []))
  | .phaseShift a v => .ref (fun r => .items r (fun d => subsLoop S [(v, S.add (.sym v) a)] d.keys []))
  | .scale s => .ref (fun r => .items r (fun d => scaleLoop (S.mul s) r d.keys))
  | .rewrite w => .ref (fun r => .items r (fun d => rewriteLoop w.run d))

/-- A thread: what remains of its present call, and its further calls.  It catches exceptions and goes on. -/
structure Thread (α O : Type) where
  now : Prog α
  later : List O

/-- The instance and the threads. -/
structure World (α O : Type) where
  mem : Shared α
  threads : List (Thread α O)

variable {α O : Type}

/-- One step of the thread with number `i`: the next access, or the beginning of its next call; `pr` are the accesses of each call. -/
def World.step (pr : O → Prog α) (w : World α O) (i : ℕ) : World α O :=
  match w.threads[i]? with
  | none => w
  | some ⟨.stop e, []⟩ => ⟨w.mem, w.threads.set i ⟨.stop e, []⟩⟩
  | some ⟨.stop _, op :: l⟩ => ⟨w.mem, w.threads.set i ⟨pr op, l⟩⟩
  | some ⟨p, l⟩ => ⟨(p.exec w.mem).2, w.threads.set i ⟨(p.exec w.mem).1, l⟩⟩

/-- A schedule: the number of the thread that makes each step. -/
def World.run (pr : O → Prog α) (w : World α O) (s : List ℕ) : World α O := s.foldl (World.step pr) w

/-- The threads that are going to make these calls on a container with this dictionary, before any of them has begun. -/
def start (d : Dict Key α) (calls : List (List O)) : World α O := ⟨⟨[d], 0⟩, calls.map (fun l => ⟨.stop none, l⟩)⟩

/-- The `fFormContainer` after the schedule `s`, as another thread sees it. -/
def fourierAfter (S : Sympy) (c : FFormContainer) (calls : List (List FFormContainer.Op)) (s : List ℕ) : FFormContainer :=
  ⟨((start c.fform calls).run (fprog S c.M) s).mem.dict, c.M⟩

/-- The `FormContainer` after the schedule `s`, as another thread sees it. -/
def formulaAfter (S : Sympy) (c : FormContainer) (calls : List (List FormContainer.Op)) (s : List ℕ) : FormContainer :=
  ⟨((start c.form calls).run (prog S) s).mem.dict⟩

end Shgpy.FormThreads
