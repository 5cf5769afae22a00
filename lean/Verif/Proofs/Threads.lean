import Verif.Spec.Threads
import Verif.Proofs.Interrupt

/-!
# Lemmas about threads that use one container
-/

set_option linter.unusedSectionVars false

namespace Shgpy.Threads
open Spec DataContainer

variable {K : Type} [Field K] [LinearOrder K] [IsStrictOrderedRing K] [FloorRing K] [HasPi K]

/-! ### A call that is not disturbed -/

/-- The exception and the instance after all accesses of a method. -/
def Prog.finish : Prog K → Shared K → Option Err × Shared K
  | .stop e, m => (e, m)
  | .ref k, m => (k m.cur).finish m
  | .keys r k, m => (k (m.heap.getD r []).keys).finish m
  | .items r k, m => (k (m.heap.getD r [])).finish m
  | .item r key k, m =>
      match Dict.get (m.heap.getD r []) key with
      | .ok v => (k v).finish m
      | .error e => (some e, m)
  | .store r key v p, m => p.finish { m with heap := m.heap.set r (Dict.set (m.heap.getD r []) key v) }
  | .assign d p, m => p.finish { m with heap := m.heap ++ [d], cur := m.heap.length }
  | .getScale k, m => (k m.scale).finish m
  | .setScale x p, m => p.finish { m with scale := x }
  | .getPhase k, m => (k m.phaseShift).finish m
  | .setPhase x p, m => p.finish { m with phaseShift := x }
  | .getOffset k, m => (k m.offset).finish m
  | .setOffset x p, m => p.finish { m with offset := x }

/-- The present dictionary is one of the objects, and its keys are distinct. -/
structure Valid (m : Shared K) : Prop where
  cur : m.cur < m.heap.length
  wf : Dict.WF (m.heap.getD m.cur [])

theorem finish_build (f : List (K × K) → List (K × K)) (r : ℕ) (next : Dict Key (List (K × K)) → Prog K) (m : Shared K) :
    ∀ (l : List (Key × List (K × K))) (acc : Dict Key (List (K × K))),
      (∀ it ∈ l, Dict.get (m.heap.getD r []) it.1 = .ok it.2) → (acc.map Prod.fst ++ l.map Prod.fst).Nodup →
      (build f r next (l.map Prod.fst) acc).finish m = (next (acc ++ l.map (fun it => (it.1, f it.2)))).finish m
  | [], acc, _, _ => by simp [build]
  | (k, v) :: l, acc, h, hn => by
    have h0 := h (k, v) (List.mem_cons_self ..)
    simp only [List.map_cons, build, Prog.finish]
    dsimp only at h0
    rw [h0]
    dsimp only
    have hk : k ∉ Dict.keys acc := by
      intro hk
      rw [List.nodup_append] at hn
      exact hn.2.2 k hk k (by simp) rfl
    rw [Dict.set_of_notMem hk, finish_build f r next m l _ (fun it hit => h it (List.mem_cons_of_mem _ hit)) ?_]
    · simp
    · simpa using hn

theorem get_of_mem' {d : Dict Key (List (K × K))} (hd : Dict.WF d) {it : Key × List (K × K)} (h : it ∈ d) :
    Dict.get d it.1 = .ok it.2 := by
  rw [Dict.get_ok_iff, Dict.get?_eq_some_iff hd]
  exact h

theorem finish_scale (s : K) (m : Shared K) (hm : Valid m) :
    ((scaleProg s).finish m).1 = (step m.inst (.scale s)).2 ∧ ((scaleProg s).finish m).2.inst = (step m.inst (.scale s)).1 ∧
      Valid ((scaleProg s).finish m).2 := by
  rw [step_scale]
  unfold scaleProg scaleData
  by_cases hs : s < 0
  · simp only [hs, if_true, Prog.finish]
    exact ⟨trivial, trivial, hm⟩
  · simp only [hs, if_false, Prog.finish]
    have := finish_build (fun v => v.map (fun p : K × K => (p.1, s * p.2))) m.cur
      (fun d => .assign d (.getScale (fun x => .setScale (x * s) (.stop none)))) m (m.heap.getD m.cur []) []
      (fun it hit => get_of_mem' hm.wf hit) (by rw [List.map_nil, List.nil_append]; exact hm.wf)
    unfold Dict.keys
    rw [this]
    simp only [List.nil_append, Prog.finish]
    refine ⟨trivial, ?_, ⟨by simp, ?_⟩⟩
    · simp [Shared.inst, Dict.mapVals]
    · simp only [List.getD_eq_getElem?_getD, List.getElem?_concat_length, Option.getD_some]
      have := hm.wf
      simp only [Dict.WF, Dict.keys, List.map_map, List.getD_eq_getElem?_getD] at this ⊢
      exact this

/-- The instance with another dictionary in the place of the present one. -/
def Shared.put (m : Shared K) (d : Dict Key (List (K × K))) : Shared K := { m with heap := m.heap.set m.cur d }

theorem getD_put {m : Shared K} (hm : m.cur < m.heap.length) (d : Dict Key (List (K × K))) : (m.put d).heap.getD (m.put d).cur [] = d := by
  unfold Shared.put
  simp [List.getD_eq_getElem?_getD, hm]

theorem put_put (m : Shared K) (d d' : Dict Key (List (K × K))) : (m.put d).put d' = m.put d' := by
  unfold Shared.put
  simp

theorem put_self (m : Shared K) : m.put (m.heap.getD m.cur []) = m := by
  unfold Shared.put
  by_cases h : m.cur < m.heap.length
  · have : m.heap.set m.cur (m.heap.getD m.cur []) = m.heap := by
      rw [List.getD_eq_getElem?_getD, List.getElem?_eq_getElem h, Option.getD_some, List.set_getElem_self]
    rw [this]
  · rw [List.set_eq_of_length_le (by omega)]

theorem inst_put {m : Shared K} (hm : m.cur < m.heap.length) (d : Dict Key (List (K × K))) : (m.put d).inst = { m.inst with data := d } := by
  unfold Shared.inst
  rw [getD_put hm]
  rfl

theorem set_middle {pre r : Dict Key (List (K × K))} {k : Key} {v : List (K × K)} (w : List (K × K)) (h : k ∉ Dict.keys pre) :
    Dict.set (pre ++ (k, v) :: r) k w = pre ++ (k, w) :: r := by
  induction pre with
  | nil => simp [Dict.set]
  | cons a pre ih =>
    obtain ⟨k', v'⟩ := a
    have h1 : k' ≠ k := fun e => h (by simp [Dict.keys, e])
    have h2 : k ∉ Dict.keys pre := fun e => h (by simp only [Dict.keys, List.map_cons, List.mem_cons]; exact .inr e)
    simp only [List.cons_append, Dict.set, if_neg h1, ih h2]

/-- The items after the loop, and the exception that ended it. -/
def mapUntil (f : List (K × K) → Except Err (List (K × K))) : Dict Key (List (K × K)) → Dict Key (List (K × K)) × Option Err
  | [] => ([], none)
  | (k, v) :: r =>
      match f v with
      | .error e => ((k, v) :: r, some e)
      | .ok w => ((k, w) :: (mapUntil f r).1, (mapUntil f r).2)

theorem keys_mapUntil (f : List (K × K) → Except Err (List (K × K))) (d : Dict Key (List (K × K))) :
    (mapUntil f d).1.map Prod.fst = d.map Prod.fst := by
  induction d with
  | nil => rfl
  | cons a d ih =>
    obtain ⟨k, v⟩ := a
    unfold mapUntil
    cases f v with
    | error e => rfl
    | ok w => simp [ih]

theorem finish_loop (f : List (K × K) → Except Err (List (K × K))) :
    ∀ (l pre : Dict Key (List (K × K))) (m : Shared K), m.cur < m.heap.length → Dict.WF (pre ++ l) → m.heap.getD m.cur [] = pre ++ l →
      (loop f m.cur (.stop none) (l.map Prod.fst)).finish m = ((mapUntil f l).2, m.put (pre ++ (mapUntil f l).1))
  | [], pre, m, hm, hwf, he => by
    simp only [List.map_nil, loop, Prog.finish, mapUntil]
    rw [← he, put_self]
  | (k, v) :: l, pre, m, hm, hwf, he => by
    have hk : k ∉ Dict.keys pre := by
      intro hk
      simp only [Dict.WF, Dict.keys, List.map_append, List.nodup_append] at hwf
      exact hwf.2.2 k hk k (by simp) rfl
    have hget : Dict.get (m.heap.getD m.cur []) k = .ok v := by
      rw [he]
      exact get_of_mem' hwf (it := (k, v)) (by simp)
    simp only [List.map_cons, loop, Prog.finish]
    rw [hget]
    dsimp only
    unfold mapUntil
    cases f v with
    | error e =>
      simp only [Prog.finish]
      rw [← he, put_self]
    | ok w =>
      simp only [Prog.finish]
      rw [he, set_middle w hk]
      have hwf' : Dict.WF ((pre ++ [(k, w)]) ++ l) := by
        simp only [Dict.WF, Dict.keys, List.map_append, List.map_cons, List.append_assoc, List.cons_append, List.nil_append] at hwf ⊢
        exact hwf
      have hm' : (m.put (pre ++ (k, w) :: l)).cur < (m.put (pre ++ (k, w) :: l)).heap.length := by simpa [Shared.put] using hm
      have := finish_loop f l (pre ++ [(k, w)]) (m.put (pre ++ (k, w) :: l)) hm' hwf' (by rw [getD_put hm]; simp)
      change (loop f (m.put (pre ++ (k, w) :: l)).cur (.stop none) (l.map Prod.fst)).finish (m.put (pre ++ (k, w) :: l)) = _
      rw [this, put_put]
      simp

theorem finish_loopItems (f : List (K × K) → List (K × K)) (next : Prog K) :
    ∀ (l pre : Dict Key (List (K × K))) (m : Shared K), m.cur < m.heap.length → Dict.WF (pre ++ l) → m.heap.getD m.cur [] = pre ++ l →
      (loopItems f next l).finish m = next.finish (m.put (pre ++ l.mapVals f))
  | [], pre, m, hm, hwf, he => by
    simp only [loopItems, Dict.mapVals, List.map_nil]
    rw [← he, put_self]
  | (k, v) :: l, pre, m, hm, hwf, he => by
    have hk : k ∉ Dict.keys pre := by
      intro hk
      simp only [Dict.WF, Dict.keys, List.map_append, List.nodup_append] at hwf
      exact hwf.2.2 k hk k (by simp) rfl
    simp only [loopItems, Prog.finish]
    rw [he, set_middle (f v) hk]
    have hwf' : Dict.WF ((pre ++ [(k, f v)]) ++ l) := by
      simp only [Dict.WF, Dict.keys, List.map_append, List.map_cons, List.append_assoc, List.cons_append, List.nil_append] at hwf ⊢
      exact hwf
    have hm' : (m.put (pre ++ (k, f v) :: l)).cur < (m.put (pre ++ (k, f v) :: l)).heap.length := by simpa [Shared.put] using hm
    have := finish_loopItems f next l (pre ++ [(k, f v)]) (m.put (pre ++ (k, f v) :: l)) hm' hwf' (by rw [getD_put hm]; simp)
    change (loopItems f next l).finish (m.put (pre ++ (k, f v) :: l)) = _
    rw [this, put_put]
    simp [Dict.mapVals]

theorem finish_min (r : ℕ) (next : Option (Key × K) → Prog K) (m : Shared K) :
    ∀ (l : Dict Key (List (K × K))) (best : Option (Key × K)), (∀ it ∈ l, Dict.get (m.heap.getD r []) it.1 = .ok it.2) →
      (minProg r next (l.map Prod.fst) best).finish m =
        match minLoop best l with
        | .error e => (some e, m)
        | .ok b => (next b).finish m
  | [], best, _ => by simp [minProg, minLoop]
  | (k, v) :: l, best, h => by
    have h0 := h (k, v) (List.mem_cons_self ..)
    dsimp only at h0
    simp only [List.map_cons, minProg, Prog.finish, minLoop]
    rw [h0]
    dsimp only
    cases pyMin (v.map Prod.snd) with
    | error e => simp [Prog.finish, bind, Except.bind]
    | ok x =>
      simp only [bind, Except.bind]
      rw [finish_min r next m l _ (fun it hit => h it (List.mem_cons_of_mem _ hit))]
      cases best with
      | none => rfl
      | some b =>
        obtain ⟨k', m'⟩ := b
        dsimp only
        split_ifs <;> rfl

theorem finish_max (r : ℕ) (next : Option (Key × K) → Prog K) (m : Shared K) :
    ∀ (l : Dict Key (List (K × K))) (best : Option (Key × K)), (∀ it ∈ l, Dict.get (m.heap.getD r []) it.1 = .ok it.2) →
      (maxProg r next (l.map Prod.fst) best).finish m =
        match maxLoop best l with
        | .error e => (some e, m)
        | .ok b => (next b).finish m
  | [], best, _ => by simp [maxProg, maxLoop]
  | (k, v) :: l, best, h => by
    have h0 := h (k, v) (List.mem_cons_self ..)
    dsimp only at h0
    simp only [List.map_cons, maxProg, Prog.finish, maxLoop]
    rw [h0]
    dsimp only
    cases pyMax (v.map Prod.snd) with
    | error e => simp [Prog.finish, bind, Except.bind]
    | ok x =>
      simp only [bind, Except.bind]
      rw [finish_max r next m l _ (fun it hit => h it (List.mem_cons_of_mem _ hit))]
      cases best with
      | none => rfl
      | some b =>
        obtain ⟨k', m'⟩ := b
        dsimp only
        split_ifs <;> rfl

theorem valid_put {m : Shared K} (hm : m.cur < m.heap.length) {d : Dict Key (List (K × K))} (hd : Dict.WF d) : Valid (m.put d) :=
  ⟨by simpa [Shared.put] using hm, by rw [getD_put hm]; exact hd⟩

theorem finish_subtract (m : Shared K) (hm : Valid m) :
    ((subtractProg : Prog K).finish m).1 = (step m.inst .subtractMin).2 ∧ ((subtractProg : Prog K).finish m).2.inst = (step m.inst .subtractMin).1 ∧
      Valid ((subtractProg : Prog K).finish m).2 := by
  rw [step_subtractMin]
  unfold subtractProg DataContainer.subtractMin getMinval
  simp only [Prog.finish]
  unfold Dict.keys
  rw [finish_min _ _ _ _ _ (fun it hit => get_of_mem' hm.wf hit)]
  simp only [Shared.inst]
  cases minLoop none (m.heap.getD m.cur []) with
  | error e => exact ⟨rfl, rfl, hm⟩
  | ok b =>
    cases b with
    | none =>
      simp only [Prog.finish]
      exact ⟨rfl, rfl, hm.cur, hm.wf⟩
    | some b =>
      obtain ⟨k, x⟩ := b
      simp only [Prog.finish]
      rw [finish_loopItems _ _ _ [] m hm.cur (by simpa using hm.wf) (by simp)]
      simp only [Prog.finish, List.nil_append]
      have hwf : Dict.WF (Dict.mapVals (fun v => v.map (fun p : K × K => (p.1, p.2 - x))) (m.heap.getD m.cur [])) := by
        simpa [Dict.WF] using hm.wf
      have hv := valid_put hm.cur hwf
      refine ⟨rfl, ?_, hv.cur, hv.wf⟩
      have := getD_put hm.cur (Dict.mapVals (fun v => v.map (fun p : K × K => (p.1, p.2 - x))) (m.heap.getD m.cur []))
      rw [this]
      rfl

theorem finish_normalize (d : K) (m : Shared K) (hm : Valid m) :
    ((normalizeProg d).finish m).1 = (step m.inst (.normalize d)).2 ∧ ((normalizeProg d).finish m).2.inst = (step m.inst (.normalize d)).1 ∧
      Valid ((normalizeProg d).finish m).2 := by
  rw [step_normalize]
  unfold normalizeProg DataContainer.normalizeData getMaxval
  simp only [Prog.finish]
  unfold Dict.keys
  rw [finish_max _ _ _ _ _ (fun it hit => get_of_mem' hm.wf hit)]
  have hsc := fun s => finish_scale s m hm
  simp only [step_scale] at hsc
  have hd : m.inst.data = m.heap.getD m.cur [] := rfl
  rw [hd]
  cases maxLoop none (m.heap.getD m.cur []) with
  | error e => exact ⟨rfl, rfl, hm⟩
  | ok b =>
    cases b with
    | none => exact hsc 0
    | some b =>
      obtain ⟨k, x⟩ := b
      dsimp only [bind, Except.bind]
      by_cases hx : x = 0
      · rw [if_pos hx, if_pos hx]
        by_cases h0 : d < 0
        · rw [if_pos h0, if_pos h0]; exact ⟨rfl, rfl, hm⟩
        · rw [if_neg h0, if_neg h0]; exact ⟨rfl, rfl, hm⟩
      · rw [if_neg hx, if_neg hx]
        exact hsc (d / x)

theorem mapUntil_ok (f : List (K × K) → List (K × K)) (d : Dict Key (List (K × K))) :
    mapUntil (fun v => .ok (f v)) d = (d.mapVals f, none) := by
  induction d with
  | nil => rfl
  | cons a d ih =>
    obtain ⟨k, v⟩ := a
    unfold mapUntil
    rw [ih]
    rfl

theorem finish_shift (a : K) (u : Key) (m : Shared K) (hm : Valid m) :
    ((shiftProg a u).finish m).1 = (step m.inst (.phaseShift a u)).2 ∧ ((shiftProg a u).finish m).2.inst = (step m.inst (.phaseShift a u)).1 ∧
      Valid ((shiftProg a u).finish m).2 := by
  rw [step_phaseShift]
  unfold shiftProg phaseShiftData
  cases angleOf a u with
  | error e => exact ⟨rfl, rfl, hm⟩
  | ok a =>
    simp only [Prog.finish]
    have := finish_build (fun v => v.map (fun p : K × K => (pmod (p.1 + a), p.2))) m.cur
      (fun d => .assign d (.getPhase (fun x => .setPhase (x + a)
        (.ref (fun r => .keys r (fun ks => loop (fun v => .ok (sortPts v)) r (.stop none) ks)))))) m (m.heap.getD m.cur []) []
      (fun it hit => get_of_mem' hm.wf hit) (by rw [List.map_nil, List.nil_append]; exact hm.wf)
    unfold Dict.keys
    rw [this]
    simp only [List.nil_append, Prog.finish]
    set d : Dict Key (List (K × K)) := (m.heap.getD m.cur []).map (fun it => (it.1, it.2.map (fun p : K × K => (pmod (p.1 + a), p.2)))) with hd
    have hwf : Dict.WF d := by
      have := hm.wf
      simp only [hd, Dict.WF, Dict.keys, List.map_map] at this ⊢
      exact this
    set m' : Shared K := ⟨m.heap ++ [d], m.heap.length, m.scale, m.phaseShift + a, m.offset, m.coerced, m.units⟩ with hm'
    have hcur : m'.cur < m'.heap.length := by simp [hm']
    have hget : m'.heap.getD m'.cur [] = d := by simp [hm', List.getD_eq_getElem?_getD]
    have hl := finish_loop (fun v => .ok (sortPts v)) d [] m' hcur (by simpa using hwf) (by simpa using hget)
    have hk : Dict.keys (m'.heap.getD m'.cur []) = d.map Prod.fst := by rw [hget]; rfl
    change ((loop (fun v => .ok (sortPts v)) m'.cur (.stop none) (Dict.keys (m'.heap.getD m'.cur []))).finish m').1 = _ ∧
      ((loop (fun v => .ok (sortPts v)) m'.cur (.stop none) (Dict.keys (m'.heap.getD m'.cur []))).finish m').2.inst = _ ∧
      Valid ((loop (fun v => .ok (sortPts v)) m'.cur (.stop none) (Dict.keys (m'.heap.getD m'.cur []))).finish m').2
    rw [hk, hl, mapUntil_ok]
    refine ⟨rfl, ?_, valid_put hcur (by simpa [Dict.WF] using hwf)⟩
    rw [inst_put hcur]
    simp only [List.nil_append, hd, Dict.mapVals, List.map_map]
    rfl

theorem filterLoop_eq (f : List K → Except Err (List K)) (d : Dict Key (List (K × K))) :
    mapUntil (filterItem f) d = filterLoop f d := by
  induction d with
  | nil => rfl
  | cons a d ih =>
    obtain ⟨k, v⟩ := a
    unfold mapUntil filterLoop
    rw [ih]
    unfold filterItem
    cases f (v.map Prod.snd) with
    | error e => rfl
    | ok ys =>
      dsimp only
      by_cases h : ys.length = v.length
      · rw [if_pos h, if_pos h]
      · rw [if_neg h, if_neg h]

theorem finish_filter (f : List K → Except Err (List K)) (m : Shared K) (hm : Valid m) :
    ((filterProg f).finish m).1 = (step m.inst (.filter f)).2 ∧ ((filterProg f).finish m).2.inst = (step m.inst (.filter f)).1 ∧
      Valid ((filterProg f).finish m).2 := by
  rw [step_filter]
  unfold filterProg
  simp only [Prog.finish]
  unfold Dict.keys
  rw [finish_loop _ _ [] m hm.cur (by simpa using hm.wf) (by simp)]
  have hk := keys_mapUntil (filterItem f) (m.heap.getD m.cur [])
  rw [filterLoop_eq] at hk ⊢
  refine ⟨rfl, by rw [inst_put hm.cur]; rfl, valid_put hm.cur ?_⟩
  have := hm.wf
  unfold Dict.WF Dict.keys at this ⊢
  rw [List.nil_append, hk]
  exact this

theorem finish_prog (op : Op K) (m : Shared K) (hm : Valid m) :
    ((prog op).finish m).1 = (step m.inst op).2 ∧ ((prog op).finish m).2.inst = (step m.inst op).1 ∧ Valid ((prog op).finish m).2 := by
  cases op with
  | scale s => exact finish_scale s m hm
  | subtractMin => exact finish_subtract m hm
  | normalize d => exact finish_normalize d m hm
  | phaseShift a u => exact finish_shift a u m hm
  | filter f => exact finish_filter f m hm

/-! ### Steps of one thread -/

/-- The method has ended. -/
def Prog.Ended (p : Prog K) : Prop := ∃ e, p = .stop e

theorem step_of_not_ended {w : World K} {i : ℕ} {p : Prog K} {l : List (Op K)} (h : w.threads[i]? = some ⟨p, l⟩) (hp : ¬ p.Ended) :
    w.step i = ⟨(p.exec w.mem).2, w.threads.set i ⟨(p.exec w.mem).1, l⟩⟩ := by
  unfold World.step
  rw [h]
  cases p with
  | stop e => exact absurd ⟨e, rfl⟩ hp
  | _ => rfl

theorem step_of_call {w : World K} {i : ℕ} {e : Option Err} {op : Op K} {l : List (Op K)} (h : w.threads[i]? = some ⟨.stop e, op :: l⟩) :
    w.step i = ⟨w.mem, w.threads.set i ⟨prog op, l⟩⟩ := by
  unfold World.step
  rw [h]

theorem step_of_idle {w : World K} {i : ℕ} {e : Option Err} (h : w.threads[i]? = some ⟨.stop e, []⟩) :
    w.step i = ⟨w.mem, w.threads.set i ⟨.stop e, []⟩⟩ := by
  unfold World.step
  rw [h]

theorem get_set {w : World K} {i : ℕ} {t t' : Thread K} (h : w.threads[i]? = some t) : (w.threads.set i t')[i]? = some t' := by
  have := (List.getElem?_eq_some_iff.1 h).1
  rw [List.getElem?_set_self this]

theorem run_succ (w : World K) (n i : ℕ) : w.run (List.replicate (n + 1) i) = (w.step i).run (List.replicate n i) := rfl

theorem run_add (w : World K) (n n' i : ℕ) : w.run (List.replicate (n + n') i) = (w.run (List.replicate n i)).run (List.replicate n' i) := by
  rw [List.replicate_add]
  unfold World.run
  rw [List.foldl_append]

theorem finish_exec (p : Prog K) (m : Shared K) : p.finish m = (p.exec m).1.finish (p.exec m).2 := by
  cases p with
  | item r key k =>
    simp only [Prog.finish, Prog.exec]
    cases Dict.get (m.heap.getD r []) key <;> rfl
  | _ => rfl

/-- Left alone, the thread ends its method. -/
theorem run_method (i : ℕ) : ∀ (p : Prog K) (w : World K) (l : List (Op K)), w.threads[i]? = some ⟨p, l⟩ →
    ∃ n, w.run (List.replicate n i) = ⟨(p.finish w.mem).2, w.threads.set i ⟨.stop (p.finish w.mem).1, l⟩⟩ ∧
      ∀ j < n, ∃ q, (w.run (List.replicate j i)).threads[i]? = some ⟨q, l⟩ ∧ ¬ q.Ended := by
  intro p
  have key : ∀ p : Prog K, ¬ p.Ended →
      (∀ m (w : World K) (l : List (Op K)), w.threads[i]? = some ⟨(p.exec m).1, l⟩ →
        ∃ n, w.run (List.replicate n i) = ⟨((p.exec m).1.finish w.mem).2, w.threads.set i ⟨.stop ((p.exec m).1.finish w.mem).1, l⟩⟩ ∧
          ∀ j < n, ∃ q, (w.run (List.replicate j i)).threads[i]? = some ⟨q, l⟩ ∧ ¬ q.Ended) →
      ∀ (w : World K) (l : List (Op K)), w.threads[i]? = some ⟨p, l⟩ →
        ∃ n, w.run (List.replicate n i) = ⟨(p.finish w.mem).2, w.threads.set i ⟨.stop (p.finish w.mem).1, l⟩⟩ ∧
          ∀ j < n, ∃ q, (w.run (List.replicate j i)).threads[i]? = some ⟨q, l⟩ ∧ ¬ q.Ended := by
    intro p hp ih w l h
    obtain ⟨n, h1, h2⟩ := ih w.mem ⟨(p.exec w.mem).2, w.threads.set i ⟨(p.exec w.mem).1, l⟩⟩ l (get_set h)
    refine ⟨n + 1, ?_, fun j hj => ?_⟩
    · rw [run_succ, step_of_not_ended h hp, h1, finish_exec p]
      simp
    · cases j with
      | zero => exact ⟨p, h, hp⟩
      | succ j =>
        rw [run_succ, step_of_not_ended h hp]
        exact h2 j (by omega)
  have hstop : ∀ (e : Option Err) (w : World K) (l : List (Op K)), w.threads[i]? = some ⟨.stop e, l⟩ →
      ∃ n, w.run (List.replicate n i) = ⟨((Prog.stop e).finish w.mem).2, w.threads.set i ⟨.stop ((Prog.stop e).finish w.mem).1, l⟩⟩ ∧
      ∀ j < n, ∃ q, (w.run (List.replicate j i)).threads[i]? = some ⟨q, l⟩ ∧ ¬ q.Ended := by
    intro e w l h
    refine ⟨0, ?_, fun j hj => by omega⟩
    obtain ⟨h1, h2⟩ := List.getElem?_eq_some_iff.1 h
    simp only [List.replicate_zero, World.run, List.foldl_nil, Prog.finish]
    rw [← h2, List.set_getElem_self]
  induction p with
  | stop e => exact hstop e
  | ref k ih => exact key _ (by rintro ⟨e, h⟩; cases h) (fun m => ih m.cur)
  | keys r k ih => exact key _ (by rintro ⟨e, h⟩; cases h) (fun m => ih _)
  | items r k ih => exact key _ (by rintro ⟨e, h⟩; cases h) (fun m => ih _)
  | item r key' k ih =>
    refine key _ (by rintro ⟨e, h⟩; cases h) (fun m => ?_)
    simp only [Prog.exec]
    cases Dict.get (m.heap.getD r []) key' with
    | ok v => exact ih v
    | error e => exact hstop _
  | store r key' v p ih => exact key _ (by rintro ⟨e, h⟩; cases h) (fun m => ih)
  | assign d p ih => exact key _ (by rintro ⟨e, h⟩; cases h) (fun m => ih)
  | getScale k ih => exact key _ (by rintro ⟨e, h⟩; cases h) (fun m => ih _)
  | setScale x p ih => exact key _ (by rintro ⟨e, h⟩; cases h) (fun m => ih)
  | getPhase k ih => exact key _ (by rintro ⟨e, h⟩; cases h) (fun m => ih _)
  | setPhase x p ih => exact key _ (by rintro ⟨e, h⟩; cases h) (fun m => ih)
  | getOffset k ih => exact key _ (by rintro ⟨e, h⟩; cases h) (fun m => ih _)
  | setOffset x p ih => exact key _ (by rintro ⟨e, h⟩; cases h) (fun m => ih)

/-- The calls that a thread has still to make do not become more. -/
theorem later_le (i : ℕ) : ∀ (n : ℕ) (w : World K) (t : Thread K), w.threads[i]? = some t →
    ∃ t', (w.run (List.replicate n i)).threads[i]? = some t' ∧ t'.later.length ≤ t.later.length
  | 0, w, t, h => ⟨t, h, le_rfl⟩
  | n + 1, w, t, h => by
    rw [run_succ]
    obtain ⟨p, l⟩ := t
    by_cases hp : p.Ended
    · obtain ⟨e, rfl⟩ := hp
      cases l with
      | nil =>
        rw [step_of_idle h]
        obtain ⟨t', h1, h2⟩ := later_le i n ⟨w.mem, w.threads.set i ⟨.stop e, []⟩⟩ _ (get_set h)
        exact ⟨t', h1, h2⟩
      | cons op l =>
        rw [step_of_call h]
        obtain ⟨t', h1, h2⟩ := later_le i n ⟨w.mem, w.threads.set i ⟨prog op, l⟩⟩ _ (get_set h)
        refine ⟨t', h1, ?_⟩
        simp only [List.length_cons] at h2 ⊢
        omega
    · rw [step_of_not_ended h hp]
      obtain ⟨t', h1, h2⟩ := later_le i n ⟨(p.exec w.mem).2, w.threads.set i ⟨(p.exec w.mem).1, l⟩⟩ _ (get_set h)
      exact ⟨t', h1, h2⟩

/-- A thread that makes whole calls while the others wait makes them as if it were alone. -/
theorem run_calls (i : ℕ) : ∀ (n : ℕ) (w : World K) (l l' : List (Op K)), Valid w.mem → Resting w i (l ++ l') →
    Resting (w.run (List.replicate n i)) i l' →
    (w.run (List.replicate n i)).mem.inst = DataContainer.run w.mem.inst l ∧ Valid (w.run (List.replicate n i)).mem := by
  intro n
  induction n using Nat.strong_induction_on with
  | _ n ih =>
    intro w l l' hv hr hr'
    obtain ⟨e, he⟩ := hr
    obtain ⟨e', he'⟩ := hr'
    cases n with
    | zero =>
      have : l = [] := by
        have h0 : w.threads[i]? = some ⟨.stop e', l'⟩ := he'
        rw [he] at h0
        have := congrArg Thread.later (Option.some.inj h0)
        simpa using this
      subst this
      exact ⟨rfl, hv⟩
    | succ n =>
      rw [run_succ] at he' ⊢
      cases hl : l ++ l' with
      | nil =>
        obtain ⟨rfl, rfl⟩ := List.append_eq_nil_iff.1 hl
        rw [hl] at he
        rw [step_of_idle he] at he' ⊢
        exact ih n (by omega) ⟨w.mem, w.threads.set i ⟨.stop e, []⟩⟩ [] [] hv ⟨e, get_set he⟩ ⟨e', he'⟩
      | cons op rest =>
        rw [hl] at he
        rw [step_of_call he] at he' ⊢
        obtain ⟨N, h1, h2⟩ := run_method i (prog op) ⟨w.mem, w.threads.set i ⟨prog op, rest⟩⟩ rest (get_set he)
        obtain ⟨f1, f2, f3⟩ := finish_prog op w.mem hv
        have hN : N ≤ n := by
          by_contra hlt
          obtain ⟨q, h3, h4⟩ := h2 n (by omega)
          rw [h3] at he'
          have := congrArg Thread.now (Option.some.inj he')
          exact h4 ⟨e', this⟩
        obtain ⟨n', rfl⟩ := Nat.exists_eq_add_of_le hN
        rw [run_add, h1] at he' ⊢
        dsimp only at he' h1 ⊢
        cases l with
        | nil =>
          exfalso
          simp only [List.nil_append] at hl
          subst hl
          obtain ⟨t', g1, g2⟩ := later_le i n' ⟨((prog op).finish w.mem).2, (w.threads.set i ⟨prog op, rest⟩).set i
            ⟨.stop ((prog op).finish w.mem).1, rest⟩⟩ _ (get_set (w := ⟨((prog op).finish w.mem).2, w.threads.set i ⟨prog op, rest⟩⟩)
            (t' := ⟨.stop ((prog op).finish w.mem).1, rest⟩) (get_set he))
          rw [he'] at g1
          have := congrArg Thread.later (Option.some.inj g1)
          dsimp only at this g2
          rw [← this] at g2
          simp at g2
        | cons op' l1 =>
          simp only [List.cons_append, List.cons.injEq] at hl
          obtain ⟨rfl, rfl⟩ := hl
          have := ih n' (by omega) ⟨((prog op').finish w.mem).2, (w.threads.set i ⟨prog op', l1 ++ l'⟩).set i
            ⟨.stop ((prog op').finish w.mem).1, l1 ++ l'⟩⟩ l1 l' f3 ⟨_, get_set (w := ⟨w.mem, w.threads.set i ⟨prog op', l1 ++ l'⟩⟩) (get_set he)⟩ ⟨e', he'⟩
          refine ⟨?_, this.2⟩
          rw [this.1]
          dsimp only
          rw [f2]
          rfl

/-! ### Any schedule -/

/-- The places that calls write to. -/
inductive Slot
  | data | scale | phase
deriving DecidableEq

/-- What is known of the values in each place when the calls in the multiset may have contributed to them. -/
structure Labels (K : Type) where
  data : Multiset (Op K) → Key → List (K × K) → Prop
  scale : Multiset (Op K) → K → Prop
  phase : Multiset (Op K) → K → Prop
  offset : Option K → Prop
  data_mono : ∀ {a b : Multiset (Op K)}, a ≤ b → ∀ {k v}, data a k v → data b k v
  scale_mono : ∀ {a b : Multiset (Op K)}, a ≤ b → ∀ {x}, scale a x → scale b x
  phase_mono : ∀ {a b : Multiset (Op K)}, a ≤ b → ∀ {x}, phase a x → phase b x

/-- The number of dictionary objects, and the calls that have written to each place. -/
structure Ghost (K : Type) where
  n : ℕ
  wrote : Slot → Multiset (Op K)

instance : LE (Ghost K) := ⟨fun g g' => g.n ≤ g'.n ∧ ∀ t, g.wrote t ≤ g'.wrote t⟩

theorem Ghost.refl (g : Ghost K) : g ≤ g := ⟨le_rfl, fun _ => le_rfl⟩
theorem Ghost.trans {g g' g'' : Ghost K} (h : g ≤ g') (h' : g' ≤ g'') : g ≤ g'' := ⟨h.1.trans h'.1, fun t => (h.2 t).trans (h'.2 t)⟩

/-- The calls whose contribution to each place is written. -/
def Ghost.add (g : Ghost K) (t : Slot) (a : Multiset (Op K)) : Ghost K := ⟨g.n, Function.update g.wrote t (g.wrote t + a)⟩

theorem Ghost.add_mono {g g' : Ghost K} (h : g ≤ g') (t : Slot) (a : Multiset (Op K)) : g.add t a ≤ g'.add t a := by
  refine ⟨h.1, fun t' => ?_⟩
  unfold Ghost.add
  by_cases ht : t' = t
  · subst ht
    simp only [Function.update_self]
    exact add_le_add_left (h.2 t') a
  · simp only [Function.update_of_ne ht]
    exact h.2 t'

theorem Ghost.le_add (g : Ghost K) (t : Slot) (a : Multiset (Op K)) : g ≤ g.add t a := by
  refine ⟨le_rfl, fun t' => ?_⟩
  unfold Ghost.add
  by_cases ht : t' = t
  · subst ht
    simp only [Function.update_self]
    exact Multiset.le_add_right _ _
  · simp only [Function.update_of_ne ht]
    exact le_rfl

/-- What a method writes is labelled rightly, provided that what it reads is; whatever the others do in between. -/
def Safe (L : Labels K) (ks : List Key) (pend : Slot → Multiset (Op K)) : Prog K → Ghost K → Prop
  | .stop _, _ => True
  | .ref k, g => ∀ g', g ≤ g' → ∀ r < g'.n, Safe L ks pend (k r) g'
  | .keys r k, g => r < g.n ∧ ∀ g', g ≤ g' → Safe L ks pend (k ks) g'
  | .items r k, g => r < g.n ∧ ∀ g', g ≤ g' → ∀ d : Dict Key (List (K × K)), d.keys = ks → (∀ it ∈ d, L.data (g'.wrote .data) it.1 it.2) →
      Safe L ks pend (k d) g'
  | .item r key k, g => r < g.n ∧ key ∈ ks ∧ ∀ g', g ≤ g' → ∀ v, L.data (g'.wrote .data) key v → Safe L ks pend (k v) g'
  | .store _ key v p, g => key ∈ ks ∧ L.data (g.wrote .data) key v ∧ ∀ g', g ≤ g' → Safe L ks pend p g'
  | .assign d p, g => d.keys = ks ∧ (∀ it ∈ d, L.data (g.wrote .data + pend .data) it.1 it.2) ∧
      ∀ g', g.add .data (pend .data) ≤ g' → Safe L ks (Function.update pend .data 0) p g'
  | .getScale k, g => ∀ g', g ≤ g' → ∀ x, L.scale (g'.wrote .scale) x → Safe L ks pend (k x) g'
  | .setScale x p, g => L.scale (g.wrote .scale + pend .scale) x ∧
      ∀ g', g.add .scale (pend .scale) ≤ g' → Safe L ks (Function.update pend .scale 0) p g'
  | .getPhase k, g => ∀ g', g ≤ g' → ∀ x, L.phase (g'.wrote .phase) x → Safe L ks pend (k x) g'
  | .setPhase x p, g => L.phase (g.wrote .phase + pend .phase) x ∧
      ∀ g', g.add .phase (pend .phase) ≤ g' → Safe L ks (Function.update pend .phase 0) p g'
  | .getOffset k, g => ∀ g', g ≤ g' → ∀ x, L.offset x → Safe L ks pend (k x) g'
  | .setOffset x p, g => L.offset x ∧ ∀ g', g ≤ g' → Safe L ks pend p g'

theorem Safe.mono {L : Labels K} {ks : List Key} {pend : Slot → Multiset (Op K)} {p : Prog K} {g g' : Ghost K} (hg : g ≤ g')
    (h : Safe L ks pend p g) : Safe L ks pend p g' := by
  cases p with
  | stop e => trivial
  | ref k => exact fun g'' h' => h g'' (Ghost.trans hg h')
  | keys r k => exact ⟨lt_of_lt_of_le h.1 hg.1, fun g'' h' => h.2 g'' (Ghost.trans hg h')⟩
  | items r k => exact ⟨lt_of_lt_of_le h.1 hg.1, fun g'' h' => h.2 g'' (Ghost.trans hg h')⟩
  | item r key k => exact ⟨lt_of_lt_of_le h.1 hg.1, h.2.1, fun g'' h' => h.2.2 g'' (Ghost.trans hg h')⟩
  | store r key v p => exact ⟨h.1, L.data_mono (hg.2 _) h.2.1, fun g'' h' => h.2.2 g'' (Ghost.trans hg h')⟩
  | assign d p =>
    exact ⟨h.1, fun it hit => L.data_mono (add_le_add_left (hg.2 _) _) (h.2.1 it hit),
      fun g'' h' => h.2.2 g'' (Ghost.trans (Ghost.add_mono hg _ _) h')⟩
  | getScale k => exact fun g'' h' => h g'' (Ghost.trans hg h')
  | setScale x p =>
    exact ⟨L.scale_mono (add_le_add_left (hg.2 _) _) h.1, fun g'' h' => h.2 g'' (Ghost.trans (Ghost.add_mono hg _ _) h')⟩
  | getPhase k => exact fun g'' h' => h g'' (Ghost.trans hg h')
  | setPhase x p =>
    exact ⟨L.phase_mono (add_le_add_left (hg.2 _) _) h.1, fun g'' h' => h.2 g'' (Ghost.trans (Ghost.add_mono hg _ _) h')⟩
  | getOffset k => exact fun g'' h' => h g'' (Ghost.trans hg h')
  | setOffset x p => exact ⟨h.1, fun g'' h' => h.2 g'' (Ghost.trans hg h')⟩

/-- What holds of the instance. -/
structure Labelled (L : Labels K) (ks : List Key) (m : Shared K) (g : Ghost K) : Prop where
  n : g.n = m.heap.length
  cur : m.cur < m.heap.length
  keys : ∀ d ∈ m.heap, Dict.keys d = ks
  data : ∀ d ∈ m.heap, ∀ it ∈ d, L.data (g.wrote .data) it.1 it.2
  scale : L.scale (g.wrote .scale) m.scale
  phase : L.phase (g.wrote .phase) m.phaseShift
  offset : L.offset m.offset

theorem mem_getD {m : Shared K} {r : ℕ} (h : r < m.heap.length) : m.heap.getD r [] ∈ m.heap := by
  rw [List.getD_eq_getElem?_getD, List.getElem?_eq_getElem h, Option.getD_some]
  exact List.getElem_mem h

theorem mem_set_dict {d : Dict Key (List (K × K))} {k : Key} {v : List (K × K)} {it : Key × List (K × K)} (h : it ∈ Dict.set d k v) :
    it = (k, v) ∨ it ∈ d := by
  induction d with
  | nil => simpa [Dict.set] using h
  | cons a d ih =>
    obtain ⟨k', v'⟩ := a
    unfold Dict.set at h
    split_ifs at h with hk
    · rcases List.mem_cons.1 h with rfl | h
      · exact .inl rfl
      · exact .inr (List.mem_cons_of_mem _ h)
    · rcases List.mem_cons.1 h with rfl | h
      · exact .inr (List.mem_cons_self ..)
      · rcases ih h with h | h
        · exact .inl h
        · exact .inr (List.mem_cons_of_mem _ h)

/-- One access keeps the labels. -/
theorem exec_safe {L : Labels K} {ks : List Key} {pend : Slot → Multiset (Op K)} {p : Prog K} {m : Shared K} {g : Ghost K}
    (hm : Labelled L ks m g) (h : Safe L ks pend p g) :
    ∃ g' pend', g ≤ g' ∧ Labelled L ks (p.exec m).2 g' ∧ Safe L ks pend' (p.exec m).1 g' ∧
      ∀ t, g'.wrote t + pend' t = g.wrote t + pend t := by
  cases p with
  | stop e => exact ⟨g, pend, g.refl, hm, trivial, fun t => rfl⟩
  | ref k => exact ⟨g, pend, g.refl, hm, h g g.refl _ (by rw [hm.n]; exact hm.cur), fun t => rfl⟩
  | keys r k =>
    refine ⟨g, pend, g.refl, hm, ?_, fun t => rfl⟩
    have := h.2 g g.refl
    simp only [Prog.exec]
    rw [hm.keys _ (mem_getD (by rw [← hm.n]; exact h.1))]
    exact this
  | items r k =>
    have hr := mem_getD (m := m) (r := r) (by rw [← hm.n]; exact h.1)
    exact ⟨g, pend, g.refl, hm, h.2 g g.refl _ (hm.keys _ hr) (hm.data _ hr), fun t => rfl⟩
  | item r key k =>
    have hr := mem_getD (m := m) (r := r) (by rw [← hm.n]; exact h.1)
    refine ⟨g, pend, g.refl, ?_, ?_, fun t => rfl⟩
    · simp only [Prog.exec]
      cases Dict.get (m.heap.getD r []) key <;> exact hm
    · simp only [Prog.exec]
      cases hget : Dict.get (m.heap.getD r []) key with
      | error e => trivial
      | ok v => exact h.2.2 g g.refl v (hm.data _ hr _ (Dict.mem_of_get? (Dict.get_ok_iff.1 hget)))
  | store r key v p =>
    refine ⟨g, pend, g.refl, ⟨?_, ?_, ?_, ?_, hm.scale, hm.phase, hm.offset⟩, h.2.2 g g.refl, fun t => rfl⟩
    · simpa [Prog.exec] using hm.n
    · simpa [Prog.exec] using hm.cur
    · intro d hd
      simp only [Prog.exec] at hd
      rcases List.mem_or_eq_of_mem_set hd with hd | rfl
      · exact hm.keys d hd
      · by_cases hr : r < m.heap.length
        · rw [Dict.keys_set, hm.keys _ (mem_getD hr), if_pos h.1]
        · rw [List.set_eq_of_length_le (by omega)] at hd
          exact hm.keys _ hd
    · intro d hd it hit
      simp only [Prog.exec] at hd
      rcases List.mem_or_eq_of_mem_set hd with hd | rfl
      · exact hm.data d hd it hit
      · rcases mem_set_dict hit with rfl | hit
        · exact h.2.1
        · by_cases hr : r < m.heap.length
          · exact hm.data _ (mem_getD hr) it hit
          · rw [List.set_eq_of_length_le (by omega)] at hd
            rw [List.getD_eq_getElem?_getD, List.getElem?_eq_none (by omega)] at hit
            simp at hit
  | assign d p =>
    refine ⟨⟨g.n + 1, (g.add .data (pend .data)).wrote⟩, Function.update pend .data 0, ?_, ⟨?_, ?_, ?_, ?_, ?_, ?_, hm.offset⟩, ?_, ?_⟩
    · exact ⟨by show g.n ≤ g.n + 1; omega, (g.le_add _ _).2⟩
    · simp [Prog.exec, hm.n]
    · simp [Prog.exec]
    · intro d' hd
      simp only [Prog.exec, List.mem_append, List.mem_singleton] at hd
      rcases hd with hd | rfl
      · exact hm.keys d' hd
      · exact h.1
    · intro d' hd it hit
      simp only [Prog.exec, List.mem_append, List.mem_singleton] at hd
      rcases hd with hd | rfl
      · exact L.data_mono ((g.le_add .data (pend .data)).2 .data) (hm.data d' hd it hit)
      · have := h.2.1 it hit
        simpa [Ghost.add, Prog.exec] using this
    · have := hm.scale
      simpa [Ghost.add, Prog.exec] using this
    · have := hm.phase
      simpa [Ghost.add, Prog.exec] using this
    · exact h.2.2 _ ⟨by show g.n ≤ g.n + 1; omega, fun _ => le_rfl⟩
    · intro t
      by_cases ht : t = .data
      · subst ht; simp [Ghost.add]
      · simp [Ghost.add, Function.update_of_ne ht]
  | getScale k => exact ⟨g, pend, g.refl, hm, h g g.refl _ hm.scale, fun t => rfl⟩
  | setScale x p =>
    refine ⟨g.add .scale (pend .scale), Function.update pend .scale 0, g.le_add _ _, ⟨hm.n, hm.cur, hm.keys, ?_, ?_, ?_, hm.offset⟩,
      h.2 _ (Ghost.refl _), ?_⟩
    · intro d hd it hit
      have := hm.data d hd it hit
      simpa [Ghost.add, Prog.exec] using this
    · have := h.1
      simpa [Ghost.add, Prog.exec] using this
    · have := hm.phase
      simpa [Ghost.add, Prog.exec] using this
    · intro t
      by_cases ht : t = .scale
      · subst ht; simp [Ghost.add]
      · simp [Ghost.add, Function.update_of_ne ht]
  | getPhase k => exact ⟨g, pend, g.refl, hm, h g g.refl _ hm.phase, fun t => rfl⟩
  | setPhase x p =>
    refine ⟨g.add .phase (pend .phase), Function.update pend .phase 0, g.le_add _ _, ⟨hm.n, hm.cur, hm.keys, ?_, ?_, ?_, hm.offset⟩,
      h.2 _ (Ghost.refl _), ?_⟩
    · intro d hd it hit
      have := hm.data d hd it hit
      simpa [Ghost.add, Prog.exec] using this
    · have := hm.scale
      simpa [Ghost.add, Prog.exec] using this
    · have := h.1
      simpa [Ghost.add, Prog.exec] using this
    · intro t
      by_cases ht : t = .phase
      · subst ht; simp [Ghost.add]
      · simp [Ghost.add, Function.update_of_ne ht]
  | getOffset k => exact ⟨g, pend, g.refl, hm, h g g.refl _ hm.offset, fun t => rfl⟩
  | setOffset x p =>
    exact ⟨g, pend, g.refl, ⟨hm.n, hm.cur, hm.keys, hm.data, hm.scale, hm.phase, h.1⟩, h.2 g g.refl, fun t => rfl⟩

/-- The calls that a thread may still contribute to a place. -/
def share (t : Slot) (x : Thread K × (Slot → Multiset (Op K))) : Multiset (Op K) := x.2 t + (x.1.later : Multiset (Op K))

/-- What holds at every moment. -/
structure Inv (L : Labels K) (ks : List Key) (all : Multiset (Op K)) (ok : Op K → Prop) (w : World K) : Prop where
  ex : ∃ g, Labelled L ks w.mem g ∧ ∃ ts : List (Thread K × (Slot → Multiset (Op K))), ts.map Prod.fst = w.threads ∧
    (∀ x ∈ ts, Safe L ks x.2 x.1.now g ∧ ∀ op ∈ x.1.later, ok op) ∧ ∀ t, g.wrote t + (ts.map (share t)).sum ≤ all

theorem sum_set {ι : Type} (f : ι → Multiset (Op K)) : ∀ (l : List ι) (i : ℕ) (x y : ι), l[i]? = some x →
    ((l.set i y).map f).sum + f x = (l.map f).sum + f y
  | [], i, x, y, h => by simp at h
  | a :: l, 0, x, y, h => by
    simp only [List.getElem?_cons_zero, Option.some.injEq] at h
    subst h
    simp only [List.set_cons_zero, List.map_cons, List.sum_cons]
    abel
  | a :: l, i + 1, x, y, h => by
    simp only [List.getElem?_cons_succ] at h
    have := sum_set f l i x y h
    simp only [List.set_cons_succ, List.map_cons, List.sum_cons]
    rw [add_assoc, this]
    abel

theorem Inv.step {L : Labels K} {ks : List Key} {all : Multiset (Op K)} {ok : Op K → Prop}
    (hprog : ∀ op, ok op → ∀ g, Safe L ks (fun _ => {op}) (prog op) g) {w : World K} (h : Inv L ks all ok w) (i : ℕ) :
    Inv L ks all ok (w.step i) := by
  obtain ⟨g, hm, ts, e, hs, hsum⟩ := h.ex
  cases hi : w.threads[i]? with
  | none =>
    have : w.step i = w := by unfold World.step; rw [hi]
    rw [this]; exact h
  | some t =>
    have hti : ∃ pend, ts[i]? = some (t, pend) := by
      rw [← e, List.getElem?_map] at hi
      obtain ⟨⟨t', pend⟩, h1, h2⟩ := Option.map_eq_some_iff.1 hi
      dsimp only at h2
      subst h2
      exact ⟨pend, h1⟩
    obtain ⟨pend, hti⟩ := hti
    have hmem : (t, pend) ∈ ts := List.mem_of_getElem? hti
    have upd : ∀ (m' : Shared K) (g' : Ghost K) (t' : Thread K) (pend' : Slot → Multiset (Op K)), g ≤ g' → Labelled L ks m' g' →
        Safe L ks pend' t'.now g' → (∀ op ∈ t'.later, ok op) →
        (∀ s, g'.wrote s + (pend' s + (t'.later : Multiset (Op K))) ≤ g.wrote s + (pend s + (t.later : Multiset (Op K)))) →
        Inv L ks all ok ⟨m', w.threads.set i t'⟩ := by
      intro m' g' t' pend' hg hm' hsafe hok hle
      refine ⟨g', hm', ts.set i (t', pend'), by rw [List.map_set, e], fun x hx => ?_, fun s => ?_⟩
      · rcases List.mem_or_eq_of_mem_set hx with hx | rfl
        · exact ⟨(hs x hx).1.mono hg, (hs x hx).2⟩
        · exact ⟨hsafe, hok⟩
      · have h1 := sum_set (share s) ts i (t, pend) (t', pend') hti
        have h2 := hsum s
        have h3 := hle s
        change g'.wrote s + share s (t', pend') ≤ g.wrote s + share s (t, pend) at h3
        refine le_trans ?_ h2
        refine le_of_add_le_add_right (a := share s (t, pend)) ?_
        calc g'.wrote s + ((ts.set i (t', pend')).map (share s)).sum + share s (t, pend)
            = (ts.map (share s)).sum + (g'.wrote s + share s (t', pend')) := by rw [add_assoc, h1]; abel
          _ ≤ (ts.map (share s)).sum + (g.wrote s + share s (t, pend)) := add_le_add_right h3 _
          _ = _ := by abel
    obtain ⟨p, l⟩ := t
    by_cases hp : p.Ended
    · obtain ⟨er, rfl⟩ := hp
      cases l with
      | nil =>
        rw [step_of_idle hi]
        exact upd w.mem g _ pend g.refl hm trivial (hs _ hmem).2 (fun s => le_rfl)
      | cons op l =>
        rw [step_of_call hi]
        have hok := (hs _ hmem).2
        refine upd w.mem g ⟨prog op, l⟩ (fun _ => {op}) g.refl hm (hprog op (hok op (by simp)) g) (fun o ho => hok o (by simp [ho])) (fun s => ?_)
        refine add_le_add_right ?_ _
        rw [Multiset.singleton_add, ← Multiset.cons_coe]
        exact Multiset.le_add_left _ _
    · rw [step_of_not_ended hi hp]
      obtain ⟨g', pend', h1, h2, h3, h4⟩ := exec_safe hm (hs _ hmem).1
      refine upd _ g' ⟨(p.exec w.mem).1, l⟩ pend' h1 h2 h3 (hs _ hmem).2 (fun s => ?_)
      rw [← add_assoc, ← add_assoc, h4 s]

theorem Inv.run {L : Labels K} {ks : List Key} {all : Multiset (Op K)} {ok : Op K → Prop}
    (hprog : ∀ op, ok op → ∀ g, Safe L ks (fun _ => {op}) (prog op) g) (s : List ℕ) {w : World K} (h : Inv L ks all ok w) :
    Inv L ks all ok (w.run s) := by
  induction s generalizing w with
  | nil => exact h
  | cons i s ih => exact ih (h.step hprog i)

theorem inv_start {L : Labels K} {c : DataContainer K} (calls : List (List (Op K))) {ok : Op K → Prop} (hok : ∀ l ∈ calls, ∀ op ∈ l, ok op)
    (hd : ∀ it ∈ c.data, L.data 0 it.1 it.2) (hs : L.scale 0 c.scale) (hp : L.phase 0 c.phaseShift) (ho : L.offset c.offset) :
    Inv L c.getKeys (calls.flatten : Multiset (Op K)) ok (start c calls) := by
  refine ⟨⟨1, fun _ => 0⟩, ⟨rfl, by simp [start], ?_, ?_, hs, hp, ho⟩, calls.map (fun l => (⟨.stop none, l⟩, fun _ => 0)), ?_, ?_, ?_⟩
  · intro d h
    simp only [start, List.mem_singleton] at h
    subst h
    rfl
  · intro d h
    simp only [start, List.mem_singleton] at h
    subst h
    exact hd
  · simp [start]
  · intro x hx
    obtain ⟨l, hl, rfl⟩ := List.mem_map.1 hx
    exact ⟨trivial, hok l hl⟩
  · intro t
    dsimp only
    rw [zero_add, List.map_map]
    have : ∀ calls : List (List (Op K)), (calls.map (share t ∘ fun l => ((⟨.stop none, l⟩ : Thread K), fun _ => 0))).sum = (calls.flatten : Multiset (Op K)) := by
      intro calls
      induction calls with
      | nil => rfl
      | cons l calls ih =>
        rw [List.map_cons, List.sum_cons, ih, List.flatten_cons, ← Multiset.coe_add]
        simp [share]
    exact (this calls).le

end Shgpy.Threads
