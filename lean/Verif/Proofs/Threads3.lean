import Verif.Proofs.Threads2

/-!
# Lemmas about threads that use one container: taking turns, and schedules that go wrong
-/

set_option linter.unusedSectionVars false

namespace Shgpy.Threads
open Spec DataContainer

variable {K : Type} [Field K] [LinearOrder K] [IsStrictOrderedRing K] [FloorRing K] [HasPi K]

theorem run_append (w : World K) (s s' : List ℕ) : w.run (s ++ s') = (w.run s).run s' := by
  unfold World.run
  rw [List.foldl_append]

/-! ### Taking turns -/

/-- The calls that the threads have still to begin. -/
def remaining (w : World K) : Multiset (Op K) := (w.threads.map (fun t => (t.later : Multiset (Op K)))).sum

theorem step_other {w : World K} {i j : ℕ} (h : j ≠ i) : (w.step i).threads[j]? = w.threads[j]? := by
  unfold World.step
  split
  · rfl
  all_goals exact List.getElem?_set_ne (Ne.symm h)

theorem run_other {i j : ℕ} (h : j ≠ i) : ∀ (n : ℕ) (w : World K), (w.run (List.replicate n i)).threads[j]? = w.threads[j]?
  | 0, _ => rfl
  | n + 1, w => by rw [run_succ, run_other h n, step_other h]

theorem remaining_turn {w : World K} {i n : ℕ} {l l' : List (Op K)} (h : Resting w i (l ++ l'))
    (h' : Resting (w.run (List.replicate n i)) i l') : remaining (w.run (List.replicate n i)) + (l : Multiset (Op K)) = remaining w := by
  obtain ⟨e, he⟩ := h
  obtain ⟨e', he'⟩ := h'
  have hset : (w.run (List.replicate n i)).threads = w.threads.set i ⟨.stop e', l'⟩ := by
    refine List.ext_getElem? (fun j => ?_)
    by_cases hj : j = i
    · subst hj
      rw [he', get_set he]
    · rw [run_other hj, List.getElem?_set_ne (Ne.symm hj)]
  unfold remaining
  rw [hset]
  have := sum_set (fun t : Thread K => (t.later : Multiset (Op K))) w.threads i ⟨.stop e, l ++ l'⟩ ⟨.stop e', l'⟩ he
  simp only [← Multiset.coe_add] at this
  rw [← add_assoc] at this
  exact add_right_cancel this

theorem remaining_start (c : DataContainer K) (calls : List (List (Op K))) : remaining (start c calls) = (calls.flatten : Multiset (Op K)) := by
  unfold remaining start
  dsimp only
  rw [List.map_map]
  induction calls with
  | nil => rfl
  | cons l calls ih =>
    rw [List.map_cons, List.sum_cons, ih, List.flatten_cons, ← Multiset.coe_add]
    rfl

theorem valid_start {c : DataContainer K} (hc : Dict.WF c.data) (calls : List (List (Op K))) : Valid (start c calls).mem :=
  ⟨by simp [start], hc⟩

theorem inst_start (c : DataContainer K) (calls : List (List (Op K))) : (start c calls).mem.inst = c := rfl

theorem inTurns {w w' : World K} {done : List (Op K)} (hv : Valid w.mem) (h : InTurns w w' done) :
    w'.mem.inst = DataContainer.run w.mem.inst done ∧ Valid w'.mem ∧ remaining w' + (done : Multiset (Op K)) = remaining w := by
  induction h with
  | refl => exact ⟨rfl, hv, by simp⟩
  | turn i n l l' _ h1 h2 ih =>
    obtain ⟨a, b, c⟩ := ih
    obtain ⟨d, e⟩ := run_calls i n _ l l' b h1 h2
    refine ⟨?_, e, ?_⟩
    · rw [d, a]
      unfold DataContainer.run
      rw [List.foldl_append]
    · rw [← c, ← remaining_turn h1 h2, ← Multiset.coe_add]
      abel

theorem remaining_finished {w : World K} (h : Finished w) : remaining w = 0 := by
  unfold remaining
  refine List.sum_eq_zero (fun x hx => ?_)
  obtain ⟨t, ht, rfl⟩ := List.mem_map.1 hx
  rw [(h t ht).2]
  rfl

/-- A thread can make its next call while the others wait. -/
theorem exists_turn {w : World K} {i : ℕ} {op : Op K} {l : List (Op K)} (h : Resting w i (op :: l)) :
    ∃ n, Resting (w.run (List.replicate n i)) i l := by
  obtain ⟨e, he⟩ := h
  obtain ⟨N, h1, _⟩ := run_method i (prog op) ⟨w.mem, w.threads.set i ⟨prog op, l⟩⟩ l (get_set he)
  refine ⟨N + 1, ?_⟩
  rw [run_succ, step_of_call he, h1]
  exact ⟨_, get_set (w := ⟨w.mem, w.threads.set i ⟨prog op, l⟩⟩) (get_set he)⟩

theorem length_step (w : World K) (i : ℕ) : (w.step i).threads.length = w.threads.length := by
  unfold World.step
  split <;> simp

theorem length_run (s : List ℕ) (w : World K) : (w.run s).threads.length = w.threads.length := by
  induction s generalizing w with
  | nil => rfl
  | cons i s ih => exact (ih (w.step i)).trans (length_step w i)

/-! ### Up to the assignment of the new dictionary -/

theorem run_build (i : ℕ) (f : List (K × K) → List (K × K)) (r : ℕ) (next : Dict Key (List (K × K)) → Prog K) (lt : List (Op K)) :
    ∀ (l : List (Key × List (K × K))) (acc : Dict Key (List (K × K))) (w : World K),
      w.threads[i]? = some ⟨build f r next (l.map Prod.fst) acc, lt⟩ →
      (∀ it ∈ l, Dict.get (w.mem.heap.getD r []) it.1 = .ok it.2) → (acc.map Prod.fst ++ l.map Prod.fst).Nodup →
      w.run (List.replicate l.length i) = ⟨w.mem, w.threads.set i ⟨next (acc ++ l.map (fun it => (it.1, f it.2))), lt⟩⟩
  | [], acc, w, hw, _, _ => by
    simp only [List.map_nil, List.append_nil, build] at hw ⊢
    show w = _
    have : w.threads.set i ⟨next acc, lt⟩ = w.threads := by
      refine List.ext_getElem? (fun j => ?_)
      by_cases hj : j = i
      · subst hj; rw [hw, get_set hw]
      · rw [List.getElem?_set_ne (Ne.symm hj)]
    rw [this]
  | (k, v) :: l, acc, w, hw, h, hn => by
    have h0 := h (k, v) (List.mem_cons_self ..)
    dsimp only at h0
    have hk : k ∉ Dict.keys acc := by
      intro hk
      rw [List.nodup_append] at hn
      exact hn.2.2 k hk k (by simp) rfl
    rw [List.length_cons, run_succ, step_of_not_ended hw (by rintro ⟨e, h⟩; cases h)]
    simp only [List.map_cons, build, Prog.exec, h0]
    rw [run_build i f r next lt l (Dict.set acc k (f v)) ⟨w.mem, w.threads.set i ⟨build f r next (l.map Prod.fst) (Dict.set acc k (f v)), lt⟩⟩
      (get_set hw) (fun it hit => h it (List.mem_cons_of_mem _ hit)) ?_]
    · simp only [List.set_set]
      rw [Dict.set_of_notMem hk]
      simp
    · rw [Dict.set_of_notMem hk]
      simpa using hn

/-- A method that reads the dictionary and makes a new one of it, up to the point where it assigns it. -/
theorem run_until_assign (i : ℕ) (f : List (K × K) → List (K × K)) (next : Dict Key (List (K × K)) → Prog K) (w : World K) (hv : Valid w.mem)
    {op : Op K} (hop : prog op = .ref (fun r => .keys r (fun ks => build f r next ks []))) {e : Option Err} {l : List (Op K)}
    (hw : w.threads[i]? = some ⟨.stop e, op :: l⟩) :
    ∃ n, w.run (List.replicate n i) = ⟨w.mem, w.threads.set i ⟨next (w.mem.inst.data.mapVals f), l⟩⟩ := by
  refine ⟨(w.mem.heap.getD w.mem.cur []).length + 3, ?_⟩
  rw [run_succ, step_of_call hw, run_succ,
    step_of_not_ended (w := ⟨w.mem, w.threads.set i ⟨prog op, l⟩⟩) (get_set hw) (by rw [hop]; rintro ⟨e, h⟩; cases h), hop]
  simp only [Prog.exec, List.set_set]
  rw [run_succ, step_of_not_ended (w := ⟨w.mem, w.threads.set i ⟨.keys w.mem.cur (fun ks => build f w.mem.cur next ks []), l⟩⟩) (get_set hw)
    (by rintro ⟨e, h⟩; cases h)]
  simp only [Prog.exec, List.set_set, Dict.keys]
  rw [run_build i f w.mem.cur next l (w.mem.heap.getD w.mem.cur []) [] ⟨w.mem, w.threads.set i ⟨build f w.mem.cur next
      ((w.mem.heap.getD w.mem.cur []).map Prod.fst) [], l⟩⟩ (get_set hw) (fun it hit => get_of_mem' hv.wf hit)
    (by rw [List.map_nil, List.nil_append]; exact hv.wf)]
  simp only [List.set_set, List.nil_append]
  rfl

theorem prog_scale {s : K} (hs : 0 ≤ s) : prog (.scale s) = .ref (fun r => .keys r (fun ks => build (fun v => v.map (fun p => (p.1, s * p.2))) r
    (fun d => .assign d (.getScale (fun x => .setScale (x * s) (.stop none)))) ks [])) := by
  show scaleProg s = _
  unfold scaleProg
  rw [if_neg (not_lt.2 hs)]

theorem prog_shift (a : K) : prog (.phaseShift a sRadians) = .ref (fun r => .keys r (fun ks => build (fun v => v.map (fun p => (pmod (p.1 + a), p.2))) r
      (fun d => .assign d (.getPhase (fun x => .setPhase (x + a)
        (.ref (fun r => .keys r (fun ks => loop (fun v => .ok (sortPts v)) r (.stop none) ks)))))) ks [])) := rfl

/-- Both threads have read the dictionary before the first assigns its own. -/
theorem lost_update {c : DataContainer K} (hc : Dict.WF c.data) {s s' : K} (hs : 0 ≤ s) (hs' : 0 ≤ s') :
    ∃ sched, Finished ((start c [[.scale s], [.scale s']]).run sched) ∧
      ((start c [[.scale s], [.scale s']]).run sched).mem.inst =
        { c with data := c.data.mapVals (fun v => v.map (fun p => (p.1, s' * p.2))), scale := c.scale * s * s' } := by
  obtain ⟨n, h1⟩ := run_until_assign 0 _ _ (start c [[.scale s], [.scale s']]) (valid_start hc _) (prog_scale hs) (e := none) (l := []) rfl
  obtain ⟨n', h2⟩ := run_until_assign 1 _ _ ⟨(start c [[.scale s], [.scale s']]).mem, (start c [[.scale s], [.scale s']]).threads.set 0
      ⟨.assign ((start c [[.scale s], [.scale s']]).mem.inst.data.mapVals (fun v => v.map (fun p => (p.1, s * p.2))))
        (.getScale (fun x => .setScale (x * s) (.stop none))), []⟩⟩ (valid_start hc [[.scale s], [.scale s']]) (prog_scale hs')
    (e := none) (l := []) rfl
  refine ⟨List.replicate n 0 ++ (List.replicate n' 1 ++ [0, 0, 0, 1, 1, 1]), ?_⟩
  rw [run_append, h1, run_append, h2]
  constructor
  · intro t ht
    have : t ∈ ([⟨.stop none, []⟩, ⟨.stop none, []⟩] : List (Thread K)) := ht
    simp only [List.mem_cons, List.not_mem_nil, or_false, or_self] at this
    subst this
    exact ⟨⟨none, rfl⟩, rfl⟩
  · rfl

/-- The scaling reads the dictionary after the phase shift has assigned it and before it has sorted it, and assigns its own when the phase
shift is over. -/
theorem lost_order {c : DataContainer K} (hc : Dict.WF c.data) (a : K) {s : K} (hs : 0 ≤ s) :
    ∃ sched, Finished ((start c [[.phaseShift a sRadians], [.scale s]]).run sched) ∧
      ((start c [[.phaseShift a sRadians], [.scale s]]).run sched).mem.inst.data =
        (c.data.mapVals (fun v => v.map (fun p => (pmod (p.1 + a), p.2)))).mapVals (fun v => v.map (fun p => (p.1, s * p.2))) := by
  obtain ⟨n, h1⟩ := run_until_assign 0 _ _ (start c [[.phaseShift a sRadians], [.scale s]]) (valid_start hc _) (prog_shift a) (e := none) (l := []) rfl
  set d := c.data.mapVals (fun v => v.map (fun p : K × K => (pmod (p.1 + a), p.2))) with hd
  have hdw : Dict.WF d := by rw [hd]; exact WF_mapVals.2 hc
  set q : Prog K := .ref (fun r => .keys r (fun ks => loop (fun v => .ok (sortPts v)) r (.stop none) ks)) with hq
  have h3 : (start c [[.phaseShift a sRadians], [.scale s]]).run (List.replicate n 0 ++ [0, 0, 0]) =
      ⟨⟨[c.data, d], 1, c.scale, c.phaseShift + a, c.offset, c.coerced, c.units⟩, [⟨q, []⟩, ⟨.stop none, [.scale s]⟩]⟩ := by
    rw [run_append, h1]
    rfl
  obtain ⟨n', h2⟩ := run_until_assign 1 _ _ ⟨⟨[c.data, d], 1, c.scale, c.phaseShift + a, c.offset, c.coerced, c.units⟩,
    [⟨q, []⟩, ⟨.stop none, [.scale s]⟩]⟩ ⟨by simp, by exact hdw⟩ (prog_scale hs) (e := none) (l := []) rfl
  set t1 : Thread K := ⟨.assign (d.mapVals (fun v => v.map (fun p => (p.1, s * p.2)))) (.getScale (fun x => .setScale (x * s) (.stop none))), []⟩ with ht1
  have h4 : (start c [[.phaseShift a sRadians], [.scale s]]).run ((List.replicate n 0 ++ [0, 0, 0]) ++ List.replicate n' 1) =
      ⟨⟨[c.data, d], 1, c.scale, c.phaseShift + a, c.offset, c.coerced, c.units⟩, [⟨q, []⟩, t1]⟩ := by
    rw [run_append, h3, h2]
    rfl
  obtain ⟨N, h5, _⟩ := run_method 0 q ⟨⟨[c.data, d], 1, c.scale, c.phaseShift + a, c.offset, c.coerced, c.units⟩, [⟨q, []⟩, t1]⟩ [] rfl
  refine ⟨((List.replicate n 0 ++ [0, 0, 0]) ++ List.replicate n' 1) ++ (List.replicate N 0 ++ [1, 1, 1]), ?_⟩
  rw [run_append, h4, run_append, h5]
  generalize (Prog.finish q _) = z
  constructor
  · intro t ht
    have : t ∈ ([⟨.stop z.1, []⟩, ⟨.stop none, []⟩] : List (Thread K)) := ht
    simp only [List.mem_cons, List.not_mem_nil, or_false] at this
    rcases this with rfl | rfl
    · exact ⟨⟨_, rfl⟩, rfl⟩
    · exact ⟨⟨_, rfl⟩, rfl⟩
  · show (z.2.heap ++ [_]).getD z.2.heap.length [] = _
    rw [List.getD_eq_getElem?_getD, List.getElem?_concat_length]
    rfl

end Shgpy.Threads
