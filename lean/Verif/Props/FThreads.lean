import Verif.Proofs.FThreads2
import Verif.Proofs.Convert
import Verif.Props.FData

/-!
# Threads that use one container of Fourier data at the same time: C143

`start c calls` are threads that are going to make calls on the container `c`, the thread with number `i` the calls `calls[i]`.  A schedule
is the list of the threads that make the single accesses; `w.mem.inst` is the container as another thread sees it at that moment.
-/

namespace Shgpy
open Spec FThreads

/-- **C143, threads that take turns.**  When each call is made under a lock, the container is at every moment without a call in progress the
one that the calls made so far give one after the other; when all threads are finished, these are all the calls. -/
theorem C143_in_turns {c : FDataContainer} (hc : c.Reachable) {calls : List (List FDataContainer.Op)} {w : World}
    {done : List FDataContainer.Op} (h : FInTurns (start c calls) w done) :
    w.mem.inst = FDataContainer.run c done ∧ (FFinished w → done.Perm calls.flatten) := by
  obtain ⟨h1, _, h3⟩ := inTurns (valid_start hc.good calls) h
  refine ⟨h1, fun hf => ?_⟩
  rw [remaining_finished hf, remaining_start, zero_add] at h3
  exact Multiset.coe_eq_coe.1 h3

/-- **C143, any calls and any schedule.**  At every moment the combinations, `M` and the lengths of the arrays are what they were.  The
components of each combination are the original ones times the factors and turned by the angles of some of the calls, each call at most once;
the factor of a normalization is some number that is not negative.  The recorded scale is the original one times the factors of some of the
calls, the recorded phase shift the original one plus the angles of some of the calls.  What is missing of the property that the calls have
the effect they have one after the other: these may be different calls for the different combinations, for the scale and for the phase shift,
and need not be all calls when all threads are finished (`C143_lost_update_broken`, `C143_torn_broken`). -/
theorem C143_values_partial {c : FDataContainer} (hc : c.Reachable) (calls : List (List FDataContainer.Op)) (sched : List ℕ) :
    ((start c calls).run sched).mem.inst.getKeys = c.getKeys ∧ ((start c calls).run sched).mem.inst.getM = c.getM ∧
    (∀ k v, c.getPc k = .ok v → ∃ v', ((start c calls).run sched).mem.inst.getPc k = .ok v' ∧ v'.length = v.length ∧
      ∃ A fs, A.Subperm calls.flatten ∧ List.Forall₂ FFactor A fs ∧
        ∀ m z, Component v c.getM m z → Component v' c.getM m (z * ((fs.prod : ℝ) * Complex.exp (Complex.I * (m * fTurns A))))) ∧
    (∃ A fs, A.Subperm calls.flatten ∧ List.Forall₂ FFactor A fs ∧ ((start c calls).run sched).mem.inst.getScale = c.getScale * fs.prod) ∧
    (∃ A, A.Subperm calls.flatten ∧ ∀ p, c.getPhaseShift sRadians = .ok (.num p) →
      ((start c calls).run sched).mem.inst.getPhaseShift sRadians = .ok (.num (p + fTurns A))) := by
  have hg := hc.good
  have hinv : Inv (valueLabels c) c.getKeys c.M (calls.flatten : Multiset FDataContainer.Op) ((start c calls).run sched) := by
    refine Inv.run (fun op g => prog_safe hg.wf op g) sched (inv_start calls (fun it hit => ⟨it.2, hit, [], [], by simp, .nil, ?_⟩) ?_ ?_)
    · simp only [fTurns, List.map_nil, List.sum_nil, List.prod_nil, harmonic_zero, Complex.ofReal_one, mul_one]
      exact (mulComp_one (hg.len it hit)).symm
    · exact ⟨[], [], by simp, .nil, by simp⟩
    · exact ⟨[], by simp, fun p hp => by rw [hp]; simp [fTurns]⟩
  obtain ⟨g, hm, ts, _, _, hsum⟩ := hinv.ex
  have hM := hinv.M
  generalize ((start c calls).run sched).mem = m at hm hM ⊢
  have hle : ∀ t, g.wrote t ≤ (calls.flatten : Multiset FDataContainer.Op) := fun t => le_trans (Multiset.le_add_right _ _) (hsum t)
  have hmem := mem_getD hm.cur
  have hkeys : Dict.keys (m.heap.getD m.cur []) = c.getKeys := hm.keys _ hmem
  refine ⟨hkeys, hM, fun k v hk => ?_, ?_, ?_⟩
  · have hk' := Dict.get_ok_iff.1 hk
    have hkm : k ∈ Dict.keys (m.heap.getD m.cur []) := by
      rw [hkeys]
      exact List.mem_map_of_mem (Dict.mem_of_get? hk')
    obtain ⟨it, hit, rfl⟩ := List.mem_map.1 hkm
    obtain ⟨v0, h1, A, fs, h2, h3, h4⟩ := hm.data _ hmem it hit
    have hwf' : Dict.WF (m.heap.getD m.cur []) := by
      unfold Dict.WF
      rw [hkeys]
      exact hg.wf
    have e0 : v0 = v := Option.some.inj (((Dict.get?_eq_some_iff hg.wf).2 h1).symm.trans hk')
    subst e0
    refine ⟨it.2, Dict.get_ok_iff.2 ((Dict.get?_eq_some_iff hwf').2 hit), ?_, A, fs, Multiset.coe_le.1 (h2.trans (hle _)), h3, ?_⟩
    · rw [h4, length_mulComp]
      exact (hg.len _ h1).symm
    · rintro i z ⟨⟨hi1, hi2⟩, hz⟩
      refine ⟨⟨hi1, hi2⟩, ?_⟩
      unfold FDataContainer.getM at hi1 hi2 hz ⊢
      rw [h4, getElem?_mulComp (by omega), List.getD_eq_getElem?_getD, hz]
      have hmm : (((i + c.M).toNat : ℕ) : ℤ) - c.M = i := by omega
      rw [hmm]
      rfl
  · obtain ⟨A, fs, h2, h3, h4⟩ := hm.scale
    exact ⟨A, fs, Multiset.coe_le.1 (h2.trans (hle _)), h3, h4⟩
  · obtain ⟨A, h2, h3⟩ := hm.phase
    refine ⟨A, Multiset.coe_le.1 (h2.trans (hle _)), fun p hp => ?_⟩
    have e1 : ∀ c' : FDataContainer, c'.getPhaseShift sRadians = .ok c'.phaseShift := fun c' => rfl
    rw [e1] at hp ⊢
    exact congrArg Except.ok (h3 p (Except.ok.inj hp))

/-! ### Schedules that go wrong -/

theorem FThreads.prog_scale {s : ℝ} (hs : 0 ≤ s) (M : ℕ) : prog M (.scale s) = .ref (fun r => .items r (fun d =>
    .assign (d.mapVals (fun v => v.map (fun z => (s : ℂ) * z))) (.getScale (fun x => .setScale (x * s) (.stop none))))) := by
  show scaleProg s = _
  unfold scaleProg
  rw [if_neg (not_lt.2 hs)]

/-- **C143 is false: a lost update.**  Two threads scale the data by `s` and by `s'`.  There is a schedule after which both are finished and
the recorded scale is that of both calls, but the data are scaled by `s'` only.  When `s` is not 1, `s'` is not 0 and some component is not 0,
they are not the data after both calls in either order. -/
theorem C143_lost_update_broken (c : FDataContainer) {s s' : ℝ} (hs : 0 ≤ s) (hs' : 0 ≤ s') :
    ∃ sched, FFinished ((start c [[.scale s], [.scale s']]).run sched) ∧
      ((start c [[.scale s], [.scale s']]).run sched).mem.inst.getScale = c.getScale * s * s' ∧
      ((start c [[.scale s], [.scale s']]).run sched).mem.inst.getItems = (FDataContainer.step c (.scale s')).1.getItems ∧
      (s ≠ 1 → s' ≠ 0 → (∃ k v, c.getPc k = .ok v ∧ ∃ z ∈ v, z ≠ 0) →
        ((start c [[.scale s], [.scale s']]).run sched).mem.inst.getItems ≠ (FDataContainer.run c [.scale s, .scale s']).getItems ∧
        ((start c [[.scale s], [.scale s']]).run sched).mem.inst.getItems ≠ (FDataContainer.run c [.scale s', .scale s]).getItems) := by
  have hst : ∀ (c : FDataContainer) {s : ℝ}, 0 ≤ s → (FDataContainer.step c (.scale s)).1 =
      { c with fdata := c.fdata.mapVals (fun v => v.map (fun z => (s : ℂ) * z)), scale := c.scale * s } := by
    intro c s hs
    rw [FDataContainer.step_scale, if_neg (not_lt.2 hs)]
  have h1 : (start c [[.scale s], [.scale s']]).run [0, 1] = ⟨(start c []).mem, [⟨prog c.M (.scale s), []⟩, ⟨prog c.M (.scale s'), []⟩]⟩ := rfl
  rw [prog_scale hs, prog_scale hs'] at h1
  refine ⟨[0, 1] ++ ([0, 0, 1, 1, 0, 0] ++ ([0, 1, 1] ++ [1])), ?_⟩
  set f : List ℂ → List ℂ := fun v => v.map (fun z => (s : ℂ) * z) with hf
  set f' : List ℂ → List ℂ := fun v => v.map (fun z => (s' : ℂ) * z) with hf'
  have h2 : ∀ (q q' : ℝ → Prog), World.run ⟨(start c []).mem, [⟨.ref (fun r => .items r (fun d => .assign (d.mapVals f) (.getScale q))), []⟩,
      ⟨.ref (fun r => .items r (fun d => .assign (d.mapVals f') (.getScale q'))), []⟩]⟩ [0, 0, 1, 1, 0, 0] =
      ⟨⟨[c.fdata, c.fdata.mapVals f], 1, c.M, c.scale, c.phaseShift⟩, [⟨q c.scale, []⟩, ⟨.assign (c.fdata.mapVals f') (.getScale q'), []⟩]⟩ :=
    fun q q' => rfl
  have h3 : ∀ (x : ℝ) (q' : ℝ → Prog), World.run ⟨⟨[c.fdata, c.fdata.mapVals f], 1, c.M, c.scale, c.phaseShift⟩,
      [⟨.setScale x (.stop none), []⟩, ⟨.assign (c.fdata.mapVals f') (.getScale q'), []⟩]⟩ [0, 1, 1] =
      ⟨⟨[c.fdata, c.fdata.mapVals f, c.fdata.mapVals f'], 2, c.M, x, c.phaseShift⟩, [⟨.stop none, []⟩, ⟨q' x, []⟩]⟩ := fun x q' => rfl
  have h4 : ∀ (m : Shared) (x : ℝ), World.run ⟨m, [⟨.stop none, []⟩, ⟨.setScale x (.stop none), []⟩]⟩ [1] =
      ⟨{ m with scale := x }, [⟨.stop none, []⟩, ⟨.stop none, []⟩]⟩ := fun m x => rfl
  rw [run_append, h1, run_append, h2, run_append, h3, h4]
  refine ⟨fun t ht => ?_, rfl, by rw [hst c hs']; rfl, fun hs1 hs0 ⟨k, v, hk, z, hz, hz0⟩ => ?_⟩
  · simp only [List.mem_cons, List.not_mem_nil, or_false, or_self] at ht
    subst ht
    exact ⟨⟨none, rfl⟩, rfl⟩
  · have key : ∀ t : ℂ, t ≠ s' → c.fdata.mapVals f' ≠ c.fdata.mapVals (fun v => v.map (fun z => t * z)) := by
      intro t ht he
      have := congrArg (fun d => Dict.get? d k) he
      simp only [Dict.get?_mapVals, Dict.get_ok_iff.1 hk, Option.map_some, Option.some.injEq] at this
      exact ht (mul_right_cancel₀ hz0 (List.map_inj_left.1 this z hz)).symm
    have hne : (s : ℂ) * s' ≠ s' := by
      intro e
      have e' : s * s' = s' := by exact_mod_cast e
      exact hs1 (mul_right_cancel₀ hs0 (e'.trans (one_mul _).symm))
    have e2 : ∀ {a b : ℝ}, 0 ≤ a → 0 ≤ b → (FDataContainer.run c [.scale a, .scale b]).getItems =
        c.fdata.mapVals (fun v => v.map (fun z => ((b : ℂ) * a) * z)) := by
      intro a b ha hb
      show (FDataContainer.step (FDataContainer.step c (.scale a)).1 (.scale b)).1.fdata = _
      rw [hst _ hb, hst _ ha]
      show Dict.mapVals _ (Dict.mapVals _ _) = _
      rw [Dict.mapVals_mapVals]
      refine Dict.mapVals_congr (fun q _ => ?_)
      rw [List.map_map]
      refine List.map_congr_left (fun x _ => ?_)
      simp [mul_assoc]
    rw [e2 hs hs', e2 hs' hs]
    exact ⟨key _ (by rw [mul_comm]; exact hne), key _ hne⟩

/-- One combination of a phase shift: four accesses. -/
theorem FThreads.run_turn {w : World} {i : ℕ} {a : ℝ} {next : Prog} {k : Key} {ks : List Key} {l : List FDataContainer.Op} {v : List ℂ}
    (hw : w.threads[i]? = some ⟨turnLoop w.mem.M a next (k :: ks), l⟩) (hget : Dict.get (w.mem.heap.getD w.mem.cur []) k = .ok v)
    (hlen : v.length = 2 * w.mem.M + 1) :
    w.run (List.replicate 4 i) = ⟨w.mem.put (Dict.set (w.mem.heap.getD w.mem.cur []) k (mulComp w.mem.M (fun j => harmonic j a) v)),
      w.threads.set i ⟨turnLoop w.mem.M a next ks, l⟩⟩ := by
  have go : ∀ (m : Shared) (p q : Prog) (m' : Shared), ¬ p.Ended → p.exec m = (q, m') →
      World.step ⟨m, w.threads.set i ⟨p, l⟩⟩ i = ⟨m', w.threads.set i ⟨q, l⟩⟩ := by
    intro m p q m' hp he
    rw [step_of_not_ended (w := ⟨m, w.threads.set i ⟨p, l⟩⟩) (get_set hw) hp, he, List.set_set]
  have h0 : w = ⟨w.mem, w.threads.set i ⟨turnLoop w.mem.M a next (k :: ks), l⟩⟩ := by
    have : w.threads.set i ⟨turnLoop w.mem.M a next (k :: ks), l⟩ = w.threads := by
      refine List.ext_getElem? (fun j => ?_)
      by_cases hj : j = i
      · subst hj; rw [hw, get_set hw]
      · rw [List.getElem?_set_ne (Ne.symm hj)]
    rw [this]
  have no : ∀ {p : Prog}, (∀ e, p ≠ .stop e) → ¬ p.Ended := fun h ⟨e, he⟩ => h e he
  conv_lhs => rw [h0]
  rw [run_succ, go w.mem _ _ w.mem (no (fun e h => by cases h)) rfl, run_succ, go w.mem _
      (.ref (fun r' => .store r' k (mulComp w.mem.M (fun j => harmonic j a) v) (turnLoop w.mem.M a next ks))) w.mem (no (fun e h => by cases h))
      (by simp only [Prog.exec]; rw [hget]; dsimp only; rw [shiftArr_ok hlen]), run_succ,
    go w.mem _ _ w.mem (no (fun e h => by cases h)) rfl, run_succ, go w.mem _ _ _ (no (fun e h => by cases h)) rfl]
  rfl

/-- **C143 is false: combinations turned by different angles.**  One thread turns data with two combinations, another scales them.  There is a
schedule after which both are finished, the angle and the factor are recorded, and both combinations are scaled, but only the first is
turned. -/
theorem C143_torn_broken {c : FDataContainer} (hc : c.Reachable) {k k' : Key} (hk : c.getKeys = [k, k']) {v v' : List ℂ}
    (hv : c.getPc k = .ok v) (hv' : c.getPc k' = .ok v') (a : ℝ) {s : ℝ} (hs : 0 ≤ s) :
    ∃ sched u u', FFinished ((start c [[.phaseShift a sRadians], [.scale s]]).run sched) ∧
      (∀ p, c.getPhaseShift sRadians = .ok (.num p) →
        ((start c [[.phaseShift a sRadians], [.scale s]]).run sched).mem.inst.getPhaseShift sRadians = .ok (.num (p + a))) ∧
      ((start c [[.phaseShift a sRadians], [.scale s]]).run sched).mem.inst.getScale = c.getScale * s ∧
      ((start c [[.phaseShift a sRadians], [.scale s]]).run sched).mem.inst.getItems = [(k, u), (k', u')] ∧
      (∀ m z, Component v c.getM m z → Component u c.getM m (z * (s * Complex.exp (Complex.I * (m * a))))) ∧
      (∀ m z, Component v' c.getM m z → Component u' c.getM m (z * s)) := by
  have hg := hc.good
  obtain ⟨p, hp⟩ := hg.num
  obtain ⟨d, M, sc, ph⟩ := c
  dsimp only at hp
  subst hp
  have hd : d = [(k, v), (k', v')] := by
    have hkd : Dict.keys d = [k, k'] := hk
    have hwf : Dict.WF d := hg.wf
    have m1 : (k, v) ∈ d := Dict.mem_of_get? (Dict.get_ok_iff.1 hv)
    have m2 : (k', v') ∈ d := Dict.mem_of_get? (Dict.get_ok_iff.1 hv')
    match d, hkd with
    | [(x, y), (x', y')], hkd =>
      simp only [Dict.keys, List.map_cons, List.map_nil, List.cons.injEq, and_true] at hkd
      obtain ⟨rfl, rfl⟩ := hkd
      have h1 := Dict.get_ok_iff.1 hv
      have h2 := Dict.get_ok_iff.1 hv'
      have e1 := (Dict.get?_eq_some_iff hwf).2 (show (x, y) ∈ [(x, y), (x', y')] by simp)
      have e2 := (Dict.get?_eq_some_iff hwf).2 (show (x', y') ∈ [(x, y), (x', y')] by simp)
      rw [Option.some.inj (h1.symm.trans e1), Option.some.inj (h2.symm.trans e2)]
  subst hd
  have hne : k ≠ k' := by
    have := hg.wf
    simp only [Dict.WF, Dict.keys, List.map_cons, List.map_nil, List.nodup_cons, List.mem_singleton] at this
    exact this.1
  have hl : v.length = 2 * M + 1 := hg.len (k, v) (by simp)
  have hl' : v'.length = 2 * M + 1 := hg.len (k', v') (by simp)
  set w := mulComp M (fun j => harmonic j a) v with hw
  set w' := mulComp M (fun j => harmonic j a) v' with hw'
  have e1 : (start ⟨[(k, v), (k', v')], M, sc, .num p⟩ [[.phaseShift a sRadians], [.scale s]]).run [0, 0, 0] =
      ⟨⟨[[(k, v), (k', v')]], 0, M, sc, .num p⟩, [⟨turnLoop M a (phaseProg a) [k, k'], []⟩, ⟨.stop none, [.scale s]⟩]⟩ := rfl
  have e2 := run_turn (w := ⟨⟨[[(k, v), (k', v')]], 0, M, sc, .num p⟩, [⟨turnLoop M a (phaseProg a) [k, k'], []⟩, ⟨.stop none, [.scale s]⟩]⟩)
    (i := 0) (v := v) rfl (by simp [Dict.get, Dict.get?]) hl
  have s1 : Dict.set [(k, v), (k', v')] k w = [(k, w), (k', v')] := by simp [Dict.set]
  have s2 : Dict.set [(k, w), (k', v')] k' w' = [(k, w), (k', w')] := by simp [Dict.set, hne]
  have e2' : World.run ⟨⟨[[(k, v), (k', v')]], 0, M, sc, .num p⟩, [⟨turnLoop M a (phaseProg a) [k, k'], []⟩, ⟨.stop none, [.scale s]⟩]⟩
      (List.replicate 4 0) = ⟨⟨[[(k, w), (k', v')]], 0, M, sc, .num p⟩, [⟨turnLoop M a (phaseProg a) [k'], []⟩, ⟨.stop none, [.scale s]⟩]⟩ := by
    rw [e2, ← s1]
    rfl
  have e3 : World.run ⟨⟨[[(k, w), (k', v')]], 0, M, sc, .num p⟩, [⟨turnLoop M a (phaseProg a) [k'], []⟩, ⟨.stop none, [.scale s]⟩]⟩ [1, 1, 1] =
      ⟨⟨[[(k, w), (k', v')]], 0, M, sc, .num p⟩, [⟨turnLoop M a (phaseProg a) [k'], []⟩,
        ⟨.assign (Dict.mapVals (fun v => v.map (fun z => (s : ℂ) * z)) [(k, w), (k', v')]) (.getScale (fun x => .setScale (x * s) (.stop none))), []⟩]⟩ := by
    have h1 : World.run ⟨⟨[[(k, w), (k', v')]], 0, M, sc, .num p⟩, [⟨turnLoop M a (phaseProg a) [k'], []⟩, ⟨.stop none, [.scale s]⟩]⟩ [1] =
      ⟨⟨[[(k, w), (k', v')]], 0, M, sc, .num p⟩, [⟨turnLoop M a (phaseProg a) [k'], []⟩, ⟨prog M (.scale s), []⟩]⟩ := rfl
    rw [prog_scale hs] at h1
    rw [show [1, 1, 1] = [1] ++ [1, 1] from rfl, run_append, h1]
    rfl
  set q : Prog := .assign (Dict.mapVals (fun v => v.map (fun z => (s : ℂ) * z)) [(k, w), (k', v')])
    (.getScale (fun x => .setScale (x * s) (.stop none))) with hq
  have e4 := run_turn (w := ⟨⟨[[(k, w), (k', v')]], 0, M, sc, .num p⟩, [⟨turnLoop M a (phaseProg a) [k'], []⟩, ⟨q, []⟩]⟩)
    (i := 0) (v := v') rfl (by simp [Dict.get, Dict.get?, hne]) hl'
  have e4' : World.run ⟨⟨[[(k, w), (k', v')]], 0, M, sc, .num p⟩, [⟨turnLoop M a (phaseProg a) [k'], []⟩, ⟨q, []⟩]⟩
      (List.replicate 4 0) = ⟨⟨[[(k, w), (k', w')]], 0, M, sc, .num p⟩, [⟨phaseProg a, []⟩, ⟨q, []⟩]⟩ := by
    rw [e4, ← s2]
    rfl
  have e5 : World.run ⟨⟨[[(k, w), (k', w')]], 0, M, sc, .num p⟩, [⟨phaseProg a, []⟩, ⟨q, []⟩]⟩ [0, 0, 1, 1, 1] =
      ⟨⟨[[(k, w), (k', w')], [(k, w.map (fun z => (s : ℂ) * z)), (k', v'.map (fun z => (s : ℂ) * z))]], 1, M, sc * s, .num (p + a)⟩,
        [⟨.stop none, []⟩, ⟨.stop none, []⟩]⟩ := rfl
  refine ⟨[0, 0, 0] ++ (List.replicate 4 0 ++ ([1, 1, 1] ++ (List.replicate 4 0 ++ [0, 0, 1, 1, 1]))),
    w.map (fun z => (s : ℂ) * z), v'.map (fun z => (s : ℂ) * z), ?_⟩
  rw [run_append, e1, run_append, e2', run_append, e3, run_append, e4', e5]
  refine ⟨fun t ht => ?_, fun q hq => ?_, rfl, rfl, ?_, ?_⟩
  · simp only [List.mem_cons, List.not_mem_nil, or_false, or_self] at ht
    subst ht
    exact ⟨⟨none, rfl⟩, rfl⟩
  · have : q = p := by
      have e : (Except.ok (Phase.num p) : Except Err Phase) = .ok (.num q) := hq
      cases e
      rfl
    rw [this]
    rfl
  · rintro m z ⟨⟨h1, h2⟩, hz⟩
    simp only [FDataContainer.getM] at h1 h2 hz ⊢
    refine ⟨⟨h1, h2⟩, ?_⟩
    rw [List.getElem?_map, hw, getElem?_mulComp (by omega), List.getD_eq_getElem?_getD, hz]
    have hmm : (((m + M).toNat : ℕ) : ℤ) - M = m := by omega
    rw [hmm]
    simp only [Option.getD_some, Option.map_some, harmonic]
    congr 1
    ring
  · rintro m z ⟨⟨h1, h2⟩, hz⟩
    simp only [FDataContainer.getM] at h1 h2 hz ⊢
    refine ⟨⟨h1, h2⟩, ?_⟩
    rw [List.getElem?_map, hz, Option.map_some, mul_comm]

/-! ### Concrete cases -/

theorem FThreads.exists_two : FDataContainer.Reachable ⟨[(kPP, [1, 2, 3]), (kSS, [4, 5, 6])], 1, 1, .num 0⟩ :=
  ⟨_, 1, _, [], FDataContainer.init_items (d := [(kPP, [1, 2, 3]), (kSS, [4, 5, 6])]) (M := 1) .complex128 (.inr rfl) (by simp [Dict.WF]; decide)
    (by intro it hit; simp only [List.mem_cons, List.not_mem_nil, or_false] at hit; rcases hit with rfl | rfl <;> rfl), rfl⟩

/-- A container for these theorems, with two combinations, and two threads that take turns on it. -/
example : ∃ c : FDataContainer, c.Reachable ∧ c.getKeys = [kPP, kSS] ∧ c.getPc kPP = .ok [1, 2, 3] ∧ c.getPc kSS = .ok [4, 5, 6] ∧
    ∃ w, FInTurns (start c [[.scale 2, .normalize (-1)], [.phaseShift 3 sDegrees]]) w [.phaseShift 3 sDegrees, .scale 2, .normalize (-1)] ∧
      FFinished w := by
  refine ⟨_, exists_two, rfl, rfl, rfl, ?_⟩
  generalize (⟨[(kPP, [1, 2, 3]), (kSS, [4, 5, 6])], 1, 1, .num 0⟩ : FDataContainer) = c
  set w0 := start c [[.scale 2, .normalize (-1)], [.phaseShift 3 sDegrees]] with hw0
  have r1 : FResting w0 1 [.phaseShift 3 sDegrees] := ⟨none, rfl⟩
  obtain ⟨n1, f1⟩ := exists_turn r1
  have r0 : FResting (w0.run (List.replicate n1 1)) 0 [.scale 2, .normalize (-1)] := ⟨none, by rw [run_other (by decide)]; rfl⟩
  obtain ⟨n2, f2⟩ := exists_turn r0
  obtain ⟨n3, f3⟩ := exists_turn f2
  have g1 := FInTurns.turn 1 n1 [_] [] (FInTurns.refl w0) r1 f1
  have g2 := FInTurns.turn 0 n2 [_] _ g1 r0 f2
  have g3 := FInTurns.turn 0 n3 [_] _ g2 f2 f3
  refine ⟨_, g3, fun t ht => ?_⟩
  obtain ⟨j, hj, rfl⟩ := List.getElem_of_mem ht
  have hj2 : j < 2 := by
    rw [length_run, length_run, length_run] at hj
    exact hj
  have key : ∀ {j : ℕ} {w : World} (hj : j < w.threads.length), FResting w j [] → (∃ e, w.threads[j].now = .stop e) ∧ w.threads[j].later = [] := by
    rintro j w hj ⟨e, he⟩
    rw [List.getElem?_eq_getElem hj] at he
    rw [Option.some.inj he]
    exact ⟨⟨e, rfl⟩, rfl⟩
  refine key hj ?_
  have : j = 0 ∨ j = 1 := by omega
  rcases this with rfl | rfl
  · exact f3
  · obtain ⟨e, he⟩ := f1
    exact ⟨e, by rw [run_other (by decide), run_other (by decide)]; exact he⟩

end Shgpy
