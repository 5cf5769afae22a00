import Verif.Proofs.Threads3

/-!
# Threads that use one container at the same time: C136

`start c calls` are threads that are going to make calls on the container `c`, the thread with number `i` the calls `calls[i]`.  A schedule
is the list of the threads that make the single accesses; `w.mem.inst` is the container as another thread sees it at that moment.
-/

set_option linter.unusedSectionVars false

namespace Shgpy
open Spec Threads

section
variable {K : Type} [Field K] [LinearOrder K] [IsStrictOrderedRing K] [FloorRing K] [HasPi K]

/-- **C136, threads that take turns.**  When each call is made under a lock, the container is at every moment without a call in progress the
one that the calls made so far give one after the other; when all threads are finished, these are all the calls. -/
theorem C136_in_turns {c : DataContainer K} (hc : c.Reachable) {calls : List (List (DataContainer.Op K))} {w : World K}
    {done : List (DataContainer.Op K)} (h : InTurns (start c calls) w done) :
    w.mem.inst = DataContainer.run c done ∧ (Finished w → done.Perm calls.flatten) := by
  obtain ⟨h1, _, h3⟩ := inTurns (valid_start (reachable_normalForm hc).1 calls) h
  refine ⟨h1, fun hf => ?_⟩
  rw [remaining_finished hf, remaining_start, zero_add] at h3
  exact Multiset.coe_eq_coe.1 h3

/-- **C136, any calls and any schedule.**  At every moment the combinations and their numbers of points are what they were, and the angles
are within one turn.  The next undisturbed call of `phase_shift_data` brings the data into normal form. -/
theorem C136_shape {c : DataContainer K} (hc : c.Reachable) (calls : List (List (DataContainer.Op K))) (sched : List ℕ) :
    ((start c calls).run sched).mem.inst.getKeys = c.getKeys ∧
    ∀ k pts, c.getPc k sRadians = .ok pts →
      (∃ pts', ((start c calls).run sched).mem.inst.getPc k sRadians = .ok pts' ∧ pts'.length = pts.length ∧ Unordered pts') ∧
      ∀ a u, lower u = sRadians ∨ lower u = sDegrees →
        ∃ pts', (DataContainer.step ((start c calls).run sched).mem.inst (.phaseShift a u)).1.getPc k sRadians = .ok pts' ∧
          pts'.length = pts.length ∧ NormalForm pts' := by
  obtain ⟨hwf, hn⟩ := reachable_normalForm hc
  have hinv : Inv (shapeLabels c.data) c.getKeys (calls.flatten : Multiset (DataContainer.Op K)) (fun _ => True) ((start c calls).run sched) :=
    Inv.run (fun op _ g => shape_safe hwf op _ g) sched
      (inv_start calls (fun _ _ _ _ => trivial) (fun it hit => ⟨it.2, hit, rfl, (hn it hit).2.1⟩) trivial trivial trivial)
  obtain ⟨g, hm, _⟩ := hinv.ex
  generalize ((start c calls).run sched).mem = m at hm ⊢
  have hmem := mem_getD hm.cur
  have hkeys : Dict.keys (m.heap.getD m.cur []) = c.getKeys := hm.keys _ hmem
  refine ⟨hkeys, fun k pts hk => ?_⟩
  rw [getPc_radians, Dict.get_ok_iff] at hk
  have hkm : k ∈ Dict.keys (m.heap.getD m.cur []) := by
    rw [hkeys]
    exact List.mem_map_of_mem (Dict.mem_of_get? hk)
  obtain ⟨it, hit, rfl⟩ := List.mem_map.1 hkm
  obtain ⟨v0, h1, h2, h3⟩ := hm.data _ hmem it hit
  have hwf' : Dict.WF (m.heap.getD m.cur []) := by
    unfold Dict.WF
    rw [hkeys]
    exact hwf
  have e0 : v0 = pts := Option.some.inj (((Dict.get?_eq_some_iff hwf).2 h1).symm.trans hk)
  subst e0
  have hget : Dict.get? m.inst.data it.1 = some it.2 := (Dict.get?_eq_some_iff hwf').2 hit
  have hu : Unordered it.2 := by
    refine ⟨fun e => ?_, h3⟩
    have := (hn _ h1).1
    rw [e] at h2
    exact this (List.length_eq_zero_iff.1 h2.symm)
  refine ⟨⟨it.2, by rw [getPc_radians, Dict.get_ok_iff]; exact hget, h2, hu⟩, fun a u hunit => ?_⟩
  cases ha : DataContainer.angleOf a u with
  | error e => exact absurd hunit (angleOf_error.1 ⟨e, ha⟩)
  | ok r =>
    rw [step_of_angle ha]
    refine ⟨shiftPts r it.2, ?_, by simp [shiftPts, h2], shiftPts_normalForm hu.1⟩
    rw [getPc_radians, Dict.get_ok_iff]
    show Dict.get? (Dict.mapVals _ _) _ = _
    rw [Dict.get?_mapVals, hget]
    rfl

/-- **C136, scalings and phase shifts in any schedule.**  At every moment each combination has the points that some of the calls give, each
call at most once, in some order; the recorded scale and phase shift are those of some of the calls; the offset is unchanged.  What is
missing of the property that the calls have the effect they have one after the other: these may be different calls for the different
combinations, for the scale and for the phase shift, and need not be all calls when all threads are finished
(`C136_lost_update_broken`). -/
theorem C136_values_partial {c : DataContainer K} (hc : c.Reachable) {calls : List (List (DataContainer.Op K))}
    (hcalls : ∀ l ∈ calls, ∀ op ∈ l, ScaleOrTurn op) (sched : List ℕ) :
    (∀ k pts, c.getPc k sRadians = .ok pts → ∃ pts', ((start c calls).run sched).mem.inst.getPc k sRadians = .ok pts' ∧
      ∃ A, A.Subperm calls.flatten ∧ Matched (Moved (turns A) (factors A)) pts pts') ∧
    (∃ A, A.Subperm calls.flatten ∧ ((start c calls).run sched).mem.inst.getScale = c.getScale * factors A) ∧
    (∃ A, A.Subperm calls.flatten ∧ ∀ a, c.getPhaseShift sRadians = .ok a →
      ((start c calls).run sched).mem.inst.getPhaseShift sRadians = .ok (a + turns A)) ∧
    ((start c calls).run sched).mem.inst.getOffset = c.getOffset := by
  obtain ⟨hwf, hn⟩ := reachable_normalForm hc
  have hinv : Inv (valueLabels c) c.getKeys (calls.flatten : Multiset (DataContainer.Op K)) ScaleOrTurn ((start c calls).run sched) := by
    refine Inv.run (fun op hop g => value_safe hwf hop g) sched (inv_start calls hcalls (fun it hit => ⟨it.2, hit, [], ?_, ?_⟩) ?_ ?_ rfl)
    · simp
    · refine Matched.refl (fun p => ?_) _
      have := moved_refl p
      simpa [turns, factors] using this
    · exact ⟨[], by simp, by simp [factors]⟩
    · exact ⟨[], by simp, by simp [turns]⟩
  obtain ⟨g, hm, ts, _, _, hsum⟩ := hinv.ex
  generalize ((start c calls).run sched).mem = m at hm ⊢
  have hle : ∀ t, g.wrote t ≤ (calls.flatten : Multiset (DataContainer.Op K)) := fun t => le_trans (Multiset.le_add_right _ _) (hsum t)
  have hmem := mem_getD hm.cur
  have hkeys : Dict.keys (m.heap.getD m.cur []) = c.getKeys := hm.keys _ hmem
  refine ⟨fun k pts hk => ?_, ?_, ?_, hm.offset⟩
  · rw [getPc_radians, Dict.get_ok_iff] at hk
    have hkm : k ∈ Dict.keys (m.heap.getD m.cur []) := by
      rw [hkeys]
      exact List.mem_map_of_mem (Dict.mem_of_get? hk)
    obtain ⟨it, hit, rfl⟩ := List.mem_map.1 hkm
    obtain ⟨v0, h1, A, h2, h3⟩ := hm.data _ hmem it hit
    have hwf' : Dict.WF (m.heap.getD m.cur []) := by
      unfold Dict.WF
      rw [hkeys]
      exact hwf
    have e0 : v0 = pts := Option.some.inj (((Dict.get?_eq_some_iff hwf).2 h1).symm.trans hk)
    subst e0
    have hget : Dict.get? m.inst.data it.1 = some it.2 := (Dict.get?_eq_some_iff hwf').2 hit
    exact ⟨it.2, by rw [getPc_radians, Dict.get_ok_iff]; exact hget, A, Multiset.coe_le.1 (h2.trans (hle _)), h3⟩
  · obtain ⟨A, h2, h3⟩ := hm.scale
    exact ⟨A, Multiset.coe_le.1 (h2.trans (hle _)), h3⟩
  · obtain ⟨A, h2, h3⟩ := hm.phase
    refine ⟨A, Multiset.coe_le.1 (h2.trans (hle _)), fun a ha => ?_⟩
    have e1 : ∀ c' : DataContainer K, c'.getPhaseShift sRadians = .ok c'.phaseShift := fun c' => rfl
    rw [e1] at ha ⊢
    cases ha
    exact congrArg Except.ok h3

/-- **C136 is false: a lost update.**  Two threads scale the data by `s` and by `s'`.  There is a schedule after which both are finished and
the recorded scale is that of both calls, but the data are scaled by `s'` only.  When `s` is not 1, `s'` is not 0 and some value is not 0,
they are not the data after both calls in either order. -/
theorem C136_lost_update_broken {c : DataContainer K} (hc : c.Reachable) {s s' : K} (hs : 0 ≤ s) (hs' : 0 ≤ s') :
    ∃ sched, Finished ((start c [[.scale s], [.scale s']]).run sched) ∧
      ((start c [[.scale s], [.scale s']]).run sched).mem.inst.getScale = c.getScale * s * s' ∧
      ((start c [[.scale s], [.scale s']]).run sched).mem.inst.getItems sRadians = (DataContainer.step c (.scale s')).1.getItems sRadians ∧
      (s ≠ 1 → s' ≠ 0 → (∃ k pts, c.getPc k sRadians = .ok pts ∧ ∃ p ∈ pts, p.2 ≠ 0) →
        ((start c [[.scale s], [.scale s']]).run sched).mem.inst.getItems sRadians ≠ (DataContainer.run c [.scale s, .scale s']).getItems sRadians ∧
        ((start c [[.scale s], [.scale s']]).run sched).mem.inst.getItems sRadians ≠ (DataContainer.run c [.scale s', .scale s]).getItems sRadians) := by
  have hst : ∀ (c : DataContainer K) {s : K}, 0 ≤ s → (DataContainer.step c (.scale s)).1 =
      { c with data := c.data.mapVals (fun v => v.map (fun p => (p.1, s * p.2))), scale := c.scale * s } := by
    intro c s hs
    rw [step_scale]
    unfold DataContainer.scaleData
    rw [if_neg (not_lt.2 hs)]
  obtain ⟨sched, h1, h2⟩ := lost_update (reachable_normalForm hc).1 hs hs'
  refine ⟨sched, h1, by rw [h2]; rfl, by rw [h2, hst c hs']; rfl, fun hs1 hs0 hv => ?_⟩
  obtain ⟨k, pts, hk, p, hp, hp0⟩ := hv
  rw [getPc_radians, Dict.get_ok_iff] at hk
  have key : ∀ t : K, t ≠ s' → c.data.mapVals (fun v => v.map (fun p : K × K => (p.1, s' * p.2))) ≠
      c.data.mapVals (fun v => v.map (fun p : K × K => (p.1, t * p.2))) := by
    intro t ht he
    have := congrArg (fun d => Dict.get? d k) he
    simp only [Dict.get?_mapVals, hk, Option.map_some, Option.some.injEq] at this
    have h3 := List.map_inj_left.1 this p hp
    exact ht (mul_right_cancel₀ hp0 (congrArg Prod.snd h3)).symm
  have hne : s * s' ≠ s' := fun e => hs1 (mul_right_cancel₀ hs0 (e.trans (one_mul _).symm))
  have e2 : ∀ {a b : K}, 0 ≤ a → 0 ≤ b → (DataContainer.run c [.scale a, .scale b]).data =
      c.data.mapVals (fun v => v.map (fun p : K × K => (p.1, b * a * p.2))) := by
    intro a b ha hb
    show (DataContainer.step (DataContainer.step c (.scale a)).1 (.scale b)).1.data = _
    rw [hst _ hb, hst _ ha]
    show Dict.mapVals _ (Dict.mapVals _ _) = _
    rw [Dict.mapVals_mapVals]
    refine Dict.mapVals_congr (fun q _ => ?_)
    rw [List.map_map]
    refine List.map_congr_left (fun x _ => ?_)
    simp [mul_assoc]
  constructor
  · rw [h2, getItems_radians, getItems_radians, e2 hs hs']
    intro he
    exact key (s' * s) (by rw [mul_comm]; exact hne) (Except.ok.inj he)
  · rw [h2, getItems_radians, getItems_radians, e2 hs' hs]
    intro he
    exact key (s * s') hne (Except.ok.inj he)

/-- **C136 is false: lost order.**  One thread turns the data, another scales them.  For every combination with points at two different
angles there are an angle and a schedule after which both are finished and its points are out of order. -/
theorem C136_order_broken {c : DataContainer K} (hc : c.Reachable) {k : Key} {pts : List (K × K)} (hk : c.getPc k sRadians = .ok pts)
    {p q : K × K} (hp : p ∈ pts) (hq : q ∈ pts) (hpq : p.1 < q.1) {s : K} (hs : 0 ≤ s) :
    ∃ a sched, Finished ((start c [[.phaseShift a sRadians], [.scale s]]).run sched) ∧
      ∃ pts', ((start c [[.phaseShift a sRadians], [.scale s]]).run sched).mem.inst.getPc k sRadians = .ok pts' ∧ ¬ NormalForm pts' := by
  obtain ⟨hwf, hn⟩ := reachable_normalForm hc
  rw [getPc_radians, Dict.get_ok_iff] at hk
  have hnf := hn _ (Dict.mem_of_get? hk)
  obtain ⟨sched, h4, h5⟩ := lost_order hwf (2 * HasPi.pi - q.1) hs
  refine ⟨_, sched, h4, (pts.map (fun p : K × K => (pmod (p.1 + (2 * HasPi.pi - q.1)), p.2))).map (fun p => (p.1, s * p.2)), ?_, ?_⟩
  · rw [getPc_radians, Dict.get_ok_iff, h5, Dict.get?_mapVals, Dict.get?_mapVals, hk]
    rfl
  · intro hN
    have hpi := HasPi.pi_pos (K := K)
    have hpT := hnf.2.1 p hp
    have hqT := hnf.2.1 q hq
    have hq0 : pmod (q.1 + (2 * HasPi.pi - q.1)) = 0 := by
      have h0 : InTurn (0 : K) := ⟨le_refl _, by linarith⟩
      rw [← pmod_of_inTurn h0]
      refine pmod_eq_of_angleEq ⟨1, ?_⟩
      push_cast
      ring
    have hp1 : pmod (p.1 + (2 * HasPi.pi - q.1)) = p.1 + (2 * HasPi.pi - q.1) :=
      pmod_of_inTurn ⟨by linarith [hpT.1, hqT.2], by linarith⟩
    obtain ⟨i, hi, rfl⟩ := List.getElem_of_mem hp
    obtain ⟨j, hj, rfl⟩ := List.getElem_of_mem hq
    have hij : i < j := by
      rcases lt_trichotomy i j with h | h | h
      · exact h
      · subst h; exact absurd hpq (lt_irrefl _)
      · exact absurd hpq (not_lt.2 ((List.pairwise_iff_getElem.1 hnf.2.2) j i hj hi h))
    have := (List.pairwise_iff_getElem.1 hN.2.2) i j (by simpa using hi) (by simpa using hj) hij
    simp only [List.getElem_map] at this
    rw [hq0, hp1] at this
    linarith [hpT.1, hqT.2]

end

/-! ### Concrete cases -/

/-- A container for these theorems, with two combinations that have points at two angles and values that are not 0, and two threads that
take turns on it. -/
example : ∃ c : DataContainer ℚ, c.Reachable ∧ c.getKeys = [kPP, kSS] ∧ c.getPc kPP sRadians = .ok [(0, 1), (1, 2)] ∧
    ∃ w, InTurns (start c [[.scale 2, .scale (-1)], [.scale 3]]) w [.scale 3, .scale 2, .scale (-1)] ∧ Finished w := by
  have hpi : (3 : ℚ) < HasPi.pi := by unfold HasPi.pi instHasPiRat; norm_num
  have hnf : ∀ y y' : ℚ, NormalForm [(0, y), (1, y')] := by
    intro y y'
    refine ⟨by simp, ?_, by simp⟩
    intro p hp
    simp only [List.mem_cons, List.not_mem_nil, or_false] at hp
    rcases hp with rfl | rfl
    · exact ⟨le_rfl, by linarith⟩
    · exact ⟨by norm_num, by simp only; linarith⟩
  refine ⟨⟨[(kPP, [(0, 1), (1, 2)]), (kSS, [(0, 3), (1, 4)])], 1, 0, some 0, false, sRadians⟩,
    ⟨_, _, _, _, _, [], init_items (items := [(kPP, [(0, 1), (1, 2)]), (kSS, [(0, 3), (1, 4)])]) ?_ ?_ ?_, rfl⟩, rfl, rfl, ?_⟩
  · simp [Dict.WF]; decide
  · intro it hit
    simp only [List.mem_cons, List.not_mem_nil, or_false] at hit
    rcases hit with rfl | rfl <;> exact hnf _ _
  · intro it hit
    simp only [List.mem_cons, List.not_mem_nil, or_false] at hit
    rcases hit with rfl | rfl <;> simp
  · generalize (⟨[(kPP, [(0, 1), (1, 2)]), (kSS, [(0, 3), (1, 4)])], 1, 0, some 0, false, sRadians⟩ : DataContainer ℚ) = c
    set w0 := start c [[.scale 2, .scale (-1)], [.scale 3]] with hw0
    have r1 : Resting w0 1 [.scale 3] := ⟨none, rfl⟩
    obtain ⟨n1, f1⟩ := exists_turn r1
    have r0 : Resting (w0.run (List.replicate n1 1)) 0 [.scale 2, .scale (-1)] := ⟨none, by rw [run_other (by decide)]; rfl⟩
    obtain ⟨n2, f2⟩ := exists_turn r0
    obtain ⟨n3, f3⟩ := exists_turn f2
    have g1 := InTurns.turn 1 n1 [_] [] (InTurns.refl w0) r1 f1
    have g2 := InTurns.turn 0 n2 [_] _ g1 r0 f2
    have g3 := InTurns.turn 0 n3 [_] _ g2 f2 f3
    refine ⟨_, g3, fun t ht => ?_⟩
    obtain ⟨j, hj, rfl⟩ := List.getElem_of_mem ht
    have hj2 : j < 2 := by
      rw [length_run, length_run, length_run] at hj
      exact hj
    have key : ∀ {j : ℕ} {w : World ℚ} (hj : j < w.threads.length), Resting w j [] → (∃ e, w.threads[j].now = .stop e) ∧ w.threads[j].later = [] := by
      rintro j w hj ⟨e, he⟩
      rw [List.getElem?_eq_getElem hj] at he
      rw [Option.some.inj he]
      exact ⟨⟨e, rfl⟩, rfl⟩
    refine key hj ?_
    have : j = 0 ∨ j = 1 := by omega
    rcases this with rfl | rfl
    · exact f3
    · obtain ⟨e, he⟩ := f1
      exact ⟨e, by rw [run_other (by decide), run_other (by decide)]; exact he⟩

end Shgpy
