import Verif.Proofs.Interrupt

/-!
# Methods that are stopped in the middle: C134

`moments op` are the states of the instance during a call: what an exception from outside, such as `KeyboardInterrupt`, can leave.
-/

set_option linter.unusedSectionVars false

namespace Shgpy
open Spec

section
variable {K : Type} [Field K] [LinearOrder K] [IsStrictOrderedRing K] [FloorRing K] [HasPi K]

/-- **C134, calls that are not stopped.**  The last moment of a call is the result of the call in the model of the other properties. -/
theorem C134_completed :
    (∀ {c : DataContainer K}, c.Reachable → ∀ op, (c.moments op).getLast? = some (DataContainer.step c op).1) ∧
    (∀ {c : FDataContainer}, c.Reachable → ∀ op, (c.moments op).getLast? = some (FDataContainer.step c op).1) ∧
    (∀ {S : Sympy} {c : FFormContainer}, c.Reachable S → ∀ op, (c.moments S op).getLast? = some (FFormContainer.step S c op).1) ∧
    (∀ {S : Sympy} {c : FormContainer}, c.Reachable S → ∀ op, (c.moments S op).getLast? = some (FormContainer.step S c op).1) := by
  have hcons : ∀ {α σ : Type} (g : Dict Key α → σ) (l : List (Dict Key α)) (d : Dict Key α),
      (g d :: l.map g).getLast? = some (g (l.getLastD d)) := by
    intro α σ g l d
    rw [← List.map_cons, List.getLast?_map, List.getLast?_cons, ← List.getLastD_eq_getLast?]
    rfl
  refine ⟨fun hc => data_last (reachable_normalForm hc).1, fun hc => fdata_last hc.good, fun {S c} hc op => ?_, fun {S c} hc op => ?_⟩
  · by_cases hop : ∃ s, op = .scale s
    · obtain ⟨s, rfl⟩ := hop
      have := hcons (fun d => ({ c with fform := d } : FFormContainer)) (loopStates (FFormContainer.scaleF S s) c.fform c.fform) c.fform
      rw [loopStates_last _ hc.good.wf] at this
      exact this
    · push Not at hop
      rcases fform_atOnce hc hop with h | ⟨h, h'⟩
      · rw [h]; rfl
      · rw [h, h']; rfl
  · have hst := FormContainer.step_eq S hc.wf op
    cases op with
    | subs p => rw [form_atOnce hc (.inl ⟨p, rfl⟩)]; rfl
    | phaseShift a v => rw [form_atOnce hc (.inr ⟨a, v, rfl⟩)]; rfl
    | scale s =>
      have := hcons (fun d => ({ c with form := d } : FormContainer)) (loopStates (S.mul s) c.form c.form) c.form
      rw [loopStates_last _ hc.wf] at this
      rw [hst]
      exact this
    | rewrite r =>
      have := hcons (fun d => ({ c with form := d } : FormContainer)) (loopStates r.run c.form c.form) c.form
      rw [loopStates_last _ hc.wf] at this
      rw [hst]
      exact this

/-! ### Data -/

/-- **C134, data.**  A stopped call of `scale_data`, `subtract_min`, `normalize_data` or `filter` has been completed, or the recorded
scale, offset and phase shift are those before the call, and the data of the first combinations are those after the call, the others those
before it. -/
theorem C134_data_partial {c : DataContainer K} (hc : c.Reachable) {op : DataContainer.Op K} (hop : ∀ a u, op ≠ .phaseShift a u)
    {c' : DataContainer K} (h : c' ∈ c.moments op) :
    c' = (DataContainer.step c op).1 ∨
    (c'.getScale = c.getScale ∧ c'.getOffset = c.getOffset ∧ (∀ u, c'.getPhaseShift u = c.getPhaseShift u) ∧
      ∃ n, ∀ items items', c.getItems sRadians = .ok items → (DataContainer.step c op).1.getItems sRadians = .ok items' →
        c'.getItems sRadians = .ok (partly n items items')) := by
  rcases data_moments (reachable_normalForm hc).1 hop h with rfl | ⟨n, rfl⟩
  · exact .inl rfl
  · refine .inr ⟨rfl, rfl, fun u => rfl, n, fun items items' h1 h2 => ?_⟩
    rw [getItems_radians] at h1 h2
    cases h1; cases h2
    rfl

/-- **C134, turned data.**  A stopped call of `phase_shift_data` leaves the data as they were, or each combination has the points it has
after the call, in some order; the recorded phase shift is the one before or the one after the call. -/
theorem C134_shift_partial {c : DataContainer K} (hc : c.Reachable) {a : K} {u : Key} {c' : DataContainer K}
    (h : c' ∈ c.moments (.phaseShift a u)) :
    c' = c ∨
    (c'.getScale = c.getScale ∧ c'.getOffset = c.getOffset ∧
      (∀ v, c'.getPhaseShift v = c.getPhaseShift v ∨ c'.getPhaseShift v = (DataContainer.step c (.phaseShift a u)).1.getPhaseShift v) ∧
      c'.getKeys = c.getKeys ∧
      ∀ k pts, (DataContainer.step c (.phaseShift a u)).1.getPc k sRadians = .ok pts →
        ∃ pts', c'.getPc k sRadians = .ok pts' ∧ pts'.Perm pts) := by
  have hwf := (reachable_normalForm hc).1
  cases ha : DataContainer.angleOf a u with
  | error e =>
    rw [(moments_of_bad_angle ha).1] at h
    exact .inl (List.mem_singleton.1 h)
  | ok r =>
    rw [step_of_angle ha]
    have hperm : ∀ v : List (K × K), (v.map (fun p : K × K => (pmod (p.1 + r), p.2))).Perm (shiftPts r v) :=
      fun v => (sortPts_perm _).symm
    have key : ∀ n k pts, Dict.get (c.data.mapVals (shiftPts r)) k = .ok pts →
        ∃ pts', Dict.get (partly n (c.data.mapVals (fun v => v.map (fun p : K × K => (pmod (p.1 + r), p.2))))
          (c.data.mapVals (shiftPts r))) k = .ok pts' ∧ pts'.Perm pts := by
      intro n k pts hk
      rw [Dict.get_ok_iff] at hk
      have hF : List.Forall₂ (fun p q : Key × List (K × K) => q.1 = p.1 ∧ q.2.Perm p.2) (c.data.mapVals (shiftPts r))
          (partly n (c.data.mapVals (fun v => v.map (fun p : K × K => (pmod (p.1 + r), p.2)))) (c.data.mapVals (shiftPts r))) := by
        unfold partly
        conv_lhs => rw [← List.take_append_drop n (c.data.mapVals (shiftPts r))]
        refine List.rel_append (List.forall₂_same.2 (fun p _ => ⟨rfl, .refl _⟩)) (List.forall₂_drop n ?_)
        unfold Dict.mapVals
        rw [List.forall₂_map_right_iff, List.forall₂_map_left_iff, List.forall₂_same]
        exact fun p _ => ⟨rfl, hperm p.2⟩
      have hget : ∀ {d d' : Dict Key (List (K × K))}, List.Forall₂ (fun p q : Key × List (K × K) => q.1 = p.1 ∧ q.2.Perm p.2) d d' →
          Dict.get? d k = some pts → ∃ pts', Dict.get? d' k = some pts' ∧ pts'.Perm pts := by
        intro d d' hF
        induction hF with
        | nil => intro h; cases h
        | @cons p q d d' hpq _ ih =>
          obtain ⟨k₁, v₁⟩ := p
          obtain ⟨k₂, v₂⟩ := q
          obtain ⟨rfl, hv⟩ := hpq
          intro h
          unfold Dict.get? at h ⊢
          dsimp only at h ⊢
          split_ifs at h ⊢ with hk
          · cases h
            exact ⟨_, rfl, hv⟩
          · exact ih h
      obtain ⟨pts', h1, h2⟩ := hget hF hk
      exact ⟨pts', Dict.get_ok_iff.2 h1, h2⟩
    rcases (shift_moments hwf ha).1 h with rfl | rfl | ⟨n, _, rfl⟩
    · exact .inl rfl
    · refine .inr ⟨rfl, rfl, fun v => .inl rfl, Dict.keys_mapVals _ _, fun k pts hk => ?_⟩
      have := key 0 k pts hk
      rwa [partly_zero] at this
    · exact .inr ⟨rfl, rfl, fun v => .inr rfl,
        (mix_keys (by rw [Dict.keys_mapVals, Dict.keys_mapVals]) n).trans (Dict.keys_mapVals _ _), fun k pts hk => key n k pts hk⟩

/-- **C134, repair of turned data.**  When a call of `phase_shift_data` has been stopped, turning by the angle 0 gives the data before or
the data after that call. -/
theorem C134_shift_repair {c : DataContainer K} (hc : c.Reachable) {a : K} {u : Key} {c' : DataContainer K}
    (h : c' ∈ c.moments (.phaseShift a u)) :
    (DataContainer.step c' (.phaseShift 0 sRadians)).1.getItems sRadians = c.getItems sRadians ∨
    (DataContainer.step c' (.phaseShift 0 sRadians)).1.getItems sRadians = (DataContainer.step c (.phaseShift a u)).1.getItems sRadians := by
  obtain ⟨hwf, hn⟩ := reachable_normalForm hc
  have h0 : DataContainer.angleOf (0 : K) sRadians = .ok 0 := rfl
  have hid : ∀ {v : List (K × K)}, (∀ p ∈ v, InTurn p.1) → shiftPts 0 v = sortPts v := by
    intro v hv
    unfold shiftPts
    congr 1
    conv_rhs => rw [← List.map_id v]
    refine List.map_congr_left (fun p hp => ?_)
    rw [add_zero, pmod_of_inTurn (hv p hp)]
    rfl
  rw [step_of_angle h0]
  simp only [getItems_radians, Except.ok.injEq]
  cases ha : DataContainer.angleOf a u with
  | error e =>
    rw [(moments_of_bad_angle ha).1] at h
    rw [List.mem_singleton.1 h]
    left
    conv_rhs => rw [← Dict.mapVals_id c.data]
    exact Dict.mapVals_congr (fun p hp => by rw [hid (hn p hp).2.1, sortPts_of_sorted (hn p hp).2.2])
  | ok r =>
    rw [step_of_angle ha]
    have ht : ∀ v : List (K × K), shiftPts 0 (v.map (fun p : K × K => (pmod (p.1 + r), p.2))) = shiftPts r v := by
      intro v
      rw [hid]
      · rfl
      · intro p hp
        obtain ⟨q, _, rfl⟩ := List.mem_map.1 hp
        exact pmod_inTurn _
    have hs : ∀ v : List (K × K), shiftPts 0 (shiftPts r v) = shiftPts r v := by
      intro v
      rw [hid]
      · exact sortPts_of_sorted (sortPts_sorted _)
      · intro p hp
        unfold shiftPts at hp
        obtain ⟨q, _, rfl⟩ := List.mem_map.1 (mem_sortPts.1 hp)
        exact pmod_inTurn _
    rcases (shift_moments hwf ha).1 h with rfl | rfl | ⟨n, _, rfl⟩
    · left
      conv_rhs => rw [← Dict.mapVals_id c'.data]
      exact Dict.mapVals_congr (fun p hp => by rw [hid (hn p hp).2.1, sortPts_of_sorted (hn p hp).2.2])
    · right
      show Dict.mapVals (shiftPts 0) (Dict.mapVals _ c.data) = _
      rw [Dict.mapVals_mapVals]
      exact Dict.mapVals_congr (fun p _ => ht p.2)
    · right
      show Dict.mapVals (shiftPts 0) (partly n _ _) = _
      unfold partly Dict.mapVals
      rw [List.map_append, List.map_take, List.map_drop, List.map_map, List.map_map]
      have e1 : List.map ((fun p : Key × List (K × K) => (p.1, shiftPts 0 p.2)) ∘ fun p => (p.1, shiftPts r p.2)) c.data =
          c.data.map (fun p => (p.1, shiftPts r p.2)) := List.map_congr_left (fun p _ => by simp [hs])
      have e2 : List.map ((fun p : Key × List (K × K) => (p.1, shiftPts 0 p.2)) ∘
          fun p => (p.1, p.2.map (fun p : K × K => (pmod (p.1 + r), p.2)))) c.data =
          c.data.map (fun p => (p.1, shiftPts r p.2)) := List.map_congr_left (fun p _ => by simp only [Function.comp_apply, ht])
      rw [e1, e2, List.take_append_drop]

/-- **C134, histories.**  In any history in which calls are stopped at any moments, the combinations and the numbers of points stay what
they are, and the angles stay within one turn.  After the next completed call of `phase_shift_data` the data are in normal form. -/
theorem C134_history {c : DataContainer K} (hc : c.Reachable) (l : List (DataContainer.Op K × ℕ)) :
    (DataContainer.runCut c l).getKeys = c.getKeys ∧
    ∀ k pts, c.getPc k sRadians = .ok pts →
      (∃ pts', (DataContainer.runCut c l).getPc k sRadians = .ok pts' ∧ pts'.length = pts.length ∧ Unordered pts') ∧
      ∀ a u, lower u = sRadians ∨ lower u = sDegrees →
        ∃ pts', (DataContainer.step (DataContainer.runCut c l) (.phaseShift a u)).1.getPc k sRadians = .ok pts' ∧
          pts'.length = pts.length ∧ NormalForm pts' := by
  obtain ⟨hwf, hn⟩ := reachable_normalForm hc
  have hl := loosely_runCut hwf l
  have hget : ∀ {d d' : Dict Key (List (K × K))}, Loosely d d' → ∀ {k pts}, Dict.get? d k = some pts →
      ∃ pts', Dict.get? d' k = some pts' ∧ pts'.length = pts.length ∧ (Unordered pts → Unordered pts') := by
    intro d d' hF
    unfold Loosely at hF
    induction hF with
    | nil => intro k pts h; cases h
    | @cons p q d d' hpq _ ih =>
      obtain ⟨k₁, v₁⟩ := p
      obtain ⟨k₂, v₂⟩ := q
      obtain ⟨rfl, hv⟩ := hpq
      intro k pts h
      unfold Dict.get? at h ⊢
      dsimp only at h ⊢
      split_ifs at h ⊢ with hk
      · cases h
        exact ⟨_, rfl, hv⟩
      · exact ih h
  refine ⟨hl.keys, fun k pts hk => ?_⟩
  rw [getPc_radians, Dict.get_ok_iff] at hk
  obtain ⟨pts', h1, h2, h3⟩ := hget hl hk
  have hu := h3 (hn _ (Dict.mem_of_get? hk)).unordered
  refine ⟨⟨pts', by rw [getPc_radians, Dict.get_ok_iff]; exact h1, h2, hu⟩, fun a u hunit => ?_⟩
  cases ha : DataContainer.angleOf a u with
  | error e => exact absurd hunit (angleOf_error.1 ⟨e, ha⟩)
  | ok r =>
    rw [step_of_angle ha]
    refine ⟨shiftPts r pts', ?_, by simp [shiftPts, h2], shiftPts_normalForm hu.1⟩
    rw [getPc_radians, Dict.get_ok_iff]
    show Dict.get? (Dict.mapVals _ _) k = _
    rw [Dict.get?_mapVals, h1]
    rfl

/-! ### What is false for data -/

/-- **C134 is false for `scale_data`.**  Stopped between its two assignments it leaves the data after the call with the scale before the
call: when the scale is not 0, a value is not 0 and the factor is not 1, this is neither the container before nor that after the call. -/
theorem C134_scale_broken {c : DataContainer K} {s : K} (hs : 0 ≤ s) :
    ∃ c' ∈ c.moments (.scale s), c'.getItems sRadians = (DataContainer.step c (.scale s)).1.getItems sRadians ∧ c'.getScale = c.getScale ∧
      (s ≠ 1 → c.getScale ≠ 0 → (∃ k pts, c.getPc k sRadians = .ok pts ∧ ∃ p ∈ pts, p.2 ≠ 0) →
        c' ≠ c ∧ c' ≠ (DataContainer.step c (.scale s)).1) := by
  have hst : (DataContainer.step c (.scale s)).1 =
      { c with data := c.data.mapVals (fun v => v.map (fun p => (p.1, s * p.2))), scale := c.scale * s } := by
    rw [step_scale]
    unfold DataContainer.scaleData
    rw [if_neg (not_lt.2 hs)]
  refine ⟨{ c with data := c.data.mapVals (fun v => v.map (fun p => (p.1, s * p.2))) }, ?_, ?_, rfl, ?_⟩
  · show _ ∈ c.scaleMoments s
    unfold DataContainer.scaleMoments
    rw [if_neg (not_lt.2 hs)]
    simp
  · rw [hst]; rfl
  · rintro h1 h0 ⟨k, pts, hk, p, hp, hp0⟩
    constructor
    · intro he
      have hd : c.data.mapVals (fun v => v.map (fun p : K × K => (p.1, s * p.2))) = c.data := congrArg DataContainer.data he
      rw [getPc_radians, Dict.get_ok_iff] at hk
      have := congrArg (fun d => Dict.get? d k) hd
      rw [Dict.get?_mapVals, hk] at this
      have hm : pts.map (fun p : K × K => (p.1, s * p.2)) = pts := Option.some.inj this
      have := (List.map_inj_left (g := id)).1 (hm.trans (List.map_id _).symm) p hp
      have h2 : s * p.2 = p.2 := congrArg Prod.snd this
      exact h1 (mul_right_cancel₀ hp0 (h2.trans (one_mul _).symm))
    · intro he
      rw [hst] at he
      have hd : c.scale = c.scale * s := congrArg DataContainer.scale he
      exact h1 (mul_left_cancel₀ (show c.scale ≠ 0 from h0) (hd.symm.trans (mul_one _).symm))

/-- **C134 is false for `subtract_min`.**  It can be stopped with the minimum subtracted from any number of combinations and not from the
others, the recorded offset being the one before the call. -/
theorem C134_subtract_broken {c : DataContainer K} (hc : c.Reachable) {k : Key} {m : K} (hm : c.getMinval = .ok (some (k, m)))
    {n : ℕ} (hn : n ≤ c.getKeys.length) :
    ∃ c' ∈ c.moments .subtractMin, c'.getOffset = c.getOffset ∧
      ∃ items, c.getItems sRadians = .ok items ∧
        c'.getItems sRadians = .ok (partly n items (items.map (fun it => (it.1, it.2.map (fun p => (p.1, p.2 - m)))))) := by
  have hwf := (reachable_normalForm hc).1
  refine ⟨{ c with data := partly n c.data (c.data.mapVals (fun v => v.map (fun p => (p.1, p.2 - m)))) }, ?_, rfl, c.data, rfl, rfl⟩
  show _ ∈ c.subtractMoments
  unfold DataContainer.subtractMoments
  rw [hm]
  exact List.mem_append_left _ ((mem_loop _ hwf (fun d => ({ c with data := d } : DataContainer K))).2
    ⟨n, by simpa [DataContainer.getKeys, Dict.keys] using hn, rfl⟩)

/-- **C134 is false for `phase_shift_data`.**  For every combination with points at two different angles there is an angle such that a
stopped call leaves its points out of order. -/
theorem C134_shift_broken {c : DataContainer K} (hc : c.Reachable) {k : Key} {pts : List (K × K)} (hk : c.getPc k sRadians = .ok pts)
    {p q : K × K} (hp : p ∈ pts) (hq : q ∈ pts) (hpq : p.1 < q.1) :
    ∃ a, ∃ c' ∈ c.moments (.phaseShift a sRadians), c'.getPhaseShift sRadians = c.getPhaseShift sRadians ∧
      ∃ pts', c'.getPc k sRadians = .ok pts' ∧ ¬ NormalForm pts' := by
  obtain ⟨hwf, hn⟩ := reachable_normalForm hc
  rw [getPc_radians, Dict.get_ok_iff] at hk
  have hnf := hn _ (Dict.mem_of_get? hk)
  have ha : DataContainer.angleOf (2 * HasPi.pi - q.1) sRadians = .ok (2 * HasPi.pi - q.1) := rfl
  refine ⟨2 * HasPi.pi - q.1, _, (shift_moments hwf ha).2 (.inr (.inl rfl)), rfl,
    pts.map (fun p : K × K => (pmod (p.1 + (2 * HasPi.pi - q.1)), p.2)), ?_, ?_⟩
  · rw [getPc_radians, Dict.get_ok_iff]
    show Dict.get? (Dict.mapVals _ _) k = _
    rw [Dict.get?_mapVals, hk]
    rfl
  · intro hN
    have hpi := HasPi.pi_pos (K := K)
    have hpT := hnf.2.1 p hp
    have hqT := hnf.2.1 q hq
    have hq0 : pmod (q.1 + (2 * HasPi.pi - q.1)) = 0 := by
      have h0 : InTurn (0 : K) := ⟨le_refl _, by linarith⟩
      rw [← pmod_of_inTurn h0]
      refine pmod_eq_of_angleEq ⟨1, ?_⟩
      push_cast
      ring
    have hp1 : pmod (p.1 + (2 * HasPi.pi - q.1)) = p.1 + (2 * HasPi.pi - q.1) :=
      pmod_of_inTurn ⟨by linarith [hpT.1, hqT.2], by linarith⟩
    obtain ⟨i, hi, rfl⟩ := List.getElem_of_mem hp
    obtain ⟨j, hj, rfl⟩ := List.getElem_of_mem hq
    have hij : i < j := by
      rcases lt_trichotomy i j with h | h | h
      · exact h
      · subst h; exact absurd hpq (lt_irrefl _)
      · exact absurd hpq (not_lt.2 ((List.pairwise_iff_getElem.1 hnf.2.2) j i hj hi h))
    have := (List.pairwise_iff_getElem.1 hN.2.2) i j (by simpa using hi) (by simpa using hj) hij
    simp only [List.getElem_map] at this
    rw [hq0, hp1] at this
    linarith [hpT.1, hqT.2]

end

/-! ### Fourier data -/

/-- **C134, Fourier data.**  A stopped call has been completed, or the recorded scale and phase shift are those before the call, and the
first combinations are those after the call, the others those before it. -/
theorem C134_fdata_partial {c : FDataContainer} (hc : c.Reachable) {op : FDataContainer.Op} {c' : FDataContainer}
    (h : c' ∈ c.moments op) :
    c' = (FDataContainer.step c op).1 ∨
    (c'.getScale = c.getScale ∧ (∀ u, c'.getPhaseShift u = c.getPhaseShift u) ∧ c'.getM = c.getM ∧
      ∃ n, c'.getItems = partly n c.getItems (FDataContainer.step c op).1.getItems) := by
  rcases fdata_moments hc.good h with rfl | ⟨n, rfl⟩
  · exact .inl rfl
  · exact .inr ⟨rfl, fun u => rfl, rfl, n, rfl⟩

/-- **C134 is false for Fourier data.**  A stopped call of `phase_shift_fdata` can leave the first combination turned and the second not:
when both have a first harmonic, and the angle is not a whole number of turns, this is the result of no phase shift. -/
theorem C134_fdata_broken {c : FDataContainer} (hc : c.Reachable) {k₁ k₂ : Key} {v₁ v₂ : List ℂ} {rest : Dict Key (List ℂ)}
    (hi : c.getItems = (k₁, v₁) :: (k₂, v₂) :: rest) {z w : ℂ} (hz : Component v₁ c.getM 1 z) (hz0 : z ≠ 0)
    (hw : Component v₂ c.getM 1 w) (hw0 : w ≠ 0) {a : ℝ} (ha : harmonic 1 a ≠ 1) :
    ∃ c' ∈ c.moments (.phaseShift a sRadians), ∀ b u, (FDataContainer.step c (.phaseShift b u)).1.getItems ≠ c'.getItems := by
  have hg := hc.good
  obtain ⟨p, hp⟩ := hg.num
  have hi' : c.fdata = (k₁, v₁) :: (k₂, v₂) :: rest := hi
  have hM : (1 : ℤ) ≤ c.M := hz.1.2
  have hcomp : ∀ {v : List ℂ} {y : ℂ} (g : ℤ → ℂ), Component v c.M 1 y → (mulComp c.M g v)[c.M + 1]? = some (y * g 1) := by
    intro v y g hv
    have h2 := hv.2
    have e : ((1 : ℤ) + c.M).toNat = c.M + 1 := by omega
    rw [e] at h2
    rw [getElem?_mulComp (by omega), List.getD_eq_getElem?_getD, h2]
    simp
  refine ⟨{ c with fdata := partly 1 c.fdata (c.fdata.mapVals (mulComp c.M (fun m => harmonic m (FDataContainer.angle a sRadians)))) },
    ?_, fun b u he => ?_⟩
  · rw [fdata_shiftMoments hg (.inl (by decide)) hp]
    exact List.mem_append_left _ ((mem_loop _ hg.wf (fun d => ({ c with fdata := d } : FDataContainer))).2 ⟨1, by rw [hi']; simp, rfl⟩)
  · have hang : FDataContainer.angle a sRadians = a := rfl
    have he' : (FDataContainer.step c (.phaseShift b u)).1.fdata =
        partly 1 c.fdata (c.fdata.mapVals (mulComp c.M (fun m => harmonic m a))) := he
    have hpart : partly 1 c.fdata (c.fdata.mapVals (mulComp c.M (fun m => harmonic m a))) =
        (k₁, mulComp c.M (fun m => harmonic m a) v₁) :: (k₂, v₂) :: rest := by
      rw [hi']; rfl
    rw [hpart] at he'
    have e : ((1 : ℤ) + c.M).toNat = c.M + 1 := by omega
    have hw2 := hw.2
    have hz2 := hz.2
    change v₂[((1 : ℤ) + c.M).toNat]? = some w at hw2
    change v₁[((1 : ℤ) + c.M).toNat]? = some z at hz2
    rw [e] at hw2 hz2
    rw [FDataContainer.step_phaseShift hg.wf hg.len] at he'
    by_cases hu : lower u = sRadians ∨ lower u = sDegrees
    · rw [if_pos hu, hp] at he'
      dsimp only at he'
      rw [hi'] at he'
      simp only [Dict.mapVals_cons, List.cons.injEq, Prod.mk.injEq, true_and] at he'
      obtain ⟨h1, h2, _⟩ := he'
      have e1 := congrArg (fun l : List ℂ => l[c.M + 1]?) h1
      have e2 := congrArg (fun l : List ℂ => l[c.M + 1]?) h2
      rw [hcomp _ hz, hcomp _ hz] at e1
      rw [hcomp _ hw, hw2] at e2
      have e1 := Option.some.inj e1
      have e2 := Option.some.inj e2
      have hb : harmonic 1 (FDataContainer.angle b u) = 1 := mul_left_cancel₀ hw0 (e2.trans (mul_one _).symm)
      rw [hb] at e1
      exact ha (mul_left_cancel₀ hz0 e1).symm
    · rw [if_neg hu, hi'] at he'
      simp only [List.cons.injEq, Prod.mk.injEq, true_and, and_true] at he'
      have e1 := congrArg (fun l : List ℂ => l[c.M + 1]?) he'
      rw [hcomp _ hz, hz2] at e1
      have e1 := Option.some.inj e1
      exact ha (mul_left_cancel₀ hz0 ((mul_one z).trans e1)).symm

/-! ### Formulas -/

/-- **C134, substitutions and phase shifts of formulas.**  A stopped call leaves the container as it was before the call or as it is after
the call. -/
theorem C134_formulas {S : Sympy} :
    (∀ {c : FFormContainer}, c.Reachable S → ∀ {op}, (∀ s, op ≠ .scale s) → ∀ c' ∈ c.moments S op,
      c' = c ∨ c' = (FFormContainer.step S c op).1) ∧
    (∀ {c : FormContainer}, c.Reachable S → ∀ {op}, ((∃ p, op = .subs p) ∨ ∃ a v, op = .phaseShift a v) → ∀ c' ∈ c.moments S op,
      c' = c ∨ c' = (FormContainer.step S c op).1) := by
  constructor
  · intro c hc op hop c' h
    rcases fform_atOnce hc hop with h1 | ⟨h1, _⟩
    · rw [h1] at h
      simpa using h
    · rw [h1] at h
      exact .inl (List.mem_singleton.1 h)
  · intro c hc op hop c' h
    rw [form_atOnce hc hop] at h
    simpa using h

/-- **C134, simplifying formulas.**  However a call of `simplify` or `expand` is stopped, the combinations and the values of the formulas
are the same. -/
theorem C134_rewrite {S : Sympy} {c : FormContainer} (hc : c.Reachable S) (r : Rewriting) {c' : FormContainer}
    (h : c' ∈ c.moments S (.rewrite r)) :
    c'.getKeys = c.getKeys ∧ ∀ k e, c.getPc k = .ok e → ∃ e', c'.getPc k = .ok e' ∧ ∀ σ, e'.eval σ = e.eval σ := by
  obtain ⟨n, _, rfl⟩ := (mem_loop r.run hc.wf (fun d => ({ c with form := d } : FormContainer))).1 h
  have hF : List.Forall₂ (fun p q : Key × Expr => q.1 = p.1 ∧ ∀ σ, q.2.eval σ = p.2.eval σ) c.form
      ((Dict.mapVals r.run c.form).take n ++ c.form.drop n) := by
    conv_lhs => rw [← List.take_append_drop n c.form]
    refine List.rel_append (List.forall₂_take n ?_) (List.forall₂_same.2 (fun p _ => ⟨rfl, fun _ => rfl⟩))
    unfold Dict.mapVals
    rw [List.forall₂_map_right_iff, List.forall₂_same]
    exact fun p _ => ⟨rfl, fun σ => r.eval_run σ p.2⟩
  have hget : ∀ {d d' : Dict Key Expr} {k e}, List.Forall₂ (fun p q : Key × Expr => q.1 = p.1 ∧ ∀ σ, q.2.eval σ = p.2.eval σ) d d' →
      Dict.get? d k = some e → ∃ e', Dict.get? d' k = some e' ∧ ∀ σ, e'.eval σ = e.eval σ := by
    intro d d' k e hF
    induction hF with
    | nil => intro h; cases h
    | @cons p q d d' hpq _ ih =>
      obtain ⟨k₁, v₁⟩ := p
      obtain ⟨k₂, v₂⟩ := q
      obtain ⟨rfl, hv⟩ := hpq
      intro h
      unfold Dict.get? at h ⊢
      dsimp only at h ⊢
      split_ifs at h ⊢ with hk
      · cases h
        exact ⟨_, rfl, hv⟩
      · exact ih h
  refine ⟨mix_keys (Dict.keys_mapVals _ _) n, fun k e hk => ?_⟩
  obtain ⟨e', h1, h2⟩ := hget hF (Dict.get_ok_iff.1 hk)
  exact ⟨e', Dict.get_ok_iff.2 h1, h2⟩

/-- **C134, scaled formulas.**  A stopped call of `apply_arbitrary_scale` leaves the first combinations scaled and the others not.  Each
number of combinations can be reached. -/
theorem C134_formula_scale_partial {S : Sympy} :
    (∀ {c : FFormContainer}, c.Reachable S → ∀ s c', c' ∈ c.moments S (.scale s) ↔
      ∃ n ≤ c.getKeys.length, c'.getM = c.getM ∧ c'.getItems = partly n c.getItems (FFormContainer.step S c (.scale s)).1.getItems) ∧
    (∀ {c : FormContainer}, c.Reachable S → ∀ s c', c' ∈ c.moments S (.scale s) ↔
      ∃ n ≤ c.getKeys.length, c'.getItems = partly n c.getItems (FormContainer.step S c (.scale s)).1.getItems) := by
  constructor
  · intro c hc s c'
    have := mem_loop (FFormContainer.scaleF S s) hc.good.wf (fun d => ({ c with fform := d } : FFormContainer)) (x := c')
    refine Iff.trans this ?_
    have hl : c.getKeys.length = c.fform.length := by simp [FFormContainer.getKeys, Dict.keys]
    rw [hl]
    constructor
    · rintro ⟨n, hn, rfl⟩
      exact ⟨n, hn, rfl, rfl⟩
    · rintro ⟨n, hn, h1, h2⟩
      refine ⟨n, hn, ?_⟩
      obtain ⟨d, M⟩ := c'
      cases h1
      cases h2
      rfl
  · intro c hc s c'
    have := mem_loop (S.mul s) hc.wf (fun d => ({ c with form := d } : FormContainer)) (x := c')
    refine Iff.trans this ?_
    have hl : c.getKeys.length = c.form.length := by simp [FormContainer.getKeys, Dict.keys]
    rw [hl]
    constructor
    · rintro ⟨n, hn, rfl⟩
      exact ⟨n, hn, rfl⟩
    · rintro ⟨n, hn, h2⟩
      refine ⟨n, hn, ?_⟩
      obtain ⟨d⟩ := c'
      cases h2
      rfl

/-- **C134 is false for `apply_arbitrary_scale`.**  Two combinations have the same formula, which is not zero; a stopped call leaves them
with different values. -/
theorem C134_formula_scale_broken {S : Sympy} {c : FormContainer} (hc : c.Reachable S) {k₁ k₂ : Key} {e : Expr} {rest : Dict Key Expr}
    (hi : c.getItems = (k₁, e) :: (k₂, e) :: rest) {s : Expr} {σ : Valuation} (hs : s.eval σ ≠ 1) (he : e.eval σ ≠ 0) :
    ∃ c' ∈ c.moments S (.scale s), ∃ e₁ e₂, c'.getPc k₁ = .ok e₁ ∧ c'.getPc k₂ = .ok e₂ ∧ e₁.eval σ ≠ e₂.eval σ := by
  have hi' : c.form = (k₁, e) :: (k₂, e) :: rest := hi
  have hne : k₁ ≠ k₂ := by
    have := hc.wf
    rw [hi'] at this
    unfold Dict.WF Dict.keys at this
    simp at this
    exact this.1.1
  refine ⟨⟨(k₁, S.mul s e) :: (k₂, e) :: rest⟩, (C134_formula_scale_partial.2 hc s _).2 ⟨1, ?_, ?_⟩, S.mul s e, e, ?_, ?_, ?_⟩
  · simp [FormContainer.getKeys, hi', Dict.keys]
  · rw [FormContainer.step_eq S hc.wf]
    show _ = partly 1 c.form (c.form.mapVals _)
    rw [hi']
    rfl
  · simp [FormContainer.getPc, Dict.get, Dict.get?]
  · simp [FormContainer.getPc, Dict.get, Dict.get?, hne]
  · rw [S.eval_mul]
    intro h
    exact hs (mul_right_cancel₀ he (h.trans (one_mul _).symm))

/-! ### Concrete cases -/

/-- A container for the theorems on data: two combinations with points at the angles 0 and 1, and a minimum that is not 0. -/
example : ∃ c : DataContainer ℚ, c.Reachable ∧ c.getKeys = [kPP, kSS] ∧ c.getScale ≠ 0 ∧ c.getMinval = .ok (some (kPP, 1)) ∧
    c.getPc kPP sRadians = .ok [(0, 1), (1, 2)] := by
  have hpi : (3 : ℚ) < HasPi.pi := by unfold HasPi.pi instHasPiRat; norm_num
  have hnf : ∀ y y' : ℚ, NormalForm [(0, y), (1, y')] := by
    intro y y'
    refine ⟨by simp, ?_, by simp⟩
    intro p hp
    simp only [List.mem_cons, List.not_mem_nil, or_false] at hp
    rcases hp with rfl | rfl
    · exact ⟨le_rfl, by linarith⟩
    · exact ⟨by norm_num, by simp only; linarith⟩
  refine ⟨⟨[(kPP, [(0, 1), (1, 2)]), (kSS, [(0, 3), (1, 4)])], 1, 0, some 0, false, sRadians⟩,
    ⟨_, _, _, _, _, [], init_items (items := [(kPP, [(0, 1), (1, 2)]), (kSS, [(0, 3), (1, 4)])]) ?_ ?_ ?_, rfl⟩, rfl, ?_, ?_, rfl⟩
  · simp [Dict.WF]; decide
  · intro it hit
    simp only [List.mem_cons, List.not_mem_nil, or_false] at hit
    rcases hit with rfl | rfl <;> exact hnf _ _
  · intro it hit
    simp only [List.mem_cons, List.not_mem_nil, or_false] at hit
    rcases hit with rfl | rfl <;> simp
  · simp [DataContainer.getScale]
  · norm_num [DataContainer.getMinval, DataContainer.minLoop, DataContainer.pyMin, bind, Except.bind]

/-- The hypotheses of `C134_fdata_broken` are met, and so its conclusion is reached. -/
example : ∃ c : FDataContainer, c.Reachable ∧ ∃ c' ∈ c.moments (.phaseShift Real.pi sRadians),
    ∀ b u, (FDataContainer.step c (.phaseShift b u)).1.getItems ≠ c'.getItems := by
  have hi : FDataContainer.init [(.str kPP, .arr1 .complex128 [1, 2, 1]), (.str kSS, .arr1 .complex128 [Complex.I, 0, -Complex.I])] 1 =
      .ok ⟨[(kPP, [1, 2, 1]), (kSS, [Complex.I, 0, -Complex.I])], 1, 1, .num 0⟩ := by
    rfl
  have hc : FDataContainer.Reachable ⟨[(kPP, [1, 2, 1]), (kSS, [Complex.I, 0, -Complex.I])], 1, 1, .num 0⟩ := ⟨_, _, _, [], hi, rfl⟩
  refine ⟨_, hc, C134_fdata_broken hc (k₁ := kPP) (k₂ := kSS) (rest := []) rfl (z := 1)
    ⟨⟨by norm_num [FDataContainer.getM], by norm_num [FDataContainer.getM]⟩, rfl⟩ (by simp)
    (w := -Complex.I) ⟨⟨by norm_num [FDataContainer.getM], by norm_num [FDataContainer.getM]⟩, rfl⟩ (by simp) ?_⟩
  unfold harmonic
  rw [show Complex.I * (((1 : ℤ) : ℂ) * (Real.pi : ℂ)) = Real.pi * Complex.I by push_cast; ring, Complex.exp_pi_mul_I]
  norm_num

/-- The hypotheses of `C134_formula_scale_broken` are met. -/
example : ∃ c : FormContainer, c.Reachable Sympy.plain ∧ c.getItems = [(kPP, .sym symX), (kSS, .sym symX)] ∧
    (Expr.num 2).eval (fun _ => 1) ≠ 1 ∧ (Expr.sym symX).eval (fun _ => 1) ≠ 0 := by
  refine ⟨⟨[(kPP, .sym symX), (kSS, .sym symX)]⟩, ⟨[(.str kPP, .sy (.sym symX)), (.str kSS, .sy (.sym symX))], _, [], rfl, rfl⟩, rfl, ?_, ?_⟩
  · norm_num [Expr.eval]
  · norm_num [Expr.eval]

end Shgpy
