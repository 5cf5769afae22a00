import Verif.Proofs.DataExt

/-!
# Properties C05-C12: histories of `DataContainer` operations
-/

set_option linter.unusedSectionVars false
set_option linter.unusedSimpArgs false

namespace Shgpy
open Spec

variable {K : Type} [Field K] [LinearOrder K] [IsStrictOrderedRing K] [FloorRing K] [HasPi K]

/-- **C05.** Any history keeps keys, numbers of points and normal form. -/
theorem C05_normal_form_invariant {iter : List (RawKey × RawVal K)} {units : Key} {b : Bool}
    {c : DataContainer K} {w : List Key} (h : DataContainer.init iter units b = .ok (c, w))
    (ops : List (DataContainer.Op K)) :
    (DataContainer.run c ops).getKeys = c.getKeys ∧
    ∀ k pts, c.getPc k sRadians = .ok pts →
      ∃ pts', (DataContainer.run c ops).getPc k sRadians = .ok pts' ∧ pts'.length = pts.length ∧
        NormalForm pts' := by
  have hk := keeps_run c ops
  refine ⟨hk.keys, ?_⟩
  intro k pts hp
  rw [getPc_radians] at hp
  obtain ⟨pts', h1, h2, h3⟩ := hk.get hp
  refine ⟨pts', h1, h2, h3 ?_⟩
  obtain ⟨items, hi, _, _, hn⟩ := C01_construction_normal_form h
  rw [getItems_radians] at hi
  cases hi
  exact hn k pts (Dict.mem_of_get? (Dict.get_ok_iff.1 hp))

/-! ### C06 -/

/-- Item-wise matching of two dictionaries. -/
def MatchedD (a s : K) (d d' : Dict Key (List (K × K))) : Prop :=
  List.Forall₂ (fun p q => q.1 = p.1 ∧ Matched (Moved a s) p.2 q.2) d d'

theorem MatchedD.trans {a b s t : K} {d d' d'' : Dict Key (List (K × K))} (h : MatchedD a s d d')
    (h' : MatchedD b t d' d'') : MatchedD (a + b) (s * t) d d'' := by
  unfold MatchedD at *
  induction h generalizing d'' with
  | nil => cases h'; exact .nil
  | cons h _ ih =>
    cases h' with
    | cons h' ht => exact .cons ⟨h'.1.trans h.1, h.2.trans moved_trans h'.2⟩ (ih ht)

theorem MatchedD.mapVals {a s : K} {f : List (K × K) → List (K × K)} (d : Dict Key (List (K × K)))
    (h : ∀ v, Matched (Moved a s) v (f v)) : MatchedD a s d (d.mapVals f) := by
  unfold MatchedD Dict.mapVals
  rw [List.forall₂_map_right_iff, List.forall₂_same]
  exact fun p _ => ⟨rfl, h p.2⟩

theorem MatchedD.refl (d : Dict Key (List (K × K))) : MatchedD 0 1 d d :=
  List.forall₂_same.2 (fun _ _ => ⟨rfl, Matched.refl moved_refl _⟩)

theorem MatchedD.get {a s : K} {d d' : Dict Key (List (K × K))} (h : MatchedD a s d d') {k : Key}
    {v : List (K × K)} (hv : Dict.get d k = .ok v) :
    ∃ v', Dict.get d' k = .ok v' ∧ Matched (Moved a s) v v' := by
  rw [Dict.get_ok_iff] at hv
  suffices ∃ v', Dict.get? d' k = some v' ∧ Matched (Moved a s) v v' by
    obtain ⟨v', h1, h2⟩ := this
    exact ⟨v', Dict.get_ok_iff.2 h1, h2⟩
  unfold MatchedD at h
  induction h with
  | nil => cases hv
  | @cons p q _ _ h _ ih =>
    obtain ⟨pk, pv⟩ := p
    obtain ⟨qk, qv⟩ := q
    obtain ⟨h1, h2⟩ := h
    simp only at h1 h2
    subst h1
    simp only [Dict.get?] at hv ⊢
    split
    · next hk => rw [if_pos hk] at hv; cases hv; exact ⟨_, rfl, h2⟩
    · next hk => rw [if_neg hk] at hv; exact ih hv

theorem matched_scalePts (s : K) (v : List (K × K)) : Matched (Moved 0 s) v (scalePts s v) := by
  apply Matched.of_forall₂
  unfold scalePts
  rw [List.forall₂_map_right_iff, List.forall₂_same]
  exact fun p _ => ⟨by rw [add_zero]; exact AngleEq.refl _, rfl⟩

theorem matched_shiftPts (a : K) (v : List (K × K)) : Matched (Moved a 1) v (shiftPts a v) := by
  refine ⟨_, ?_, sortPts_perm _⟩
  rw [List.forall₂_map_right_iff, List.forall₂_same]
  exact fun p _ => ⟨pmod_angleEq _, (one_mul _).symm⟩

theorem step_matchedD (c : DataContainer K) (op : DataContainer.Op K) (hop : ScalesOrShifts op) :
    ∃ a s, MatchedD a s c.data (DataContainer.step c op).1.data ∧
      (DataContainer.step c op).1.phaseShift = c.phaseShift + a ∧
      (DataContainer.step c op).1.scale = c.scale * s := by
  have hid : ∃ a s, MatchedD a s c.data c.data ∧ c.phaseShift = c.phaseShift + a ∧ c.scale = c.scale * s :=
    ⟨0, 1, MatchedD.refl _, by simp, by simp⟩
  cases op with
  | scale s =>
    rw [step_scale]
    cases h : c.scaleData s with
    | error e => exact hid
    | ok c' =>
      obtain ⟨_, rfl⟩ := scaleData_ok.1 h
      exact ⟨0, s, MatchedD.mapVals _ (matched_scalePts s), by simp, rfl⟩
  | subtractMin => cases hop
  | normalize d =>
    rw [step_normalize]
    cases h : c.normalizeData d with
    | error e => exact hid
    | ok c' =>
      obtain ⟨s, hs⟩ := normalizeData_ok h
      obtain ⟨_, rfl⟩ := scaleData_ok.1 hs
      exact ⟨0, s, MatchedD.mapVals _ (matched_scalePts s), by simp, rfl⟩
  | phaseShift a u =>
    rw [step_phaseShift]
    cases h : c.phaseShiftData a u with
    | error e => exact hid
    | ok c' =>
      obtain ⟨r, _, rfl⟩ := phaseShiftData_ok h
      exact ⟨r, 1, MatchedD.mapVals _ (matched_shiftPts r), rfl, by simp⟩
  | filter f => cases hop

/-- **C06.** After any history of scalings, normalizations and phase shifts, the points are the constructed
ones moved by `get_phase_shift()` and scaled by `get_scale()`. -/
theorem C06_scale_phase_bookkeeping {iter : List (RawKey × RawVal K)} {units : Key} {b : Bool}
    {c : DataContainer K} {w : List Key} (h : DataContainer.init iter units b = .ok (c, w))
    (ops : List (DataContainer.Op K)) (hops : ∀ op ∈ ops, ScalesOrShifts op)
    {k : Key} {pts : List (K × K)} (hk : c.getPc k sRadians = .ok pts) :
    ∃ pts' a, (DataContainer.run c ops).getPc k sRadians = .ok pts' ∧
      (DataContainer.run c ops).getPhaseShift sRadians = .ok a ∧
      Matched (Moved a (DataContainer.run c ops).getScale) pts pts' := by
  have key : ∀ (ops : List (DataContainer.Op K)) (c : DataContainer K), (∀ op ∈ ops, ScalesOrShifts op) →
      ∃ a s, MatchedD a s c.data (DataContainer.run c ops).data ∧
        (DataContainer.run c ops).phaseShift = c.phaseShift + a ∧
        (DataContainer.run c ops).scale = c.scale * s := by
    intro ops
    induction ops with
    | nil => intro c _; exact ⟨0, 1, MatchedD.refl _, by simp [DataContainer.run], by simp [DataContainer.run]⟩
    | cons op ops ih =>
      intro c ho
      obtain ⟨a, s, h1, h2, h3⟩ := step_matchedD c op (ho op (by simp))
      obtain ⟨a', s', h1', h2', h3'⟩ := ih (DataContainer.step c op).1
        (fun o ho' => ho o (List.mem_cons_of_mem _ ho'))
      refine ⟨a + a', s * s', h1.trans h1', ?_, ?_⟩
      · simp only [DataContainer.run, List.foldl_cons] at h2' ⊢
        rw [h2', h2]; ring
      · simp only [DataContainer.run, List.foldl_cons] at h3' ⊢
        rw [h3', h3]; ring
  obtain ⟨a, s, h1, h2, h3⟩ := key ops c hops
  obtain ⟨_, _, _, _, _, _, hc, _⟩ := init_ok h
  have hps : c.phaseShift = 0 := by rw [hc]
  have hsc : c.scale = 1 := by rw [hc]
  rw [hps, zero_add] at h2
  rw [hsc, one_mul] at h3
  rw [getPc_radians] at hk
  obtain ⟨pts', hp', hm⟩ := h1.get hk
  refine ⟨pts', a, hp', ?_, ?_⟩
  · unfold DataContainer.getPhaseShift
    rw [h2]
    rfl
  · unfold DataContainer.getScale
    rw [h3]
    exact hm

/-! ### C07 -/

/-- **C07 fails**: subtracting the minimum and then scaling leaves the recorded offset unscaled, so
`scale * y + offset` no longer describes the data. -/
theorem C07_offset_not_rescaled :
    ∃ (c : DataContainer ℚ) (w : List Key),
      DataContainer.init [(.str kPP, .arr2 .float [[0, 1], [1, 3]])] sRadians false = .ok (c, w) ∧
      c.getPc kPP sRadians = .ok [(0, 1), (1, 3)] ∧
      (DataContainer.run c [.subtractMin, .scale 2]).getPc kPP sRadians = .ok [(0, 0), (1, 4)] ∧
      (DataContainer.run c [.subtractMin, .scale 2]).getScale = 2 ∧
      (DataContainer.run c [.subtractMin, .scale 2]).getOffset = some (-1) ∧
      (0 : ℚ) ≠ 2 * 1 + -1 := by
  refine ⟨⟨[(kPP, [(0, 1), (1, 3)])], 1, 0, some 0, false, sRadians⟩, [], ?_, rfl, ?_, ?_, ?_, by norm_num⟩
  · have h0 : pmod (0 : ℚ) = 0 := pmod_of_inTurn ⟨le_rfl, by have := HasPi.pi_pos (K := ℚ); linarith⟩
    have h1 : pmod (1 : ℚ) = 1 := pmod_of_inTurn ⟨by norm_num, by unfold HasPi.pi instHasPiRat; norm_num⟩
    have hs : sortPts [((0 : ℚ), (1 : ℚ)), (1, 3)] = [(0, 1), (1, 3)] := sortPts_of_sorted (by simp)
    rw [init_eq, if_pos (Or.inl rfl)]
    simp [Dict.ofPairs, Dict.set, checkIterable, checkVal, radDict, sRadians, sDegrees, Dict.mapVals,
      finalPts, dedupFrom, duplicateWarnings, h0, h1, hs]
  all_goals
    simp [DataContainer.run, step_subtractMin, step_scale, DataContainer.subtractMin, DataContainer.getMinval,
      DataContainer.minLoop, DataContainer.pyMin, bind, Except.bind, pure, Except.pure, DataContainer.scaleData,
      Dict.mapVals, DataContainer.getPc, checkAngleUnits, lower_sRadians, Dict.get, Dict.get?,
      DataContainer.getScale, DataContainer.getOffset]
    try norm_num
    try rfl

/-- **C07, the part that holds**: when all scalings precede the minimum subtractions, every value is
`get_scale() * y_original + get_offset()`.  Missing: a scaling after a subtraction, see
`C07_offset_not_rescaled`. -/
theorem C07_offset_bookkeeping_partial {iter : List (RawKey × RawVal K)} {units : Key} {b : Bool}
    {c : DataContainer K} {w : List Key} (h : DataContainer.init iter units b = .ok (c, w))
    (hne : c.getKeys ≠ []) (scales : List K) (n : ℕ)
    {k : Key} {pts : List (K × K)} (hk : c.getPc k sRadians = .ok pts) :
    let c' := DataContainer.run c (scales.map DataContainer.Op.scale ++ List.replicate n .subtractMin)
    ∃ o, c'.getOffset = some o ∧
      c'.getPc k sRadians = .ok (pts.map (fun p => (p.1, c'.getScale * p.2 + o))) := by
  have hr : c.Reachable := ⟨iter, units, b, c, w, [], h, rfl⟩
  obtain ⟨_, _, _, _, _, _, hc, _⟩ := init_ok h
  have hsc : c.scale = 1 := by rw [hc]
  have hof : c.offset = some 0 := by rw [hc]
  have hS : ∀ (scales : List K) (c : DataContainer K), ∃ s,
      (DataContainer.run c (scales.map DataContainer.Op.scale)).data = c.data.mapVals (scalePts s) ∧
      (DataContainer.run c (scales.map DataContainer.Op.scale)).scale = c.scale * s ∧
      (DataContainer.run c (scales.map DataContainer.Op.scale)).offset = c.offset := by
    intro scales
    induction scales with
    | nil =>
      intro c
      refine ⟨1, ?_, by simp [DataContainer.run], rfl⟩
      have : scalePts (1 : K) = fun v => v := by funext v; simp [scalePts]
      rw [this]; simp [DataContainer.run]
    | cons s scales ih =>
      intro c
      simp only [DataContainer.run, List.map_cons, List.foldl_cons] at ih ⊢
      obtain ⟨t, h1, h2, h3⟩ := ih (DataContainer.step c (.scale s)).1
      rw [h1, h2, h3, step_scale]
      cases hs : c.scaleData s with
      | error e => exact ⟨t, rfl, rfl, rfl⟩
      | ok c' =>
        obtain ⟨_, rfl⟩ := scaleData_ok.1 hs
        refine ⟨s * t, ?_, by simp [mul_assoc], rfl⟩
        simp only [Dict.mapVals_mapVals]
        congr 1
        funext v
        simp only [scalePts, List.map_map]
        apply List.map_congr_left
        intro p _
        simp only [Function.comp, Prod.mk.injEq, true_and]
        ring
  have hM : ∀ (n : ℕ) (c : DataContainer K), c.Reachable → c.data ≠ [] → ∃ m,
      (DataContainer.run c (List.replicate n .subtractMin)).data = c.data.mapVals (lowerPts m) ∧
      (DataContainer.run c (List.replicate n .subtractMin)).scale = c.scale ∧
      (DataContainer.run c (List.replicate n .subtractMin)).offset = c.offset.map (fun o => o - m) := by
    intro n
    induction n with
    | zero =>
      intro c _ _
      refine ⟨0, ?_, rfl, ?_⟩
      · have : lowerPts (0 : K) = fun v => v := by funext v; simp [lowerPts]
        rw [this]; simp [DataContainer.run]
      · cases hh : c.offset <;> simp [DataContainer.run, hh]
    | succ n ih =>
      intro c hc hd
      rcases getMinval_spec (reachable_ne_nil hc) with ⟨h0, _⟩ | ⟨k, m, hm, _⟩
      · exact absurd h0 hd
      · have hok : c.subtractMin = .ok { c with
            data := c.data.mapVals (lowerPts m), offset := c.offset.map (fun o => o - m) } := by
          unfold DataContainer.subtractMin
          rw [hm]
          rfl
        have hst : (DataContainer.step c .subtractMin).1 = { c with
            data := c.data.mapVals (lowerPts m), offset := c.offset.map (fun o => o - m) } := by
          rw [step_subtractMin, hok]
        have hr' := reachable_step hc .subtractMin
        rw [hst] at hr'
        obtain ⟨m', h1, h2, h3⟩ := ih _ hr' (by
          intro hh
          apply hd
          simpa [Dict.mapVals] using hh)
        simp only [DataContainer.run, List.replicate_succ, List.foldl_cons] at h1 h2 h3 ⊢
        rw [hst, h1, h2, h3]
        refine ⟨m + m', ?_, rfl, ?_⟩
        · simp only [Dict.mapVals_mapVals]
          congr 1
          funext v
          simp only [lowerPts, List.map_map]
          apply List.map_congr_left
          intro p _
          simp only [Function.comp, Prod.mk.injEq, true_and]
          ring
        · cases c.offset with
          | none => rfl
          | some o => simp only [Option.map_some, Option.some.injEq]; ring
  intro c'
  have hrun : c' = DataContainer.run (DataContainer.run c (scales.map DataContainer.Op.scale))
      (List.replicate n .subtractMin) := by
    simp [c', DataContainer.run]
  obtain ⟨s, h1, h2, h3⟩ := hS scales c
  have hr1 : (DataContainer.run c (scales.map DataContainer.Op.scale)).Reachable :=
    ⟨iter, units, b, c, w, _, h, rfl⟩
  obtain ⟨m, h4, h5, h6⟩ := hM n _ hr1 (by
    rw [h1]
    intro hh
    apply hne
    unfold DataContainer.getKeys
    have : c.data = [] := by simpa [Dict.mapVals] using hh
    rw [this]; rfl)
  rw [← hrun] at h4 h5 h6
  rw [h1, Dict.mapVals_mapVals] at h4
  rw [h2, hsc, one_mul] at h5
  rw [h3, hof] at h6
  refine ⟨0 - m, h6, ?_⟩
  rw [getPc_radians] at hk ⊢
  rw [Dict.get_ok_iff] at hk ⊢
  rw [h4, Dict.get?_mapVals, hk]
  simp only [Option.map_some, Option.some.injEq, DataContainer.getScale, h5, lowerPts, scalePts, List.map_map]
  apply List.map_congr_left
  intro p _
  simp only [Function.comp, Prod.mk.injEq, true_and]
  ring

/-! ### C08 -/

theorem shiftPts_shiftPts_perm (a b : K) (v : List (K × K)) :
    (shiftPts b (shiftPts a v)).Perm (shiftPts (a + b) v) := by
  unfold shiftPts
  refine (sortPts_perm _).trans ((((sortPts_perm _).map _).trans ?_).trans (sortPts_perm _).symm)
  rw [List.map_map]
  apply List.Perm.of_eq
  apply List.map_congr_left
  intro p _
  simp only [Function.comp, pmod_add, add_assoc]

theorem shiftPts_perm_of_angleEq {a b : K} (h : AngleEq a b) (v : List (K × K)) :
    shiftPts a v = shiftPts b v := by
  unfold shiftPts
  congr 1
  apply List.map_congr_left
  intro p _
  have : AngleEq (p.1 + a) (p.1 + b) := by
    have := h.add_right p.1
    rwa [add_comm a, add_comm b] at this
  rw [pmod_eq_of_angleEq this]

theorem shiftPts_zero {v : List (K × K)} (h : NormalForm v) : shiftPts 0 v = v := by
  unfold shiftPts
  have : v.map (fun p => (pmod (p.1 + 0), p.2)) = v := by
    conv_rhs => rw [← List.map_id v]
    apply List.map_congr_left
    intro p hp
    simp only [add_zero, id, pmod_of_inTurn (h.2.1 p hp)]
  rw [this]
  exact sortPts_of_sorted h.2.2

theorem shiftPts_nodup {a : K} {v : List (K × K)} (h : NormalForm v) (hd : (v.map Prod.fst).Nodup) :
    ((shiftPts a v).map Prod.fst).Nodup := by
  unfold shiftPts
  rw [((sortPts_perm _).map Prod.fst).nodup_iff, List.map_map]
  rw [List.Nodup, List.pairwise_map] at hd ⊢
  have h2 : v.Pairwise (fun p q => p ∈ v ∧ q ∈ v) := by
    rw [List.pairwise_iff_forall_sublist]
    intro x y hxy
    exact ⟨hxy.subset (by simp), hxy.subset (by simp)⟩
  refine (hd.and h2).imp ?_
  rintro p q ⟨hne, hp, hq⟩ he
  apply hne
  simp only [Function.comp] at he
  have h3 := (pmod_eq_iff.1 he).add_right (-a)
  simp only [add_neg_cancel_right] at h3
  exact (h.2.1 p hp).eq_of_angleEq (h.2.1 q hq) h3

/-- **C08.** Two phase shifts compose: the container reached by `a` then `b` has, key by key, the same points as
the one reached by `a + b`; as arrays they are equal when the angles are pairwise distinct. -/
theorem C08_phase_shift_compose {c : DataContainer K} (hc : c.Reachable) (a b : K) (units : Key)
    {c₁ c₂ : DataContainer K} (h₁ : c.phaseShiftData a units = .ok c₁)
    (h₂ : c₁.phaseShiftData b units = .ok c₂) :
    ∃ c₃, c.phaseShiftData (a + b) units = .ok c₃ ∧ c₂.phaseShift = c₃.phaseShift ∧
      c₂.getKeys = c₃.getKeys ∧ c₂.scale = c₃.scale ∧ c₂.offset = c₃.offset ∧
      ∀ k pts, c.getPc k sRadians = .ok pts →
        ∃ p₂ p₃, c₂.getPc k sRadians = .ok p₂ ∧ c₃.getPc k sRadians = .ok p₃ ∧ p₂.Perm p₃ ∧
          ((pts.map Prod.fst).Nodup → p₂ = p₃) := by
  obtain ⟨ra, ha, rfl⟩ := phaseShiftData_ok h₁
  obtain ⟨rb, hb, rfl⟩ := phaseShiftData_ok h₂
  have hab : DataContainer.angleOf (a + b) units = .ok (ra + rb) := by
    rcases angleOf_ok ha with ⟨hu, rfl⟩ | ⟨hu, rfl⟩ <;> rcases angleOf_ok hb with ⟨hu', rfl⟩ | ⟨hu', rfl⟩
    · simp [DataContainer.angleOf, hu, checkAngleUnits, bind, Except.bind, pure, Except.pure, sRadians, sDegrees]
    · rw [hu] at hu'; exact absurd hu' (by decide)
    · rw [hu] at hu'; exact absurd hu' (by decide)
    · simp [DataContainer.angleOf, hu, checkAngleUnits, bind, Except.bind, pure, Except.pure, sRadians, sDegrees,
        deg2rad, add_mul]
  refine ⟨_, phaseShiftData_of_angleOf hab, by simp [add_assoc], by simp [DataContainer.getKeys], rfl, rfl, ?_⟩
  intro k pts hk
  rw [getPc_radians, Dict.get_ok_iff] at hk
  refine ⟨shiftPts rb (shiftPts ra pts), shiftPts (ra + rb) pts, ?_, ?_, shiftPts_shiftPts_perm _ _ _, ?_⟩
  · rw [getPc_radians, Dict.get_ok_iff, Dict.get?_mapVals, Dict.get?_mapVals, hk]; rfl
  · rw [getPc_radians, Dict.get_ok_iff, Dict.get?_mapVals, hk]; rfl
  · intro hnd
    have hn := (reachable_normalForm hc).2 (k, pts) (Dict.mem_of_get? hk)
    refine eq_of_perm_sorted (shiftPts_shiftPts_perm _ _ _) (sortPts_sorted _) (sortPts_sorted _) ?_
    exact shiftPts_nodup (shiftPts_normalForm hn.1) (shiftPts_nodup hn hnd)

/-- **C08.** A shift by `a` followed by a shift by `-a` restores the points (and, for distinct angles, the
arrays). -/
theorem C08_phase_shift_inverse {c : DataContainer K} (hc : c.Reachable) (a : K) (units : Key)
    {c₁ c₂ : DataContainer K} (h₁ : c.phaseShiftData a units = .ok c₁)
    (h₂ : c₁.phaseShiftData (-a) units = .ok c₂) :
    c₂.phaseShift = c.phaseShift ∧ c₂.getKeys = c.getKeys ∧
      ∀ k pts, c.getPc k sRadians = .ok pts →
        ∃ p₂, c₂.getPc k sRadians = .ok p₂ ∧ p₂.Perm pts ∧ ((pts.map Prod.fst).Nodup → p₂ = pts) := by
  obtain ⟨c₃, h3, e1, e2, _, _, e5⟩ := C08_phase_shift_compose hc a (-a) units h₁ h₂
  rw [add_neg_cancel] at h3
  obtain ⟨r, hr, rfl⟩ := phaseShiftData_ok h3
  have hr0 : r = 0 := by
    rcases angleOf_ok hr with ⟨_, rfl⟩ | ⟨_, rfl⟩
    · rfl
    · simp [deg2rad]
  subst hr0
  refine ⟨by simpa using e1, by simpa [DataContainer.getKeys] using e2, ?_⟩
  intro k pts hk
  obtain ⟨p₂, p₃, h4, h5, h6, h7⟩ := e5 k pts hk
  have hk' := hk
  rw [getPc_radians, Dict.get_ok_iff] at hk'
  have hn := (reachable_normalForm hc).2 (k, pts) (Dict.mem_of_get? hk')
  rw [getPc_radians, Dict.get_ok_iff, Dict.get?_mapVals, hk', Option.map_some, shiftPts_zero hn] at h5
  cases h5
  exact ⟨p₂, h4, h6, h7⟩

/-- **C08.** A shift in degrees is the shift by `π/180` times the angle in radians, and whole turns are
invisible in the data. -/
theorem C08_phase_shift_units_and_turns {c : DataContainer K} (hc : c.Reachable) (a : K) (n : ℤ) :
    c.phaseShiftData a sDegrees = c.phaseShiftData (HasPi.pi / 180 * a) sRadians ∧
    ∃ c', c.phaseShiftData (n * (2 * HasPi.pi)) sRadians = .ok c' ∧ c'.getItems sRadians = c.getItems sRadians := by
  constructor
  · have h1 : DataContainer.angleOf a sDegrees = .ok (HasPi.pi / 180 * a) := by
      have : DataContainer.angleOf a sDegrees = .ok (deg2rad a) := rfl
      rw [this, deg2rad, mul_comm]
    have h2 : DataContainer.angleOf (HasPi.pi / 180 * a) sRadians = .ok (HasPi.pi / 180 * a) := rfl
    rw [phaseShiftData_of_angleOf h1, phaseShiftData_of_angleOf h2]
  · have h2 : DataContainer.angleOf ((n : K) * (2 * HasPi.pi)) sRadians = .ok ((n : K) * (2 * HasPi.pi)) := rfl
    refine ⟨_, phaseShiftData_of_angleOf h2, ?_⟩
    rw [getItems_radians, getItems_radians]
    simp only [Except.ok.injEq]
    conv_rhs => rw [← Dict.mapVals_id c.data]
    apply Dict.mapVals_congr
    intro it hit
    have hn := (reachable_normalForm hc).2 it hit
    have h0 : AngleEq ((n : K) * (2 * HasPi.pi)) 0 := ⟨n, by simp⟩
    rw [shiftPts_perm_of_angleEq h0, shiftPts_zero hn]

/-! ### C09 -/

/-- **C09.** `get_maxval` on every reachable container. -/
theorem C09_maxval {c : DataContainer K} (hc : c.Reachable) :
    ∃ items, c.getItems sRadians = .ok items ∧
      ((items = [] ∧ c.getMaxval = .ok none) ∨
       ∃ k m, c.getMaxval = .ok (some (k, m)) ∧ FirstExtremum (fun x y => x > y) items k m) :=
  ⟨c.data, getItems_radians c, getMaxval_spec (reachable_ne_nil hc)⟩

/-- **C09.** `get_minval` on every reachable container. -/
theorem C09_minval {c : DataContainer K} (hc : c.Reachable) :
    ∃ items, c.getItems sRadians = .ok items ∧
      ((items = [] ∧ c.getMinval = .ok none) ∨
       ∃ k m, c.getMinval = .ok (some (k, m)) ∧ FirstExtremum (fun x y => x < y) items k m) :=
  ⟨c.data, getItems_radians c, getMinval_spec (reachable_ne_nil hc)⟩

/-- **C09.** The queries for one combination. -/
theorem C09_pc_extrema {c : DataContainer K} (hc : c.Reachable) (k : Key) :
    (k ∈ c.getKeys → ∃ pts hi lo, c.getPc k sRadians = .ok pts ∧ c.getPcMaxval k = .ok hi ∧
      c.getPcMinval k = .ok lo ∧ (∃ p ∈ pts, p.2 = hi) ∧ (∀ p ∈ pts, p.2 ≤ hi) ∧
      (∃ p ∈ pts, p.2 = lo) ∧ (∀ p ∈ pts, lo ≤ p.2)) ∧
    (k ∉ c.getKeys → c.getPcMaxval k = .error .keyError ∧ c.getPcMinval k = .error .keyError) := by
  constructor
  · intro hk
    obtain ⟨pts, hp⟩ := Dict.mem_keys.1 hk
    have hg := get_of_mem (reachable_normalForm hc).1 hp
    have hne : pts.map Prod.snd ≠ [] := by
      rw [Ne, List.map_eq_nil_iff]; exact reachable_ne_nil hc _ hp
    obtain ⟨hi, h1⟩ := pyMax_ne_nil hne
    obtain ⟨lo, h2⟩ := pyMin_ne_nil hne
    obtain ⟨h3, h4⟩ := pyMax_spec h1
    obtain ⟨h5, h6⟩ := pyMin_spec h2
    refine ⟨pts, hi, lo, hg, ?_, ?_, ?_, ?_, ?_, ?_⟩
    · simp [DataContainer.getPcMaxval, hg, bind, Except.bind, h1]
    · simp [DataContainer.getPcMinval, hg, bind, Except.bind, h2]
    · simpa using h3
    · exact fun p hp => h4 _ (List.mem_map.2 ⟨p, hp, rfl⟩)
    · simpa using h5
    · exact fun p hp => h6 _ (List.mem_map.2 ⟨p, hp, rfl⟩)
  · intro hk
    have := Dict.get_error_iff.2 ⟨hk, (rfl : Err.keyError = Err.keyError)⟩
    simp [DataContainer.getPcMaxval, DataContainer.getPcMinval, this, bind, Except.bind]

/-! ### C10 -/

theorem lowerPts_eq (m : K) : lowerPts m = mapY (fun y => y - m) := rfl
theorem scalePts_eq (s : K) : scalePts s = mapY (fun y => s * y) := rfl

/-- **C10.** `subtract_min` on a non-empty container: succeeds, subtracts one number from all values, makes the
minimum exactly zero, and a second call changes nothing. -/
theorem C10_subtract_min {c : DataContainer K} (hc : c.Reachable) (hne : c.getKeys ≠ []) :
    ∃ c' m k, c.subtractMin = .ok c' ∧ c'.getMinval = .ok (some (k, 0)) ∧
      c'.getKeys = c.getKeys ∧ c'.phaseShift = c.phaseShift ∧ c'.scale = c.scale ∧
      (∀ k pts, c.getPc k sRadians = .ok pts →
        c'.getPc k sRadians = .ok (pts.map (fun p => (p.1, p.2 - m)))) ∧
      c'.subtractMin = .ok c' := by
  have hd : c.data ≠ [] := by
    intro h; apply hne; unfold DataContainer.getKeys; rw [h]; rfl
  rcases getMinval_spec (reachable_ne_nil hc) with ⟨h0, _⟩ | ⟨k, m, hm, _⟩
  · exact absurd h0 hd
  have hok : c.subtractMin = .ok { c with
      data := c.data.mapVals (lowerPts m), offset := c.offset.map (fun o => o - m) } := by
    unfold DataContainer.subtractMin
    rw [hm]
    rfl
  have hmono : StrictMono (fun y : K => y - m) := fun x y h => sub_lt_sub_right h m
  have hmin : DataContainer.minLoop none (c.data.mapVals (lowerPts m)) = .ok (some (k, 0)) := by
    have := minLoop_mapY hmono none c.data
    unfold DataContainer.getMinval at hm
    rw [hm] at this
    rw [lowerPts_eq]
    simpa [Except.map] using this
  refine ⟨_, m, k, hok, hmin, by simp [DataContainer.getKeys], rfl, rfl, ?_, ?_⟩
  · intro k pts hk
    rw [getPc_radians, Dict.get_ok_iff] at hk ⊢
    rw [Dict.get?_mapVals, hk]; rfl
  · unfold DataContainer.subtractMin DataContainer.getMinval
    simp only [hmin, bind, Except.bind, pure, Except.pure, Except.ok.injEq, DataContainer.mk.injEq, true_and,
      Dict.mapVals_mapVals, sub_zero]
    refine ⟨?_, ?_⟩
    · apply Dict.mapVals_congr
      intro it _
      simp [lowerPts]
    · cases c.offset <;> simp

/-- **C10.** `normalize_data d` (`d > 0`) on data with positive maximum: the maximum becomes exactly `d`, in the
same combination as before. -/
theorem C10_normalize {c : DataContainer K} {k : Key} {m d : K}
    (hmax : c.getMaxval = .ok (some (k, m))) (hm : 0 < m) (hd : 0 < d) :
    ∃ c', c.normalizeData d = .ok c' ∧ c'.getMaxval = .ok (some (k, d)) ∧ c'.getKeys = c.getKeys ∧
      ∀ k pts, c.getPc k sRadians = .ok pts →
        c'.getPc k sRadians = .ok (pts.map (fun p => (p.1, d / m * p.2))) := by
  have hs : 0 < d / m := div_pos hd hm
  have hok := (scaleData_ok (c := c) (s := d / m)).2 ⟨hs.le, rfl⟩
  have hn : c.normalizeData d = c.scaleData (d / m) := by
    unfold DataContainer.normalizeData
    rw [hmax]
    simp [bind, Except.bind, hm.ne']
  have hmono : StrictMono (fun y : K => d / m * y) := fun x y h => mul_lt_mul_of_pos_left h hs
  refine ⟨_, hn.trans hok, ?_, by simp [DataContainer.getKeys], ?_⟩
  · have := maxLoop_mapY hmono none c.data
    unfold DataContainer.getMaxval at hmax ⊢
    rw [hmax] at this
    rw [scalePts_eq]
    have hdm : d / m * m = d := div_mul_cancel₀ d hm.ne'
    simpa [Except.map, hdm] using this
  · intro k pts hk
    rw [getPc_radians, Dict.get_ok_iff] at hk ⊢
    rw [Dict.get?_mapVals, hk]; rfl

/-! ### C11 -/

/-- **C11.** A rejected `scale_data`, `normalize_data`, `phase_shift_data` or `subtract_min` call leaves the
instance exactly as it was, and `scale_data`/`phase_shift_data` are rejected (with `ValueError`) only for a
negative factor / an unknown unit; `subtract_min` is never rejected; `normalize_data` on data whose maximum is
not zero is rejected only for a negative factor. -/
theorem C11_rejected_operations {c : DataContainer K} (hc : c.Reachable) :
    (∀ op e, (∀ f, op ≠ DataContainer.Op.filter f) → (DataContainer.step c op).2 = some e →
      (DataContainer.step c op).1 = c) ∧
    (∀ s, (DataContainer.step c (.scale s)).2 = if s < 0 then some .valueError else none) ∧
    (∀ a u, (DataContainer.step c (.phaseShift a u)).2 =
      if lower u = sRadians ∨ lower u = sDegrees then none else some .valueError) ∧
    (DataContainer.step c .subtractMin).2 = none ∧
    (∀ k m d, c.getMaxval = .ok (some (k, m)) → m ≠ 0 →
      (DataContainer.step c (.normalize d)).2 = if d / m < 0 then some .valueError else none) := by
  refine ⟨?_, ?_, ?_, ?_, ?_⟩
  · intro op e hop he
    cases op with
    | scale s =>
      rw [step_scale] at he ⊢
      cases h : c.scaleData s with
      | error e => rfl
      | ok c' => rw [h] at he; cases he
    | subtractMin =>
      rw [step_subtractMin] at he ⊢
      cases h : c.subtractMin with
      | error e => rfl
      | ok c' => rw [h] at he; cases he
    | normalize d =>
      rw [step_normalize] at he ⊢
      cases h : c.normalizeData d with
      | error e => rfl
      | ok c' => rw [h] at he; cases he
    | phaseShift a u =>
      rw [step_phaseShift] at he ⊢
      cases h : c.phaseShiftData a u with
      | error e => rfl
      | ok c' => rw [h] at he; cases he
    | filter f => exact absurd rfl (hop f)
  · intro s
    rw [step_scale]
    unfold DataContainer.scaleData
    by_cases hs : s < 0
    · simp [hs]
    · simp [hs]
  · intro a u
    rw [step_phaseShift]
    by_cases hu : lower u = sRadians ∨ lower u = sDegrees
    · rw [if_pos hu]
      cases h : c.phaseShiftData a u with
      | ok c' => rfl
      | error e =>
        exfalso
        cases ha : DataContainer.angleOf a u with
        | error e' => exact angleOf_error.1 ⟨e', ha⟩ hu
        | ok r => rw [phaseShiftData_of_angleOf ha] at h; cases h
    · rw [if_neg hu]
      unfold DataContainer.phaseShiftData DataContainer.angleOf
      rw [checkAngleUnits_error.2 ⟨hu, rfl⟩]
      rfl
  · rw [step_subtractMin]
    unfold DataContainer.subtractMin
    rcases getMinval_spec (reachable_ne_nil hc) with ⟨_, hm⟩ | ⟨k, m, hm, _⟩
    · rw [hm]; rfl
    · rw [hm]; rfl
  · intro k m d hm hm0
    rw [step_normalize]
    unfold DataContainer.normalizeData
    rw [hm]
    simp only [bind, Except.bind, hm0, if_false, DataContainer.scaleData]
    by_cases hs : d / m < 0
    · simp [hs]
    · simp [hs]

/-! ### C12 -/

theorem rad2deg_deg2rad (x : K) : deg2rad (rad2deg x) = x := by
  unfold deg2rad rad2deg
  have := (HasPi.pi_pos (K := K)).ne'
  field_simp

/-- **C12.** The degree getters return the radian data with every angle multiplied by 180/π, all in [0, 360). -/
theorem C12_degrees {c : DataContainer K} (hc : c.Reachable) :
    ∃ items, c.getItems sRadians = .ok items ∧
      c.getItems sDegrees = .ok (items.map (fun it => (it.1, it.2.map (fun p => (p.1 * (180 / HasPi.pi), p.2))))) ∧
      c.getValues sRadians = .ok (items.map Prod.snd) ∧
      c.getValues sDegrees = .ok (items.map (fun it => it.2.map (fun p => (p.1 * (180 / HasPi.pi), p.2)))) ∧
      (∀ k pts, c.getPc k sRadians = .ok pts ↔ (k, pts) ∈ items) ∧
      (∀ k pts, c.getPc k sRadians = .ok pts →
        c.getPc k sDegrees = .ok (pts.map (fun p => (p.1 * (180 / HasPi.pi), p.2)))) ∧
      (∀ it ∈ items, ∀ p ∈ it.2, 0 ≤ p.1 * (180 / HasPi.pi) ∧ p.1 * (180 / HasPi.pi) < 360) := by
  have hwf := (reachable_normalForm hc).1
  refine ⟨c.data, rfl, rfl, rfl, ?_, ?_, ?_, ?_⟩
  · have : c.getValues sDegrees = .ok c.dataDegrees.values := rfl
    rw [this, DataContainer.dataDegrees, Dict.values_mapVals, Dict.values, List.map_map]
    rfl
  · intro k pts
    rw [getPc_radians, Dict.get_ok_iff, Dict.get?_eq_some_iff hwf]
  · intro k pts hk
    rw [getPc_radians, Dict.get_ok_iff] at hk
    have : c.getPc k sDegrees = Dict.get c.dataDegrees k := rfl
    rw [this, Dict.get_ok_iff, DataContainer.dataDegrees, Dict.get?_mapVals, hk]
    rfl
  · intro it hit p hp
    have hpi := HasPi.pi_pos (K := K)
    obtain ⟨h1, h2⟩ := ((reachable_normalForm hc).2 it hit).2.1 p hp
    constructor
    · positivity
    · rw [← mul_div_assoc, div_lt_iff₀ hpi]
      nlinarith

/-- The input array made of an angle row and a value row. -/
def asInput (items : List (Key × List (K × K))) : List (RawKey × RawVal K) :=
  items.map (fun it => (.str it.1, .arr2 .float [it.2.map Prod.fst, it.2.map Prod.snd]))

theorem rebuild_aux {c : DataContainer K} (hc : c.Reachable) (units : Key)
    (hu : units = sRadians ∨ units = sDegrees) {items : List (Key × List (K × K))}
    (hit : c.getItems units = .ok items)
    (hd : ∀ k pts, c.getPc k sRadians = .ok pts → (pts.map Prod.fst).Nodup) :
    ∃ c', DataContainer.init (asInput items) units false = .ok (c', []) ∧
      c'.getItems sRadians = c.getItems sRadians := by
  obtain ⟨hwf, hnf⟩ := reachable_normalForm hc
  -- the items of the rebuilt dictionary, already in radians
  have hrad : ∃ g : K → K, items = c.data.mapVals (fun v => v.map (fun p => (g p.1, p.2))) ∧
      (∀ x, rad units (g x) = x) := by
    rcases hu with rfl | rfl
    · refine ⟨id, ?_, fun x => by simp [rad, sRadians, sDegrees]⟩
      rw [getItems_radians] at hit
      cases hit
      simp
    · refine ⟨rad2deg, ?_, fun x => ?_⟩
      · have : c.getItems sDegrees = .ok c.dataDegrees := rfl
        rw [this] at hit
        cases hit
        rfl
      · have := rad2deg_deg2rad x
        simpa [rad, deg2rad] using this
  obtain ⟨g, rfl, hg⟩ := hrad
  have hkeys : (asInput (c.data.mapVals (fun v => v.map (fun p => (g p.1, p.2))))).map Prod.fst
      = (Dict.keys c.data).map RawKey.str := by
    simp [asInput, Dict.mapVals, Dict.keys, Function.comp_def]
  have hnd : ((asInput (c.data.mapVals (fun v => v.map (fun p => (g p.1, p.2))))).map Prod.fst).Nodup := by
    rw [hkeys]
    exact List.Nodup.map (fun a b h => by cases h; rfl) hwf
  have hof := Dict.ofPairs_of_nodup hnd
  have hck : ∀ d : Dict Key (List (K × K)), checkIterable (asInput (d.mapVals (fun v => v.map (fun p => (g p.1, p.2)))))
      = .ok (d.mapVals (fun v => ⟨false, v.map (fun p => (g p.1, p.2))⟩)) := by
    intro d
    induction d with
    | nil => rfl
    | cons it d ih =>
      obtain ⟨k, v⟩ := it
      simp only [asInput, Dict.mapVals_cons, List.map_cons, checkIterable] at ih ⊢
      rw [ih]
      have : checkVal (RawVal.arr2 DType.float [List.map Prod.fst (List.map (fun p : K × K => (g p.1, p.2)) v),
          List.map Prod.snd (List.map (fun p : K × K => (g p.1, p.2)) v)])
          = some ⟨false, v.map (fun p => (g p.1, p.2))⟩ := by
        simp only [checkVal, List.length_map, ne_eq, reduceCtorEq, not_false_eq_true, and_self, if_true,
          decide_false, Option.some.injEq, NArr.mk.injEq, true_and]
        rw [List.zip_map', ]
        simp
      rw [this]
  have hrd : radDict units (c.data.mapVals (fun v => (⟨false, v.map (fun p => (g p.1, p.2))⟩ : NArr K)))
      = c.data.mapVals (fun v => (⟨false, v⟩ : NArr K)) := by
    rw [radDict_eq, Dict.mapVals_mapVals]
    apply Dict.mapVals_congr
    intro it _
    have hgx : ∀ x, rad units (g x) = x := hg
    unfold radArr
    unfold rad at hgx
    by_cases hdeg : units = sDegrees
    · simp only [hdeg, if_true, List.map_map, NArr.mk.injEq, true_and] at hgx ⊢
      conv_rhs => rw [← List.map_id it.2]
      apply List.map_congr_left
      intro p _
      have := hgx p.1
      simp only [Function.comp, deg2rad, id, this]
    · simp only [hdeg, if_false, NArr.mk.injEq, true_and] at hgx ⊢
      conv_rhs => rw [← List.map_id it.2]
      apply List.map_congr_left
      intro p _
      simp only [hgx, id]
  have hdist : ∀ it ∈ c.data, DistinctAngles it.2 := by
    intro it hit
    have h1 := hd it.1 it.2 (get_of_mem hwf hit)
    rw [List.Nodup, List.pairwise_map] at h1
    have h2 : it.2.Pairwise (fun p q => p ∈ it.2 ∧ q ∈ it.2) := by
      rw [List.pairwise_iff_forall_sublist]
      intro x y hxy
      exact ⟨hxy.subset (by simp), hxy.subset (by simp)⟩
    refine (h1.and h2).imp ?_
    rintro p q ⟨hne, hp, hq⟩ he
    exact hne (((hnf it hit).2.1 p hp).eq_of_angleEq ((hnf it hit).2.1 q hq) he)
  have hfin : ∀ it ∈ c.data, finalPts (⟨false, it.2⟩ : NArr K) = it.2 := by
    intro it hit
    unfold finalPts
    simp only [castTo_false]
    rw [dedup_of_distinct (hdist it hit)]
    have := shiftPts_zero (hnf it hit)
    simpa [shiftPts] using this
  rw [init_eq, if_pos hu, hof, hck]
  simp only [Bool.false_eq_true, if_false]
  rw [hrd, if_pos]
  · refine ⟨⟨c.data, 1, 0, some 0, false, units⟩, ?_, ?_⟩
    · simp only [Except.ok.injEq, Prod.mk.injEq, DataContainer.mk.injEq, and_true, Dict.mapVals_mapVals]
      refine ⟨?_, ?_⟩
      · conv_rhs => rw [← Dict.mapVals_id c.data]
        exact Dict.mapVals_congr hfin
      · unfold duplicateWarnings
        rw [List.map_eq_nil_iff, List.filter_eq_nil_iff]
        intro it hit
        obtain ⟨v, hv, he⟩ := Dict.mem_mapVals.1 (show (it.1, it.2) ∈ _ from hit)
        rw [← he]
        simp [dedup_of_distinct (hdist _ hv)]
    · rfl
  · intro it hit
    obtain ⟨v, hv, he⟩ := Dict.mem_mapVals.1 (show (it.1, it.2) ∈ _ from hit)
    rw [← he]
    exact (hnf _ hv).1

/-- **C12.** Rebuilding a container from its own items, in either unit, reproduces its data (and issues no
warning), provided its angles are distinct. -/
theorem C12_rebuild {c : DataContainer K} (hc : c.Reachable)
    (hd : ∀ k pts, c.getPc k sRadians = .ok pts → (pts.map Prod.fst).Nodup)
    (units : Key) (hu : units = sRadians ∨ units = sDegrees) :
    ∃ items c', c.getItems units = .ok items ∧
      DataContainer.init
        (items.map (fun it => (.str it.1, .arr2 .float [it.2.map Prod.fst, it.2.map Prod.snd])))
        units false = .ok (c', []) ∧
      c'.getItems sRadians = c.getItems sRadians := by
  have : ∃ items, c.getItems units = .ok items := by
    rcases hu with rfl | rfl
    · exact ⟨_, rfl⟩
    · exact ⟨_, rfl⟩
  obtain ⟨items, hit⟩ := this
  obtain ⟨c', h1, h2⟩ := rebuild_aux hc units hu hit hd
  exact ⟨items, c', hit, h1, h2⟩

/-! ### Concrete cases -/

/-- **C06.** What the operations record: an accepted `scale_data(s)` multiplies the recorded scale by `s`, an
accepted `normalize_data(d)` by `d / max`, and an accepted `phase_shift_data(a, units)` adds `a` (in radians) to the
recorded phase shift. -/
theorem C06_recorded {c : DataContainer K} :
    (∀ s, 0 ≤ s → (DataContainer.step c (.scale s)).1.getScale = c.getScale * s) ∧
    (∀ d k m, c.getMaxval = .ok (some (k, m)) → m ≠ 0 → 0 ≤ d / m →
      (DataContainer.step c (.normalize d)).1.getScale = c.getScale * (d / m)) ∧
    (∀ a u p, lower u = sRadians ∨ lower u = sDegrees → c.getPhaseShift sRadians = .ok p →
      (DataContainer.step c (.phaseShift a u)).1.getPhaseShift sRadians = .ok (p + rad (lower u) a)) := by
  refine ⟨?_, ?_, ?_⟩
  · intro s hs
    rw [step_scale]
    simp [DataContainer.scaleData, not_lt.2 hs, DataContainer.getScale]
  · intro d k m hm hm0 hd
    rw [step_normalize]
    unfold DataContainer.normalizeData
    simp [hm, hm0, bind, Except.bind, DataContainer.scaleData, not_lt.2 hd, DataContainer.getScale]
  · intro a u p hu hp
    have hp' : c.phaseShift = p := by
      have : c.getPhaseShift sRadians = .ok c.phaseShift := rfl
      rw [this] at hp
      cases hp; rfl
    rw [step_phaseShift]
    unfold DataContainer.phaseShiftData DataContainer.angleOf checkAngleUnits rad
    rw [if_pos hu, ← hp']
    by_cases hd : lower u = sDegrees
    · simp only [hd, if_true, bind, Except.bind, pure, Except.pure]
      rfl
    · simp only [hd, if_false, bind, Except.bind, pure, Except.pure]
      rfl

section Examples

/-- A reachable container with two combinations and a non-trivial history. -/
example : ∃ c : DataContainer ℚ, c.Reachable ∧ c.getKeys = [kPP, kSP] := by
  obtain ⟨c, w, h⟩ := (C04_acceptance exIter sRadians false).1.2 (exIter_acceptable false)
  have h1 := (C02_construction_preserves_points h).1
  have hk : c.getKeys = [kPP, kSP] := by
    have : firstOcc (exIter.map Prod.fst) = [kPP, kSP].map RawKey.str := by decide
    rw [this] at h1
    exact List.map_injective_iff.2 (fun a b h => by cases h; rfl) h1
  refine ⟨DataContainer.run c [.phaseShift 30 sDegrees, .scale (-1), .subtractMin, .normalize 2],
    ⟨exIter, sRadians, false, c, w, _, h, rfl⟩, ?_⟩
  rw [(C05_normal_form_invariant h _).1, hk]

/-- The operations of C06 and the hypotheses of `C10_normalize` on a concrete container. -/
example : (∀ op ∈ ([.scale 2, .normalize 3, .phaseShift 90 sDegrees] : List (DataContainer.Op ℚ)),
    ScalesOrShifts op) ∧
    (⟨[(kPP, [(0, 1), (1, 3)]), (kSS, [(2, 5)])], 1, 0, some 0, false, sRadians⟩ : DataContainer ℚ).getMaxval
      = .ok (some (kSS, 5)) := by
  constructor
  · intro op hop
    simp only [List.mem_cons, List.not_mem_nil, or_false] at hop
    rcases hop with rfl | rfl | rfl <;> trivial
  · norm_num [DataContainer.getMaxval, DataContainer.maxLoop, DataContainer.pyMax, bind, Except.bind]

end Examples

end Shgpy
