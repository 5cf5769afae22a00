import Verif.Props.DataOps

/-!
# Properties C06 (what is not recorded), C10 (as calls) and C72 (`filter`)
-/

set_option linter.unusedSectionVars false
set_option linter.unusedSimpArgs false

namespace Shgpy
open Spec

variable {K : Type} [Field K] [LinearOrder K] [IsStrictOrderedRing K] [FloorRing K] [HasPi K]

namespace Spec

/-- The points `pts'` have the angles of `pts`, and their values are `f` of the values of `pts`. -/
def FilteredBy (f : List K → Except Err (List K)) (pts pts' : List (K × K)) : Prop :=
  pts'.map Prod.fst = pts.map Prod.fst ∧ f (pts.map Prod.snd) = .ok (pts'.map Prod.snd)

/-- The function rejects the values of `pts` with exception `e`, or returns another number of values. -/
def FilterFails (f : List K → Except Err (List K)) (pts : List (K × K)) (e : Err) : Prop :=
  f (pts.map Prod.snd) = .error e ∨
    ∃ ys, f (pts.map Prod.snd) = .ok ys ∧ ys.length ≠ pts.length ∧ e = .valueError

end Spec

private theorem okBind {α β : Type} (a : α) (f : α → Except Err β) : ((Except.ok a : Except Err α) >>= f) = f a := rfl

/-- Where the loop of `filter` stops. -/
theorem filterLoop_spec (f : List K → Except Err (List K)) (d : Dict Key (List (K × K))) :
    ((DataContainer.filterLoop f d).2 = none ∧
      List.Forall₂ (fun p q => q.1 = p.1 ∧ FilteredBy f p.2 q.2) d (DataContainer.filterLoop f d).1) ∨
    ∃ e a a' k v b, (DataContainer.filterLoop f d).2 = some e ∧ d = a ++ (k, v) :: b ∧
      (DataContainer.filterLoop f d).1 = a' ++ (k, v) :: b ∧ FilterFails f v e ∧
      List.Forall₂ (fun p q => q.1 = p.1 ∧ FilteredBy f p.2 q.2) a a' := by
  induction d with
  | nil => exact .inl ⟨rfl, .nil⟩
  | cons p r ih =>
    obtain ⟨k, v⟩ := p
    simp only [DataContainer.filterLoop]
    cases hf : f (v.map Prod.snd) with
    | error e => exact .inr ⟨e, [], [], k, v, r, rfl, rfl, rfl, .inl hf, .nil⟩
    | ok ys =>
      simp only
      by_cases hl : ys.length = v.length
      · rw [if_pos hl]
        have hz : FilteredBy f v ((v.map Prod.fst).zip ys) := by
          refine ⟨?_, ?_⟩
          · rw [List.map_fst_zip (by simp [hl])]
          · rw [List.map_snd_zip (by simp [hl]), hf]
        rcases ih with ⟨h1, h2⟩ | ⟨e, a, a', k', v', b, h1, h2, h3, h4, h5⟩
        · exact .inl ⟨h1, .cons ⟨rfl, hz⟩ h2⟩
        · refine .inr ⟨e, (k, v) :: a, (k, (v.map Prod.fst).zip ys) :: a', k', v', b, h1, by rw [h2]; rfl, ?_, h4,
            .cons ⟨rfl, hz⟩ h5⟩
          simp [h3]
      · rw [if_neg hl]
        exact .inr ⟨.valueError, [], [], k, v, r, rfl, rfl, rfl, .inr ⟨ys, hf, hl, rfl⟩, .nil⟩

theorem forall₂_get? {R : List (K × K) → List (K × K) → Prop} {d d' : Dict Key (List (K × K))}
    (h : List.Forall₂ (fun p q => q.1 = p.1 ∧ R p.2 q.2) d d') {k : Key} {v : List (K × K)}
    (hv : Dict.get? d k = some v) : ∃ v', Dict.get? d' k = some v' ∧ R v v' := by
  induction h with
  | nil => cases hv
  | @cons p q _ _ h _ ih =>
    obtain ⟨pk, pv⟩ := p
    obtain ⟨qk, qv⟩ := q
    obtain ⟨h1, h2⟩ := h
    simp only at h1 h2
    subst h1
    simp only [Dict.get?] at hv ⊢
    split
    · next hk => rw [if_pos hk] at hv; cases hv; exact ⟨_, rfl, h2⟩
    · next hk => rw [if_neg hk] at hv; exact ih hv

theorem forall₂_keys {R : List (K × K) → List (K × K) → Prop} {d d' : Dict Key (List (K × K))}
    (h : List.Forall₂ (fun p q => q.1 = p.1 ∧ R p.2 q.2) d d') : Dict.keys d' = Dict.keys d := by
  induction h with
  | nil => rfl
  | cons h _ ih => simp [ih, h.1]

/-- **C72.**  A call of `filter(f)` that succeeds replaces the values of every combination by what `f` returns for
them and keeps the angles; it succeeds exactly when `f` accepts the values of every combination and returns as many
values.  Combinations, recorded scale, phase shift and offset never change. -/
theorem C72_filter {c : DataContainer K} (hc : c.Reachable) (f : List K → Except Err (List K)) :
    ((DataContainer.step c (.filter f)).2 = none →
      ∀ k pts, c.getPc k sRadians = .ok pts →
        ∃ pts', (DataContainer.step c (.filter f)).1.getPc k sRadians = .ok pts' ∧ FilteredBy f pts pts') ∧
    ((DataContainer.step c (.filter f)).2 = none ↔
      ∀ k pts, c.getPc k sRadians = .ok pts → ∃ ys, f (pts.map Prod.snd) = .ok ys ∧ ys.length = pts.length) ∧
    (DataContainer.step c (.filter f)).1.getKeys = c.getKeys ∧
    (DataContainer.step c (.filter f)).1.getScale = c.getScale ∧
    (DataContainer.step c (.filter f)).1.getOffset = c.getOffset ∧
    (∀ u, (DataContainer.step c (.filter f)).1.getPhaseShift u = c.getPhaseShift u) := by
  have hwf := (reachable_normalForm hc).1
  rw [step_filter]
  refine ⟨?_, ?_, ?_, rfl, rfl, fun _ => rfl⟩
  · intro hn k pts hk
    rw [getPc_radians, Dict.get_ok_iff] at hk
    rcases filterLoop_spec f c.data with ⟨_, h2⟩ | ⟨e, _, _, _, _, _, h1, _⟩
    · obtain ⟨v', h3, h4⟩ := forall₂_get? h2 hk
      exact ⟨v', by rw [getPc_radians, Dict.get_ok_iff]; exact h3, h4⟩
    · simp only at hn; rw [h1] at hn; cases hn
  · constructor
    · intro hn k pts hk
      rw [getPc_radians, Dict.get_ok_iff] at hk
      rcases filterLoop_spec f c.data with ⟨_, h2⟩ | ⟨e, _, _, _, _, _, h1, _⟩
      · obtain ⟨v', _, h4, h5⟩ := forall₂_get? h2 hk
        refine ⟨_, h5, ?_⟩
        have := congrArg List.length h4
        simpa using this
      · simp only at hn; rw [h1] at hn; cases hn
    · intro hall
      rcases filterLoop_spec f c.data with ⟨h1, _⟩ | ⟨e, a, a', k, v, b, h1, h2, _, h4, _⟩
      · exact h1
      · exfalso
        have hm : (k, v) ∈ c.data := by rw [h2]; simp
        have hk : c.getPc k sRadians = .ok v := by
          rw [getPc_radians, Dict.get_ok_iff]; exact (Dict.get?_eq_some_iff hwf).2 hm
        obtain ⟨ys, h5, h6⟩ := hall k v hk
        rcases h4 with h4 | ⟨ys', h4, h7, _⟩
        · rw [h5] at h4; cases h4
        · rw [h5] at h4; cases h4; exact h7 h6
  · change Dict.keys _ = Dict.keys _
    rcases filterLoop_spec f c.data with ⟨_, h2⟩ | ⟨e, a, a', k, v, b, _, h2, h3, _, h5⟩
    · exact forall₂_keys h2
    · have := forall₂_keys h5
      simp only at h3 ⊢
      rw [h3, h2]
      simp only [Dict.keys, List.map_append] at this ⊢
      rw [this]

/-- **C72, errors.**  When `f` raises, or returns another number of values (`ValueError`), the combinations before
the offending one are already filtered; it and the later ones are unchanged. -/
theorem C72_filter_error {c : DataContainer K} (hc : c.Reachable) (f : List K → Except Err (List K)) (e : Err)
    (he : (DataContainer.step c (.filter f)).2 = some e) :
    ∃ before k after, c.getKeys = before ++ k :: after ∧
      (∃ pts, c.getPc k sRadians = .ok pts ∧ FilterFails f pts e) ∧
      (∀ k' ∈ before, ∃ pts pts', c.getPc k' sRadians = .ok pts ∧
        (DataContainer.step c (.filter f)).1.getPc k' sRadians = .ok pts' ∧ FilteredBy f pts pts') ∧
      (∀ k' ∈ k :: after,
        (DataContainer.step c (.filter f)).1.getPc k' sRadians = c.getPc k' sRadians) := by
  have hwf := (reachable_normalForm hc).1
  rw [step_filter] at he ⊢
  rcases filterLoop_spec f c.data with ⟨h1, _⟩ | ⟨e', a, a', k, v, b, h1, h2, h3, h4, h5⟩
  · simp only at he; rw [h1] at he; cases he
  · have hee : e' = e := by simp only at he; rw [h1] at he; cases he; rfl
    subst hee
    have hka := forall₂_keys h5
    have hwf' : Dict.WF (a' ++ (k, v) :: b) := by
      unfold Dict.WF at hwf ⊢
      rw [h2] at hwf
      simp only [Dict.keys, List.map_append] at hwf hka ⊢
      rw [hka]; exact hwf
    refine ⟨Dict.keys a, k, Dict.keys b, ?_, ⟨v, ?_, h4⟩, ?_, ?_⟩
    · change Dict.keys c.data = _
      rw [h2]; simp [Dict.keys]
    · rw [getPc_radians, Dict.get_ok_iff, Dict.get?_eq_some_iff hwf, h2]; simp
    · intro k' hk'
      obtain ⟨⟨k'', w⟩, hw, rfl⟩ := List.mem_map.1 hk'
      have hw1 : Dict.get? c.data k'' = some w := by
        rw [Dict.get?_eq_some_iff hwf, h2]; simp [hw]
      have hwa : Dict.WF a := by
        unfold Dict.WF at hwf ⊢
        rw [h2] at hwf
        simp only [Dict.keys, List.map_append] at hwf ⊢
        exact (List.nodup_append.1 hwf).1
      obtain ⟨w', h6, h7⟩ := forall₂_get? h5 ((Dict.get?_eq_some_iff hwa).2 hw)
      refine ⟨w, w', by rw [getPc_radians, Dict.get_ok_iff]; exact hw1, ?_, h7⟩
      rw [getPc_radians, Dict.get_ok_iff]
      simp only
      rw [h3, Dict.get?_eq_some_iff hwf']
      exact List.mem_append_left _ (Dict.mem_of_get? h6)
    · intro k' hk'
      have : k' ∈ Dict.keys ((k, v) :: b) := hk'
      obtain ⟨⟨k'', w⟩, hw, rfl⟩ := List.mem_map.1 this
      have h6 : Dict.get? c.data k'' = some w := by
        rw [Dict.get?_eq_some_iff hwf, h2]; exact List.mem_append_right _ hw
      have h7 : Dict.get? (DataContainer.filterLoop f c.data).1 k'' = some w := by
        rw [h3, Dict.get?_eq_some_iff hwf']; exact List.mem_append_right _ hw
      rw [getPc_radians, getPc_radians, Dict.get_ok_iff.2 h6, Dict.get_ok_iff.2 h7]

/-- **C06, the rest of the records.**  `scale_data` and `normalize_data` leave the recorded phase shift and offset,
`phase_shift_data` leaves the recorded scale and offset, `subtract_min` leaves the recorded scale and phase shift;
whether the call succeeds or not. -/
theorem C06_untouched (c : DataContainer K) :
    (∀ s, (DataContainer.step c (.scale s)).1.getOffset = c.getOffset ∧
      ∀ u, (DataContainer.step c (.scale s)).1.getPhaseShift u = c.getPhaseShift u) ∧
    (∀ d, (DataContainer.step c (.normalize d)).1.getOffset = c.getOffset ∧
      ∀ u, (DataContainer.step c (.normalize d)).1.getPhaseShift u = c.getPhaseShift u) ∧
    (∀ a v, (DataContainer.step c (.phaseShift a v)).1.getOffset = c.getOffset ∧
      (DataContainer.step c (.phaseShift a v)).1.getScale = c.getScale) ∧
    ((DataContainer.step c .subtractMin).1.getScale = c.getScale ∧
      ∀ u, (DataContainer.step c .subtractMin).1.getPhaseShift u = c.getPhaseShift u) := by
  have hscale : ∀ s c', c.scaleData s = .ok c' → c'.offset = c.offset ∧ c'.phaseShift = c.phaseShift := by
    intro s c' h
    unfold DataContainer.scaleData at h
    split at h
    · cases h
    · cases h; exact ⟨rfl, rfl⟩
  have key : ∀ {c' : DataContainer K}, c'.phaseShift = c.phaseShift → ∀ u, c'.getPhaseShift u = c.getPhaseShift u := by
    intro c' h u
    unfold DataContainer.getPhaseShift
    rw [h]
  refine ⟨?_, ?_, ?_, ?_⟩
  · intro s
    rw [step_scale]
    cases h : c.scaleData s with
    | error e => exact ⟨rfl, fun _ => rfl⟩
    | ok c' => exact ⟨(hscale s c' h).1, key (hscale s c' h).2⟩
  · intro d
    rw [step_normalize]
    cases h : c.normalizeData d with
    | error e => exact ⟨rfl, fun _ => rfl⟩
    | ok c' =>
      have : ∃ s, c.scaleData s = .ok c' := by
        unfold DataContainer.normalizeData at h
        cases hm : c.getMaxval with
        | error e => rw [hm] at h; cases h
        | ok m =>
          rw [hm, okBind] at h
          cases m with
          | none => exact ⟨_, h⟩
          | some km =>
            simp only at h
            split at h
            · split at h <;> cases h
            · exact ⟨_, h⟩
      obtain ⟨s, hs⟩ := this
      exact ⟨(hscale s c' hs).1, key (hscale s c' hs).2⟩
  · intro a v
    rw [step_phaseShift]
    cases h : c.phaseShiftData a v with
    | error e => exact ⟨rfl, rfl⟩
    | ok c' =>
      unfold DataContainer.phaseShiftData at h
      cases ha : DataContainer.angleOf a v with
      | error e => rw [ha] at h; cases h
      | ok a' => rw [ha, okBind] at h; cases h; exact ⟨rfl, rfl⟩
  · rw [step_subtractMin]
    cases h : c.subtractMin with
    | error e => exact ⟨rfl, fun _ => rfl⟩
    | ok c' =>
      unfold DataContainer.subtractMin at h
      cases hm : c.getMinval with
      | error e => rw [hm] at h; cases h
      | ok m =>
        rw [hm, okBind] at h
        cases m with
        | none => cases h; exact ⟨rfl, key rfl⟩
        | some km => cases h; exact ⟨rfl, key rfl⟩

/-- **C10, as calls.**  The functions in `C10_subtract_min` and `C10_normalize` are what the method calls do. -/
theorem C10_calls (c : DataContainer K) :
    (∀ c', c.subtractMin = .ok c' → DataContainer.step c .subtractMin = (c', none)) ∧
    (∀ d c', c.normalizeData d = .ok c' → DataContainer.step c (.normalize d) = (c', none)) := by
  refine ⟨fun c' h => ?_, fun d c' h => ?_⟩
  · rw [step_subtractMin, h]
  · rw [step_normalize, h]

section Examples

/-- Two combinations, a filter that doubles the values and one that fails on the second combination. -/
example : DataContainer.step
    (⟨[(kPP, [(0, 1), (1, 3)]), (kSS, [(2, 5)])], 1, 0, some 0, false, sRadians⟩ : DataContainer ℚ)
      (.filter (fun ys => .ok (ys.map (2 * ·)))) =
    (⟨[(kPP, [(0, 2), (1, 6)]), (kSS, [(2, 10)])], 1, 0, some 0, false, sRadians⟩, none) := by
  rw [step_filter]
  norm_num [DataContainer.filterLoop]

example : DataContainer.step
    (⟨[(kPP, [(0, 1), (1, 3)]), (kSS, [(2, 5)])], 1, 0, some 0, false, sRadians⟩ : DataContainer ℚ)
      (.filter (fun ys => if ys.length = 1 then .error .indexError else .ok (ys.map (2 * ·)))) =
    (⟨[(kPP, [(0, 2), (1, 6)]), (kSS, [(2, 5)])], 1, 0, some 0, false, sRadians⟩, some .indexError) := by
  rw [step_filter]
  norm_num [DataContainer.filterLoop]

end Examples

end Shgpy
