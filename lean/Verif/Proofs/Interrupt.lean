import Verif.Model.Interrupt
import Verif.Spec.Interrupt
import Verif.Proofs.DataExt
import Verif.Props.FData
import Verif.Props.Form

/-! Lemmas about the moments of method calls. -/

set_option linter.unusedSectionVars false

namespace Shgpy
open Spec

/-- The first `n` items of the new dictionary and the others of the old one. -/
theorem mix_keys {α : Type} {d d' : Dict Key α} (h : d'.keys = d.keys) (n : ℕ) : Dict.keys (d'.take n ++ d.drop n) = d.keys := by
  have h' : d'.map Prod.fst = d.map Prod.fst := h
  show (d'.take n ++ d.drop n).map Prod.fst = d.map Prod.fst
  rw [List.map_append, List.map_take, h', ← List.map_take, ← List.map_append, List.take_append_drop]

theorem loopStates_eq {α : Type} (f : α → α) (r p : Dict Key α) (h : Dict.WF (p ++ r)) :
    loopStates f r (p ++ r) = (List.range r.length).map (fun i => p ++ ((Dict.mapVals f r).take (i + 1) ++ r.drop (i + 1))) := by
  induction r generalizing p with
  | nil => rfl
  | cons kv r ih =>
    obtain ⟨k, v⟩ := kv
    have hk : k ∉ Dict.keys p := by
      unfold Dict.WF Dict.keys at h
      rw [List.map_append, List.nodup_append] at h
      intro hc
      exact h.2.2 k hc k (by simp) rfl
    unfold loopStates
    rw [Dict.set_append_of_notMem hk]
    have hwf : Dict.WF ((p ++ [(k, f v)]) ++ r) := by
      unfold Dict.WF Dict.keys at *
      simpa using h
    have := ih (p ++ [(k, f v)]) hwf
    rw [List.append_assoc] at this
    simp only [List.cons_append, List.nil_append] at this
    rw [this, List.length_cons, List.range_succ_eq_map, List.map_cons, List.map_map]
    simp [Dict.mapVals, Function.comp_def]

theorem loopStates_self {α : Type} (f : α → α) {d : Dict Key α} (h : Dict.WF d) :
    loopStates f d d = (List.range d.length).map (fun i => (Dict.mapVals f d).take (i + 1) ++ d.drop (i + 1)) := by
  simpa using loopStates_eq f d [] (by simpa using h)

theorem mapVals_length {α β : Type} (f : α → β) (d : Dict Key α) : (Dict.mapVals f d).length = d.length := by simp [Dict.mapVals]

theorem loopStates_last {α : Type} (f : α → α) {d : Dict Key α} (h : Dict.WF d) :
    (loopStates f d d).getLastD d = Dict.mapVals f d := by
  rw [loopStates_self f h]
  rcases Nat.eq_zero_or_pos d.length with h0 | h0
  · rw [List.length_eq_zero_iff.1 h0]; rfl
  · obtain ⟨n, hn⟩ := Nat.exists_eq_succ_of_ne_zero h0.ne'
    rw [hn, Nat.succ_eq_add_one, List.range_succ, List.map_append, List.map_singleton, List.getLastD_concat]
    rw [List.take_of_length_le (by rw [mapVals_length]; omega), List.drop_of_length_le (by omega), List.append_nil]

/-- Moments of a loop over the combinations, with the state before it. -/
theorem mem_loop {α σ : Type} (f : α → α) {d : Dict Key α} (h : Dict.WF d) (g : Dict Key α → σ) {x : σ} :
    x ∈ g d :: (loopStates f d d).map g ↔ ∃ n ≤ d.length, x = g ((Dict.mapVals f d).take n ++ d.drop n) := by
  rw [loopStates_self f h]
  constructor
  · intro hx
    rcases List.mem_cons.1 hx with rfl | hx
    · exact ⟨0, by omega, by simp⟩
    · obtain ⟨_, hm, rfl⟩ := List.mem_map.1 hx
      obtain ⟨i, hi, rfl⟩ := List.mem_map.1 hm
      have := List.mem_range.1 hi
      exact ⟨i + 1, by omega, rfl⟩
  · rintro ⟨n, hn, rfl⟩
    cases n with
    | zero => simp
    | succ n => exact List.mem_cons_of_mem _ (List.mem_map.2 ⟨_, List.mem_map.2 ⟨n, List.mem_range.2 (by omega), rfl⟩, rfl⟩)

section
variable {K : Type} [Field K] [LinearOrder K] [IsStrictOrderedRing K] [FloorRing K] [HasPi K]

theorem filterStates_eq (f : List K → Except Err (List K)) (r p : Dict Key (List (K × K))) (h : Dict.WF (p ++ r)) :
    ∃ n ≤ r.length, DataContainer.filterStates f r (p ++ r) =
      (List.range n).map (fun i => p ++ ((DataContainer.filterLoop f r).1.take (i + 1) ++ r.drop (i + 1))) ∧
      (DataContainer.filterLoop f r).1 = (DataContainer.filterLoop f r).1.take n ++ r.drop n := by
  induction r generalizing p with
  | nil => exact ⟨0, by simp, rfl, rfl⟩
  | cons kv r ih =>
    obtain ⟨k, v⟩ := kv
    have hk : k ∉ Dict.keys p := by
      unfold Dict.WF Dict.keys at h
      rw [List.map_append, List.nodup_append] at h
      intro hc
      exact h.2.2 k hc k (by simp) rfl
    unfold DataContainer.filterStates DataContainer.filterLoop
    cases hf : f (v.map Prod.snd) with
    | error e => exact ⟨0, by simp, by simp, by simp⟩
    | ok ys =>
      dsimp only
      by_cases hl : ys.length = v.length
      · rw [if_pos hl, if_pos hl, Dict.set_append_of_notMem hk]
        have hwf : Dict.WF ((p ++ [(k, (v.map Prod.fst).zip ys)]) ++ r) := by
          unfold Dict.WF Dict.keys at *
          simpa using h
        obtain ⟨n, hn, h1, h2⟩ := ih _ hwf
        rw [List.append_assoc] at h1
        simp only [List.cons_append, List.nil_append] at h1
        refine ⟨n + 1, by simpa using hn, ?_, ?_⟩
        · rw [h1, List.range_succ_eq_map, List.map_cons, List.map_map]
          simp [Function.comp_def]
        · simpa using h2
      · rw [if_neg hl, if_neg hl]
        exact ⟨0, by simp, by simp, by simp⟩

theorem filter_length (f : List K → Except Err (List K)) (d : Dict Key (List (K × K))) :
    (DataContainer.filterLoop f d).1.length = d.length := (keeps_filterLoop f d).length_eq.symm

theorem mem_filter (f : List K → Except Err (List K)) {d : Dict Key (List (K × K))} (h : Dict.WF d) {σ : Type}
    (g : Dict Key (List (K × K)) → σ) {x : σ} (hx : x ∈ g d :: (DataContainer.filterStates f d d).map g) :
    ∃ n, x = g ((DataContainer.filterLoop f d).1.take n ++ d.drop n) := by
  obtain ⟨n, _, h1, _⟩ := filterStates_eq f d [] (by simpa using h)
  rw [List.nil_append] at h1
  rw [h1] at hx
  rcases List.mem_cons.1 hx with rfl | hx
  · exact ⟨0, by simp⟩
  · obtain ⟨_, hm, rfl⟩ := List.mem_map.1 hx
    obtain ⟨i, _, rfl⟩ := List.mem_map.1 hm
    exact ⟨i + 1, by simp⟩

theorem filter_last (f : List K → Except Err (List K)) {d : Dict Key (List (K × K))} (h : Dict.WF d) :
    (DataContainer.filterStates f d d).getLastD d = (DataContainer.filterLoop f d).1 := by
  obtain ⟨n, hn, h1, h2⟩ := filterStates_eq f d [] (by simpa using h)
  rw [List.nil_append] at h1
  rw [h1]
  cases n with
  | zero => simpa using h2.symm
  | succ n =>
    rw [List.range_succ, List.map_append, List.map_singleton, List.getLastD_concat]
    simpa using h2.symm

theorem partly_zero {α : Type} (d d' : List α) : partly 0 d d' = d := by simp [partly]

theorem partly_all {α : Type} {d d' : List α} (h : d'.length = d.length) : partly d.length d d' = d' := by
  unfold partly
  rw [List.drop_of_length_le le_rfl, List.append_nil, List.take_of_length_le h.le]

theorem scale_moments (c : DataContainer K) (s : K) {c' : DataContainer K} (h : c' ∈ c.scaleMoments s) :
    c' = (DataContainer.step c (.scale s)).1 ∨ ∃ n, c' = { c with data := partly n c.data (DataContainer.step c (.scale s)).1.data } := by
  rw [step_scale]
  unfold DataContainer.scaleMoments at h
  unfold DataContainer.scaleData
  by_cases hs : s < 0
  · rw [if_pos hs] at h ⊢
    exact .inl (List.mem_singleton.1 h)
  · rw [if_neg hs] at h ⊢
    simp only [List.mem_cons, List.not_mem_nil, or_false] at h
    rcases h with rfl | rfl | rfl
    · exact .inr ⟨0, by simp [partly]⟩
    · exact .inr ⟨c.data.length, by dsimp only; rw [partly_all (mapVals_length _ _)]⟩
    · exact .inl rfl

theorem data_moments {c : DataContainer K} (hwf : Dict.WF c.data) {op : DataContainer.Op K}
    (hop : ∀ a u, op ≠ .phaseShift a u) {c' : DataContainer K} (h : c' ∈ c.moments op) :
    c' = (DataContainer.step c op).1 ∨ ∃ n, c' = { c with data := partly n c.data (DataContainer.step c op).1.data } := by
  cases op with
  | scale s => exact scale_moments c s h
  | subtractMin =>
    rw [step_subtractMin]
    unfold DataContainer.moments DataContainer.subtractMoments at h
    unfold DataContainer.subtractMin
    cases hm : c.getMinval with
    | error e =>
      rw [hm] at h
      exact .inl (List.mem_singleton.1 h)
    | ok o =>
      rw [hm] at h
      cases o with
      | none =>
        simp only [List.mem_cons, List.not_mem_nil, or_false] at h
        rcases h with rfl | rfl
        · exact .inr ⟨0, by simp [partly]⟩
        · exact .inl rfl
      | some km =>
        dsimp only at h
        rcases List.mem_append.1 h with h | h
        · obtain ⟨n, _, rfl⟩ := (mem_loop _ hwf (fun d => { c with data := d })).1 h
          exact .inr ⟨n, rfl⟩
        · rw [loopStates_last _ hwf] at h
          exact .inl (List.mem_singleton.1 h)
  | normalize d =>
    have hs := fun s => scale_moments (c := c) s (c' := c')
    simp only [step_scale] at hs
    rw [step_normalize]
    unfold DataContainer.moments DataContainer.normalizeMoments at h
    unfold DataContainer.normalizeData
    cases hm : c.getMaxval with
    | error e =>
      rw [hm] at h
      exact .inl (List.mem_singleton.1 h)
    | ok o =>
      rw [hm] at h
      cases o with
      | none => exact hs 0 h
      | some km =>
        simp only [bind, Except.bind] at h ⊢
        by_cases h0 : km.2 = 0
        · rw [if_pos h0] at h ⊢
          left
          split_ifs <;> exact List.mem_singleton.1 h
        · rw [if_neg h0] at h ⊢
          exact hs _ h
  | phaseShift a u => exact absurd rfl (hop a u)
  | filter f =>
    rw [step_filter]
    obtain ⟨n, rfl⟩ := mem_filter f hwf (fun d => { c with data := d }) h
    exact .inr ⟨n, rfl⟩

theorem shift_moments {c : DataContainer K} (hwf : Dict.WF c.data) {a r : K} {u : Key} (ha : DataContainer.angleOf a u = .ok r)
    {c' : DataContainer K} : c' ∈ c.moments (.phaseShift a u) ↔
      c' = c ∨ c' = { c with data := c.data.mapVals (fun v => v.map (fun p => (pmod (p.1 + r), p.2))) } ∨
      ∃ n ≤ c.data.length, c' = { c with
        data := partly n (c.data.mapVals (fun v => v.map (fun p => (pmod (p.1 + r), p.2)))) (c.data.mapVals (shiftPts r))
        phaseShift := c.phaseShift + r } := by
  show c' ∈ c.shiftMoments a u ↔ _
  unfold DataContainer.shiftMoments
  rw [ha]
  dsimp only
  have hwf' : Dict.WF (c.data.mapVals (fun v => v.map (fun p : K × K => (pmod (p.1 + r), p.2)))) := by
    unfold Dict.WF
    rw [Dict.keys_mapVals]
    exact hwf
  have hm := mem_loop sortPts hwf' (fun d => ({ c with data := d, phaseShift := c.phaseShift + r } : DataContainer K)) (x := c')
  rw [Dict.mapVals_mapVals, mapVals_length] at hm
  simp only [List.cons_append, List.nil_append, List.mem_cons] at hm ⊢
  rw [hm]
  rfl

theorem step_of_angle {c : DataContainer K} {a r : K} {u : Key} (ha : DataContainer.angleOf a u = .ok r) :
    (DataContainer.step c (.phaseShift a u)).1 = { c with data := c.data.mapVals (shiftPts r), phaseShift := c.phaseShift + r } := by
  rw [step_phaseShift]
  unfold DataContainer.phaseShiftData
  rw [ha]
  rfl

theorem moments_of_bad_angle {c : DataContainer K} {a : K} {u : Key} {e : Err} (ha : DataContainer.angleOf a u = .error e) :
    c.moments (.phaseShift a u) = [c] ∧ (DataContainer.step c (.phaseShift a u)).1 = c := by
  rw [step_phaseShift]
  have h : c.moments (.phaseShift a u) = c.shiftMoments a u := rfl
  rw [h]
  unfold DataContainer.phaseShiftData DataContainer.shiftMoments
  rw [ha]
  exact ⟨rfl, rfl⟩

theorem data_last {c : DataContainer K} (hwf : Dict.WF c.data) (op : DataContainer.Op K) :
    (c.moments op).getLast? = some (DataContainer.step c op).1 := by
  have hsc : ∀ s, (c.scaleMoments s).getLast? = some (DataContainer.step c (.scale s)).1 := by
    intro s
    rw [step_scale]
    unfold DataContainer.scaleMoments DataContainer.scaleData
    by_cases hs : s < 0
    · rw [if_pos hs, if_pos hs]; rfl
    · rw [if_neg hs, if_neg hs]; rfl
  have hcons : ∀ (g : Dict Key (List (K × K)) → DataContainer K) (l : List (Dict Key (List (K × K)))) (d : Dict Key (List (K × K))),
      (g d :: l.map g).getLast? = some (g (l.getLastD d)) := by
    intro g l d
    rw [← List.map_cons, List.getLast?_map, List.getLast?_cons, ← List.getLastD_eq_getLast?]
    rfl
  cases op with
  | scale s => exact hsc s
  | subtractMin =>
    rw [step_subtractMin]
    unfold DataContainer.moments DataContainer.subtractMoments DataContainer.subtractMin
    cases hm : c.getMinval with
    | error e => rfl
    | ok o =>
      cases o with
      | none => rfl
      | some km =>
        dsimp only
        rw [List.getLast?_append, List.getLast?_singleton, loopStates_last _ hwf]
        rfl
  | normalize d =>
    simp only [step_scale] at hsc
    rw [step_normalize]
    unfold DataContainer.moments DataContainer.normalizeMoments DataContainer.normalizeData
    cases hm : c.getMaxval with
    | error e => rfl
    | ok o =>
      cases o with
      | none => exact hsc 0
      | some km =>
        simp only [bind, Except.bind]
        by_cases h0 : km.2 = 0
        · rw [if_pos h0, if_pos h0]
          split_ifs <;> rfl
        · rw [if_neg h0, if_neg h0]
          exact hsc _
  | phaseShift a u =>
    cases ha : DataContainer.angleOf a u with
    | error e => rw [(moments_of_bad_angle ha).1, (moments_of_bad_angle ha).2]; rfl
    | ok r =>
      rw [step_of_angle ha]
      show (c.shiftMoments a u).getLast? = _
      unfold DataContainer.shiftMoments
      rw [ha]
      dsimp only
      have hwf' : Dict.WF (c.data.mapVals (fun v => v.map (fun p : K × K => (pmod (p.1 + r), p.2)))) := by
        unfold Dict.WF
        rw [Dict.keys_mapVals]
        exact hwf
      have := hcons (fun d => { c with data := d, phaseShift := c.phaseShift + r })
        (loopStates sortPts (c.data.mapVals (fun v => v.map (fun p : K × K => (pmod (p.1 + r), p.2))))
          (c.data.mapVals (fun v => v.map (fun p : K × K => (pmod (p.1 + r), p.2)))))
        (c.data.mapVals (fun v => v.map (fun p : K × K => (pmod (p.1 + r), p.2))))
      rw [loopStates_last _ hwf', Dict.mapVals_mapVals] at this
      simp only [List.cons_append, List.nil_append, List.getLast?_cons_cons]
      exact this
  | filter f =>
    rw [step_filter]
    have := hcons (fun d => { c with data := d }) (DataContainer.filterStates f c.data c.data) c.data
    rw [filter_last f hwf] at this
    exact this

/-! ### What every moment keeps -/

/-- Same combinations and numbers of points, angles within one turn. -/
def Loosely (d d' : Dict Key (List (K × K))) : Prop :=
  List.Forall₂ (fun p q => q.1 = p.1 ∧ q.2.length = p.2.length ∧ (Unordered p.2 → Unordered q.2)) d d'

theorem Loosely.refl (d : Dict Key (List (K × K))) : Loosely d d := List.forall₂_same.2 (fun _ _ => ⟨rfl, rfl, id⟩)

theorem Loosely.trans {d d' d'' : Dict Key (List (K × K))} (h : Loosely d d') (h' : Loosely d' d'') : Loosely d d'' := by
  unfold Loosely at *
  induction h generalizing d'' with
  | nil => cases h'; exact .nil
  | cons h _ ih =>
    cases h' with
    | cons h' ht => exact .cons ⟨h'.1.trans h.1, h'.2.1.trans h.2.1, fun hn => h'.2.2 (h.2.2 hn)⟩ (ih ht)

theorem Loosely.keys {d d' : Dict Key (List (K × K))} (h : Loosely d d') : d'.keys = d.keys := by
  unfold Loosely at h
  induction h with
  | nil => rfl
  | cons h _ ih => rw [Dict.keys_cons, Dict.keys_cons, h.1, ih]

theorem Loosely.partly {d d₁ d₂ : Dict Key (List (K × K))} (h₁ : Loosely d d₁) (h₂ : Loosely d d₂) (n : ℕ) :
    Loosely d (Spec.partly n d₁ d₂) := by
  unfold Spec.partly
  rw [← List.take_append_drop n d]
  exact List.rel_append (List.forall₂_take n h₂) (List.forall₂_drop n h₁)

theorem Loosely.mapVals {f : List (K × K) → List (K × K)} (d : Dict Key (List (K × K)))
    (h : ∀ v, (f v).length = v.length ∧ (Unordered v → Unordered (f v))) : Loosely d (d.mapVals f) := by
  unfold Loosely Dict.mapVals
  rw [List.forall₂_map_right_iff, List.forall₂_same]
  exact fun p _ => ⟨rfl, h p.2⟩

theorem unordered_of_fst {v v' : List (K × K)} (h : v'.map Prod.fst = v.map Prod.fst) (hv : Unordered v) : Unordered v' := by
  have hl : v'.length = v.length := by simpa using congrArg List.length h
  refine ⟨?_, fun p hp => ?_⟩
  · rintro rfl
    exact hv.1 (by simpa using hl.symm)
  · have : p.1 ∈ v'.map Prod.fst := List.mem_map.2 ⟨p, hp, rfl⟩
    rw [h] at this
    obtain ⟨q, hq, he⟩ := List.mem_map.1 this
    rw [← he]; exact hv.2 q hq

theorem unordered_turned (r : K) {v : List (K × K)} (h : v ≠ []) : Unordered (v.map (fun p : K × K => (pmod (p.1 + r), p.2))) := by
  refine ⟨by simpa using h, fun p hp => ?_⟩
  obtain ⟨q, _, rfl⟩ := List.mem_map.1 hp
  exact pmod_inTurn _

theorem Spec.NormalForm.unordered {v : List (K × K)} (h : NormalForm v) : Unordered v := ⟨h.1, h.2.1⟩

theorem loosely_scale (s : K) (d : Dict Key (List (K × K))) : Loosely d (d.mapVals (fun v => v.map (fun p => (p.1, s * p.2)))) :=
  Loosely.mapVals d (fun v => ⟨by simp, unordered_of_fst (by simp)⟩)

theorem loosely_filter (f : List K → Except Err (List K)) (d : Dict Key (List (K × K))) :
    Loosely d (DataContainer.filterLoop f d).1 := by
  induction d with
  | nil => exact .nil
  | cons kv r ih =>
    obtain ⟨k, v⟩ := kv
    unfold DataContainer.filterLoop
    cases hf : f (v.map Prod.snd) with
    | error e => exact Loosely.refl _
    | ok ys =>
      dsimp only
      by_cases hl : ys.length = v.length
      · rw [if_pos hl]
        exact .cons ⟨rfl, by simp [hl], unordered_of_fst (by rw [List.map_fst_zip (by simp [hl])])⟩ ih
      · rw [if_neg hl]
        exact Loosely.refl _

theorem loosely_step (c : DataContainer K) (op : DataContainer.Op K) : Loosely c.data (DataContainer.step c op).1.data := by
  have hsc : ∀ s, Loosely c.data (DataContainer.step c (.scale s)).1.data := by
    intro s
    rw [step_scale]
    unfold DataContainer.scaleData
    by_cases hs : s < 0
    · rw [if_pos hs]; exact Loosely.refl _
    · rw [if_neg hs]; exact loosely_scale s _
  cases op with
  | scale s => exact hsc s
  | subtractMin =>
    rw [step_subtractMin]
    unfold DataContainer.subtractMin
    cases hm : c.getMinval with
    | error e => exact Loosely.refl _
    | ok o =>
      cases o with
      | none => exact Loosely.refl _
      | some km => exact Loosely.mapVals _ (fun v => ⟨by simp, unordered_of_fst (by simp)⟩)
  | normalize d =>
    simp only [step_scale] at hsc
    rw [step_normalize]
    unfold DataContainer.normalizeData
    cases hm : c.getMaxval with
    | error e => exact Loosely.refl _
    | ok o =>
      cases o with
      | none => exact hsc 0
      | some km =>
        simp only [bind, Except.bind]
        by_cases h0 : km.2 = 0
        · rw [if_pos h0]
          split_ifs <;> exact Loosely.refl _
        · rw [if_neg h0]
          exact hsc _
  | phaseShift a u =>
    cases ha : DataContainer.angleOf a u with
    | error e => rw [(moments_of_bad_angle ha).2]; exact Loosely.refl _
    | ok r =>
      rw [step_of_angle ha]
      exact Loosely.mapVals _ (fun v => ⟨by simp [shiftPts], fun h => (shiftPts_normalForm h.1).unordered⟩)
  | filter f =>
    rw [step_filter]
    exact loosely_filter f _

theorem loosely_moments {c : DataContainer K} (hwf : Dict.WF c.data) {op : DataContainer.Op K} {c' : DataContainer K}
    (h : c' ∈ c.moments op) : Loosely c.data c'.data := by
  by_cases hop : ∃ a u, op = .phaseShift a u
  · obtain ⟨a, u, rfl⟩ := hop
    cases ha : DataContainer.angleOf a u with
    | error e =>
      rw [(moments_of_bad_angle ha).1] at h
      rw [List.mem_singleton.1 h]
      exact Loosely.refl _
    | ok r =>
      have ht : Loosely c.data (c.data.mapVals (fun v => v.map (fun p : K × K => (pmod (p.1 + r), p.2)))) :=
        Loosely.mapVals _ (fun v => ⟨by simp, fun h => unordered_turned r h.1⟩)
      rcases (shift_moments hwf ha).1 h with rfl | rfl | ⟨n, _, rfl⟩
      · exact Loosely.refl _
      · exact ht
      · exact ht.partly (Loosely.mapVals _ (fun v => ⟨by simp [shiftPts], fun h => (shiftPts_normalForm h.1).unordered⟩)) n
  · push Not at hop
    rcases data_moments hwf hop h with rfl | ⟨n, rfl⟩
    · exact loosely_step c op
    · exact (Loosely.refl _).partly (loosely_step c op) n

theorem loosely_runCut {c : DataContainer K} (hwf : Dict.WF c.data) (l : List (DataContainer.Op K × ℕ)) :
    Loosely c.data (DataContainer.runCut c l).data := by
  unfold DataContainer.runCut
  induction l generalizing c with
  | nil => exact Loosely.refl _
  | cons on l ih =>
    rw [List.foldl_cons]
    have h1 : Loosely c.data (((c.moments on.1)[on.2]?).getD (DataContainer.step c on.1).1).data := by
      cases hg : (c.moments on.1)[on.2]? with
      | none => exact loosely_step c on.1
      | some c' => exact loosely_moments hwf (List.mem_of_getElem? hg)
    have hwf' : Dict.WF (((c.moments on.1)[on.2]?).getD (DataContainer.step c on.1).1).data := by
      unfold Dict.WF
      rw [h1.keys]
      exact hwf
    exact h1.trans (ih hwf')

end

/-! ### Fourier data -/

theorem shiftStates_eq (a : ℝ) (M : ℕ) (s : ℝ) (ph : Phase) (post : Dict Key (List ℂ)) :
    ∀ (pre : Dict Key (List ℂ)), Dict.WF (pre ++ post) → (∀ it ∈ post, it.2.length = 2 * M + 1) →
      FDataContainer.shiftStates a (Dict.keys post) ⟨pre ++ post, M, s, ph⟩ =
        (loopStates (mulComp M (fun m => harmonic m a)) post (pre ++ post)).map (fun d => ⟨d, M, s, ph⟩) := by
  induction post with
  | nil => intro pre _ _; rfl
  | cons it post ih =>
    obtain ⟨k, v⟩ := it
    intro pre hnd hlen
    have hk : k ∉ Dict.keys pre := by
      simp only [Dict.WF, Dict.keys, List.map_append, List.map_cons, List.nodup_append, List.mem_cons] at hnd
      intro hk
      exact hnd.2.2 k hk k (Or.inl rfl) rfl
    have hset : Dict.set (pre ++ (k, v) :: post) k (mulComp M (fun m => harmonic m a) v) =
        (pre ++ [(k, mulComp M (fun m => harmonic m a) v)]) ++ post := by
      rw [Dict.set_append_of_notMem hk]; simp
    have := ih (pre ++ [(k, mulComp M (fun m => harmonic m a) v)])
      (by
        simp only [Dict.WF, Dict.keys, List.map_append, List.map_cons, List.append_assoc, List.cons_append,
          List.nil_append] at hnd ⊢
        exact hnd)
      (fun it hit => hlen it (List.mem_cons_of_mem _ hit))
    rw [Dict.keys_cons]
    unfold FDataContainer.shiftStates loopStates
    dsimp only
    rw [Dict.get_append_of_notMem hk]
    dsimp only
    rw [shiftArr_ok (hlen (k, v) List.mem_cons_self) a]
    dsimp only
    rw [hset, this]
    rfl

theorem fdata_shiftStates {c : FDataContainer} (hg : c.Good) (a : ℝ) :
    FDataContainer.shiftStates a c.getKeys c =
      (loopStates (mulComp c.M (fun m => harmonic m a)) c.fdata c.fdata).map (fun d => { c with fdata := d }) :=
  shiftStates_eq a c.M c.scale c.phaseShift c.fdata [] hg.wf hg.len

theorem fdata_shiftStates_last {c : FDataContainer} (hg : c.Good) (a : ℝ) :
    (FDataContainer.shiftStates a c.getKeys c).getLastD c =
      { c with fdata := c.fdata.mapVals (mulComp c.M (fun m => harmonic m a)) } := by
  rw [fdata_shiftStates hg]
  have := List.getLastD_map (f := fun d => ({ c with fdata := d } : FDataContainer))
    (l := loopStates (mulComp c.M (fun m => harmonic m a)) c.fdata c.fdata) (a := c.fdata)
  rw [loopStates_last _ hg.wf] at this
  exact this

theorem fdata_shiftMoments {c : FDataContainer} (hg : c.Good) {a : ℝ} {u : Key} (hu : lower u = sRadians ∨ lower u = sDegrees)
    {p : ℝ} (hp : c.phaseShift = .num p) :
    c.moments (.phaseShift a u) = (c :: (loopStates (mulComp c.M (fun m => harmonic m (FDataContainer.angle a u))) c.fdata c.fdata).map
      (fun d => { c with fdata := d })) ++ [(FDataContainer.step c (.phaseShift a u)).1] := by
  show c.shiftMoments a u = _
  have hc : checkAngleUnits (lower u) = .ok () := by unfold checkAngleUnits; rw [if_pos hu]
  unfold FDataContainer.shiftMoments
  rw [hc]
  dsimp only
  have hang : (if lower u = sDegrees then deg2rad a else a) = FDataContainer.angle a u := rfl
  rw [hang, fdata_shiftStates_last hg, fdata_shiftStates hg, FDataContainer.step_phaseShift hg.wf hg.len, if_pos hu, hp]
  unfold FDataContainer.recordShift
  dsimp only

theorem fdata_moments {c : FDataContainer} (hg : c.Good) {op : FDataContainer.Op} {c' : FDataContainer} (h : c' ∈ c.moments op) :
    c' = (FDataContainer.step c op).1 ∨ ∃ n, c' = { c with fdata := partly n c.fdata (FDataContainer.step c op).1.fdata } := by
  have hsc : ∀ s, c' ∈ c.scaleMoments s → c' = (FDataContainer.step c (.scale s)).1 ∨
      ∃ n, c' = { c with fdata := partly n c.fdata (FDataContainer.step c (.scale s)).1.fdata } := by
    intro s h
    rw [FDataContainer.step_scale]
    unfold FDataContainer.scaleMoments at h
    by_cases hs : s < 0
    · rw [if_pos hs] at h ⊢
      exact .inl (List.mem_singleton.1 h)
    · rw [if_neg hs] at h ⊢
      simp only [List.mem_cons, List.not_mem_nil, or_false] at h
      rcases h with rfl | rfl | rfl
      · exact .inr ⟨0, by simp [partly]⟩
      · exact .inr ⟨c.fdata.length, by dsimp only; rw [partly_all (mapVals_length _ _)]⟩
      · exact .inl rfl
  cases op with
  | scale s => exact hsc s h
  | normalize d =>
    rw [FDataContainer.step_normalize]
    unfold FDataContainer.moments FDataContainer.normalizeMoments at h
    cases hm : c.getMaxval with
    | error e =>
      rw [hm] at h
      exact .inl (List.mem_singleton.1 h)
    | ok o =>
      rw [hm] at h
      cases o with
      | none => exact hsc 0 h
      | some km =>
        dsimp only at h ⊢
        by_cases h0 : km.2 = 0
        · rw [if_pos h0] at h ⊢
          exact .inl (List.mem_singleton.1 h)
        · rw [if_neg h0] at h ⊢
          exact hsc _ h
  | phaseShift a u =>
    by_cases hu : lower u = sRadians ∨ lower u = sDegrees
    · obtain ⟨p, hp⟩ := hg.num
      rw [fdata_shiftMoments hg hu hp] at h
      rcases List.mem_append.1 h with h | h
      · obtain ⟨n, _, rfl⟩ := (mem_loop _ hg.wf (fun d => { c with fdata := d })).1 h
        rw [FDataContainer.step_phaseShift hg.wf hg.len, if_pos hu, hp]
        exact .inr ⟨n, rfl⟩
      · exact .inl (List.mem_singleton.1 h)
    · have hc : checkAngleUnits (lower u) = .error .valueError := by unfold checkAngleUnits; rw [if_neg hu]
      unfold FDataContainer.moments FDataContainer.shiftMoments at h
      simp only [hc] at h
      rw [FDataContainer.step_phaseShift hg.wf hg.len, if_neg hu]
      exact .inl (List.mem_singleton.1 h)

theorem fdata_last {c : FDataContainer} (hg : c.Good) (op : FDataContainer.Op) :
    (c.moments op).getLast? = some (FDataContainer.step c op).1 := by
  have hsc : ∀ s, (c.scaleMoments s).getLast? = some (FDataContainer.step c (.scale s)).1 := by
    intro s
    rw [FDataContainer.step_scale]
    unfold FDataContainer.scaleMoments
    by_cases hs : s < 0
    · rw [if_pos hs, if_pos hs]; rfl
    · rw [if_neg hs, if_neg hs]; rfl
  cases op with
  | scale s => exact hsc s
  | normalize d =>
    rw [FDataContainer.step_normalize]
    unfold FDataContainer.moments FDataContainer.normalizeMoments
    cases hm : c.getMaxval with
    | error e => rfl
    | ok o =>
      cases o with
      | none => exact hsc 0
      | some km =>
        dsimp only
        by_cases h0 : km.2 = 0
        · rw [if_pos h0, if_pos h0]; rfl
        · rw [if_neg h0, if_neg h0]; exact hsc _
  | phaseShift a u =>
    by_cases hu : lower u = sRadians ∨ lower u = sDegrees
    · obtain ⟨p, hp⟩ := hg.num
      rw [fdata_shiftMoments hg hu hp, List.getLast?_append, List.getLast?_singleton]
      rfl
    · have hc : checkAngleUnits (lower u) = .error .valueError := by unfold checkAngleUnits; rw [if_neg hu]
      unfold FDataContainer.moments FDataContainer.shiftMoments
      simp only [hc]
      rw [FDataContainer.step_phaseShift hg.wf hg.len, if_neg hu]
      rfl

/-! ### Formulas -/

theorem atOnce_cases {σ : Type} (body : DataContainer.Meth σ Unit) (c : σ) :
    (∃ c', body c = (.ok (), c') ∧ atOnce body c = [c, c']) ∨ ∃ e c', body c = (.error e, c') ∧ atOnce body c = [c] := by
  unfold atOnce
  rcases h : body c with ⟨_ | ⟨⟨⟩⟩, c'⟩
  · exact .inr ⟨_, _, rfl, rfl⟩
  · exact .inl ⟨_, rfl, rfl⟩

theorem fform_atOnce {S : Sympy} {c : FFormContainer} (hc : c.Reachable S) {op : FFormContainer.Op} (hop : ∀ s, op ≠ .scale s) :
    c.moments S op = [c, (FFormContainer.step S c op).1] ∨ c.moments S op = [c] ∧ (FFormContainer.step S c op).1 = c := by
  have key : ∀ {body : DataContainer.Meth FFormContainer Unit}, FFormContainer.Op.body S op = body → c.moments S op = atOnce body c →
      (∀ e c', body c = (.error e, c') → c' = c) →
      c.moments S op = [c, (FFormContainer.step S c op).1] ∨ c.moments S op = [c] ∧ (FFormContainer.step S c op).1 = c := by
    intro body hb hm he
    rw [hm]
    unfold FFormContainer.step
    rw [hb]
    rcases atOnce_cases body c with ⟨c', h1, h2⟩ | ⟨e, c', h1, h2⟩
    · rw [h2, h1]; exact .inl rfl
    · rw [h2, h1]; exact .inr ⟨rfl, he e c' h1⟩
  cases op with
  | scale s => exact absurd rfl (hop s)
  | subs pairs =>
    refine key rfl rfl (fun e c' h => ?_)
    have hst : FFormContainer.step S c (.subs pairs) = (c', some e) := by
      unfold FFormContainer.step
      have : FFormContainer.Op.body S (.subs pairs) c = (.error e, c') := h
      rw [this]
    by_cases hn : ∃ it ∈ c.fform, it.2.isNative = true
    · rw [FFormContainer.step_subs_error S hc.good pairs hn] at hst
      exact (congrArg Prod.fst hst).symm
    · rw [FFormContainer.step_subs_ok S hc.good pairs (by simpa using hn)] at hst
      simp at hst
  | phaseShift a =>
    refine key rfl rfl (fun e c' h => ?_)
    have hst : FFormContainer.step S c (.phaseShift a) = (c', some e) := by
      unfold FFormContainer.step
      have : FFormContainer.Op.body S (.phaseShift a) c = (.error e, c') := h
      rw [this]
    rw [FFormContainer.step_shift S hc.good a] at hst
    simp at hst

theorem form_atOnce {S : Sympy} {c : FormContainer} (hc : c.Reachable S) {op : FormContainer.Op} (hop : (∃ p, op = .subs p) ∨ ∃ a v, op = .phaseShift a v) :
    c.moments S op = [c, (FormContainer.step S c op).1] := by
  rw [FormContainer.step_eq S hc.wf]
  rcases hop with ⟨p, rfl⟩ | ⟨a, v, rfl⟩
  · show atOnce (FormContainer.subsM S p) c = _
    unfold atOnce
    rw [FormContainer.step_subs S hc.wf]
    rfl
  · show atOnce (FormContainer.applyPhaseShiftM S a v) c = _
    unfold atOnce FormContainer.applyPhaseShiftM
    rw [FormContainer.step_subs S hc.wf]
    rfl

end Shgpy
