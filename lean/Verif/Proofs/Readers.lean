import Verif.Model.Readers
import Verif.Proofs.Interrupt

/-! Lemmas about the moments of a list of calls. -/

set_option linter.unusedSectionVars false

namespace Shgpy
open Spec

section
variable {K : Type} [Field K] [LinearOrder K] [IsStrictOrderedRing K] [FloorRing K] [HasPi K]

/-- Before the moment with number `p` what is read is that before the call, and from then on that after it. -/
def Cut (R : DataContainer K → DataContainer K → Prop) (c : DataContainer K) (op : DataContainer.Op K) (p : ℕ) : Prop :=
  ∀ i c', (c.moments op)[i]? = some c' → (i < p → R c' c) ∧ (p ≤ i → R c' (DataContainer.step c op).1)

theorem assemble {R : DataContainer K → DataContainer K → Prop} (hR : ∀ c, R c c) (ops : List (DataContainer.Op K))
    (hcut : ∀ op ∈ ops, ∀ c : DataContainer K, c.Reachable → ∃ p, Cut R c op p) {c : DataContainer K} (hc : c.Reachable) :
    ∃ ν : ℕ → ℕ, Monotone ν ∧ ∀ i c', (c.trace ops)[i]? = some c' →
      c.finished ops i ≤ ν i ∧ ν i ≤ c.finished ops i + 1 ∧ ν i ≤ ops.length ∧ R c' (DataContainer.run c (ops.take (ν i))) := by
  induction ops generalizing c with
  | nil =>
    refine ⟨fun _ => 0, fun _ _ _ => le_rfl, fun i c' h => ⟨le_rfl, Nat.zero_le _, le_rfl, ?_⟩⟩
    cases i with
    | zero =>
      have : c = c' := Option.some.inj h
      subst this
      exact hR c
    | succ i => exact absurd h (by simp [DataContainer.trace])
  | cons op l ih =>
    obtain ⟨p, hp⟩ := hcut op (by simp) c hc
    obtain ⟨ν, hν, hs⟩ := ih (fun o ho => hcut o (by simp [ho])) (reachable_step hc op)
    refine ⟨fun i => if i < (c.moments op).length then (if i < p then 0 else 1) else 1 + ν (i - (c.moments op).length), ?_, ?_⟩
    · intro i j hij
      have hm := hν (Nat.sub_le_sub_right hij (c.moments op).length)
      dsimp only
      split_ifs <;> omega
    · intro i c' h
      unfold DataContainer.trace at h
      unfold DataContainer.finished
      by_cases hi : i < (c.moments op).length
      · rw [List.getElem?_append_left hi] at h
        simp only [if_pos hi]
        obtain ⟨h1, h2⟩ := hp i c' h
        by_cases hip : i < p
        · rw [if_pos hip]
          exact ⟨le_rfl, by omega, by omega, h1 hip⟩
        · rw [if_neg hip]
          exact ⟨by omega, by omega, by simp, h2 (by omega)⟩
      · rw [List.getElem?_append_right (by omega)] at h
        simp only [if_neg hi]
        obtain ⟨h1, h2, h3, h4⟩ := hs _ c' h
        refine ⟨by omega, by omega, by rw [List.length_cons]; omega, ?_⟩
        rw [Nat.add_comm 1, List.take_succ_cons]
        exact h4

/-- Where a combination changes while the items of a dictionary are replaced one after the other. -/
theorem partly_get? {α : Type} {d d' : Dict Key α} (h : d'.keys = d.keys) (k : Key) :
    ∃ j, ∀ n, Dict.get? (partly n d d' : Dict Key α) k = if j < n then Dict.get? d' k else Dict.get? d k := by
  induction d generalizing d' with
  | nil =>
    have : d' = [] := by simpa [Dict.keys] using h
    subst this
    exact ⟨0, fun n => by simp [partly]⟩
  | cons kv d ih =>
    cases d' with
    | nil => exact absurd h (by simp [Dict.keys])
    | cons kv' d' =>
      obtain ⟨k₀, v⟩ := kv
      obtain ⟨k₁, v'⟩ := kv'
      rw [Dict.keys_cons, Dict.keys_cons, List.cons.injEq] at h
      obtain ⟨h0, h⟩ := h
      obtain ⟨j, hj⟩ := ih h
      have h0 : k₁ = k₀ := h0
      subst h0
      by_cases hk : k₁ = k
      · subst hk
        refine ⟨0, fun n => ?_⟩
        cases n with
        | zero => simp [partly]
        | succ n => simp [partly, Dict.get?]
      · refine ⟨j + 1, fun n => ?_⟩
        cases n with
        | zero => simp [partly]
        | succ n =>
          have := hj n
          simp only [partly] at this
          simp only [partly, Dict.get?, List.take_succ_cons, List.drop_succ_cons, List.cons_append, if_neg hk] at this ⊢
          simp only [Nat.add_lt_add_iff_right]
          exact this

/-- What a reader of a combination compares: the points, in any order. -/
def SamePoints (k : Key) (c' c : DataContainer K) : Prop :=
  ∀ pts, c.getPc k sRadians = .ok pts → ∃ pts', c'.getPc k sRadians = .ok pts' ∧ pts'.Perm pts

theorem SamePoints.of_eq {k : Key} {c' c : DataContainer K} (h : Dict.get? c'.data k = Dict.get? c.data k) : SamePoints k c' c := by
  intro pts hp
  refine ⟨pts, ?_, .refl _⟩
  rw [getPc_radians, Dict.get_ok_iff] at hp ⊢
  rw [h, hp]

theorem SamePoints.refl (k : Key) (c : DataContainer K) : SamePoints k c c := .of_eq rfl

/-- The recorded numbers. -/
def SameRecord (c' c : DataContainer K) : Prop :=
  c'.getScale = c.getScale ∧ c'.getOffset = c.getOffset ∧ c'.getPhaseShift sRadians = c.getPhaseShift sRadians

theorem SameRecord.refl (c : DataContainer K) : SameRecord c c := ⟨rfl, rfl, rfl⟩

theorem cut_one {R : DataContainer K → DataContainer K → Prop} (hR : ∀ c, R c c) {c : DataContainer K} {op : DataContainer.Op K}
    (h : c.moments op = [c]) (h' : (DataContainer.step c op).1 = c) : Cut R c op 0 := by
  intro i c' hi
  rw [h] at hi
  rw [h']
  cases i with
  | zero => cases hi; exact ⟨fun h => absurd h (by omega), fun _ => hR c⟩
  | succ i => exact absurd hi (by simp)

/-- Moments of `scale_data`, and of `normalize_data`, which ends with it. -/
theorem scale_like (c : DataContainer K) (op : DataContainer.Op K) (h : (∃ s, op = .scale s) ∨ ∃ d, op = .normalize d) :
    (c.moments op = [c] ∧ (DataContainer.step c op).1 = c) ∨
    ∃ s, c.moments op = [c, { c with data := c.data.mapVals (fun v => v.map (fun p => (p.1, s * p.2))) },
          { c with data := c.data.mapVals (fun v => v.map (fun p => (p.1, s * p.2))), scale := c.scale * s }] ∧
        (DataContainer.step c op).1 = { c with data := c.data.mapVals (fun v => v.map (fun p => (p.1, s * p.2))), scale := c.scale * s } := by
  have hsc : ∀ s, (c.scaleMoments s = [c] ∧ c.scaleData s = .error .valueError) ∨
      (c.scaleMoments s = [c, { c with data := c.data.mapVals (fun v => v.map (fun p => (p.1, s * p.2))) },
          { c with data := c.data.mapVals (fun v => v.map (fun p => (p.1, s * p.2))), scale := c.scale * s }] ∧
        c.scaleData s = .ok { c with data := c.data.mapVals (fun v => v.map (fun p => (p.1, s * p.2))), scale := c.scale * s }) := by
    intro s
    unfold DataContainer.scaleMoments DataContainer.scaleData
    by_cases hs : s < 0
    · rw [if_pos hs, if_pos hs]; exact .inl ⟨rfl, rfl⟩
    · rw [if_neg hs, if_neg hs]; exact .inr ⟨rfl, rfl⟩
  rcases h with ⟨s, rfl⟩ | ⟨d, rfl⟩
  · rw [step_scale]
    rcases hsc s with ⟨h1, h2⟩ | ⟨h1, h2⟩
    · rw [h2]; exact .inl ⟨h1, rfl⟩
    · rw [h2]; exact .inr ⟨s, h1, rfl⟩
  · rw [step_normalize]
    have hm' : c.moments (.normalize d) = c.normalizeMoments d := rfl
    rw [hm']
    unfold DataContainer.normalizeMoments DataContainer.normalizeData
    cases hm : c.getMaxval with
    | error e => exact .inl ⟨rfl, rfl⟩
    | ok o =>
      cases o with
      | none =>
        simp only [bind, Except.bind]
        rcases hsc 0 with ⟨h1, h2⟩ | ⟨h1, h2⟩
        · rw [h2]; exact .inl ⟨h1, rfl⟩
        · rw [h2]; exact .inr ⟨0, h1, rfl⟩
      | some km =>
        simp only [bind, Except.bind]
        by_cases h0 : km.2 = 0
        · rw [if_pos h0, if_pos h0]
          left
          split_ifs <;> exact ⟨rfl, rfl⟩
        · rw [if_neg h0, if_neg h0]
          rcases hsc (d / km.2) with ⟨h1, h2⟩ | ⟨h1, h2⟩
          · rw [h2]; exact .inl ⟨h1, rfl⟩
          · rw [h2]; exact .inr ⟨_, h1, rfl⟩

/-- Cuts of `scale_data` and `normalize_data`. -/
theorem cut_scale {c : DataContainer K} {op : DataContainer.Op K} (h : (∃ s, op = .scale s) ∨ ∃ d, op = .normalize d) :
    (∃ p, ∀ k, Cut (fun c' c => Dict.get? c'.data k = Dict.get? c.data k) c op p) ∧ ∃ p, Cut SameRecord c op p := by
  rcases scale_like c op h with ⟨h1, h2⟩ | ⟨s, h1, h2⟩
  · exact ⟨⟨0, fun k => cut_one (R := fun c' c => Dict.get? c'.data k = Dict.get? c.data k) (fun _ => rfl) h1 h2⟩, 0, cut_one SameRecord.refl h1 h2⟩
  · refine ⟨⟨1, fun k i c' hi => ?_⟩, 2, fun i c' hi => ?_⟩ <;> rw [h1] at hi <;> rw [h2]
    · match i, hi with
      | 0, hi => cases hi; exact ⟨fun _ => rfl, fun h => absurd h (by omega)⟩
      | 1, hi => cases hi; exact ⟨fun h => absurd h (by omega), fun _ => rfl⟩
      | 2, hi => cases hi; exact ⟨fun h => absurd h (by omega), fun _ => rfl⟩
      | i + 3, hi => exact absurd hi (by simp)
    · match i, hi with
      | 0, hi => cases hi; exact ⟨fun _ => .refl _, fun h => absurd h (by omega)⟩
      | 1, hi => cases hi; exact ⟨fun _ => ⟨rfl, rfl, rfl⟩, fun h => absurd h (by omega)⟩
      | 2, hi => cases hi; exact ⟨fun h => absurd h (by omega), fun _ => .refl _⟩
      | i + 3, hi => exact absurd hi (by simp)

/-- Points that are turned, before they are sorted. -/
theorem partly_mapVals_perm {d : Dict Key (List (K × K))} (k : Key) (n : ℕ) {v : List (K × K)}
    (h : Dict.get? (d.mapVals sortPts) k = some v) :
    ∃ v', Dict.get? (partly n d (d.mapVals sortPts) : Dict Key (List (K × K))) k = some v' ∧ v'.Perm v := by
  obtain ⟨j, hj⟩ := partly_get? (Dict.keys_mapVals sortPts d) k
  rw [hj n]
  split_ifs
  · exact ⟨v, h, .refl _⟩
  · rw [Dict.get?_mapVals] at h
    cases hd : Dict.get? d k with
    | none => rw [hd] at h; exact absurd h (by simp)
    | some w =>
      rw [hd] at h
      cases h
      exact ⟨w, rfl, (sortPts_perm w).symm⟩

/-- Cuts of `phase_shift_data`. -/
theorem cut_shift {c : DataContainer K} (hwf : Dict.WF c.data) (a : K) (u : Key) :
    (∃ p, ∀ k, Cut (SamePoints k) c (.phaseShift a u) p) ∧ ∃ p, Cut SameRecord c (.phaseShift a u) p := by
  cases ha : DataContainer.angleOf a u with
  | error e =>
    obtain ⟨h1, h2⟩ := moments_of_bad_angle (c := c) ha
    exact ⟨⟨0, fun k => cut_one (SamePoints.refl k) h1 h2⟩, 0, cut_one SameRecord.refl h1 h2⟩
  | ok r =>
    have hm : c.moments (.phaseShift a u) = c.shiftMoments a u := rfl
    have hwf' : Dict.WF (c.data.mapVals (fun v => v.map (fun p : K × K => (pmod (p.1 + r), p.2)))) := by
      unfold Dict.WF
      rw [Dict.keys_mapVals]
      exact hwf
    have hst := step_of_angle (c := c) ha
    have hdd : c.data.mapVals (shiftPts r) =
        (c.data.mapVals (fun v => v.map (fun p : K × K => (pmod (p.1 + r), p.2)))).mapVals sortPts := by
      rw [Dict.mapVals_mapVals]; rfl
    rw [hdd] at hst
    unfold DataContainer.shiftMoments at hm
    rw [ha] at hm
    dsimp only at hm
    rw [loopStates_self _ hwf'] at hm
    generalize c.data.mapVals (fun v => v.map (fun p : K × K => (pmod (p.1 + r), p.2))) = d at *
    have hsp : ∀ k n φ, SamePoints k { c with data := partly n d (d.mapVals sortPts), phaseShift := φ }
        (DataContainer.step c (.phaseShift a u)).1 := by
      intro k n φ pts hp
      rw [hst, getPc_radians, Dict.get_ok_iff] at hp
      obtain ⟨v', h1, h2⟩ := partly_mapVals_perm k n hp
      refine ⟨v', ?_, h2⟩
      rw [getPc_radians, Dict.get_ok_iff]
      exact h1
    have h0 : ∀ φ, ({ c with data := d, phaseShift := φ } : DataContainer K) =
        { c with data := partly 0 d (d.mapVals sortPts), phaseShift := φ } := fun φ => by rw [partly_zero]
    have hlate : ∀ i c', (c.moments (.phaseShift a u))[i + 3]? = some c' →
        c' = { c with data := partly (i + 1) d (d.mapVals sortPts), phaseShift := c.phaseShift + r } := by
      intro i c' hi
      rw [hm, List.getElem?_append_right (by simp)] at hi
      simp only [List.length_cons, List.length_nil, List.map_map] at hi
      rw [List.getElem?_map, List.getElem?_range] at hi
      · simp at hi
        exact hi.symm
      · by_contra hn
        rw [List.getElem?_eq_none (by simpa using hn)] at hi
        exact absurd hi (by simp)
    refine ⟨⟨1, fun k i c' hi => ?_⟩, 2, fun i c' hi => ?_⟩
    · match i, hi with
      | 0, hi => rw [hm] at hi; cases hi; exact ⟨fun _ => .refl _ _, fun h => absurd h (by omega)⟩
      | 1, hi =>
        rw [hm] at hi; cases hi
        refine ⟨fun h => absurd h (by omega), fun _ => ?_⟩
        have := hsp k 0 c.phaseShift
        rwa [← h0] at this
      | 2, hi =>
        rw [hm] at hi; cases hi
        refine ⟨fun h => absurd h (by omega), fun _ => ?_⟩
        rw [h0]
        exact hsp k 0 _
      | i + 3, hi =>
        rw [hlate i c' hi]
        exact ⟨fun h => absurd h (by omega), fun _ => hsp k _ _⟩
    · rw [hst]
      match i, hi with
      | 0, hi => rw [hm] at hi; cases hi; exact ⟨fun _ => .refl _, fun h => absurd h (by omega)⟩
      | 1, hi => rw [hm] at hi; cases hi; exact ⟨fun _ => ⟨rfl, rfl, rfl⟩, fun h => absurd h (by omega)⟩
      | 2, hi => rw [hm] at hi; cases hi; exact ⟨fun h => absurd h (by omega), fun _ => ⟨rfl, rfl, rfl⟩⟩
      | i + 3, hi =>
        rw [hlate i c' hi]
        exact ⟨fun h => absurd h (by omega), fun _ => ⟨rfl, rfl, rfl⟩⟩

/-- The moments of `subtract_min` and `filter`: the items are replaced one after the other, and then the offset is recorded. -/
theorem loop_like {c : DataContainer K} (hwf : Dict.WF c.data) {op : DataContainer.Op K}
    (h : op = .subtractMin ∨ ∃ f, op = .filter f) :
    (c.moments op = [c] ∧ (DataContainer.step c op).1 = c) ∨
    ∃ (d' : Dict Key (List (K × K))) (N : ℕ) (o : Option K), d'.keys = c.data.keys ∧ partly N c.data d' = d' ∧
      (DataContainer.step c op).1 = { c with data := d', offset := o } ∧
      ∀ i c', (c.moments op)[i]? = some c' →
        (i ≤ N ∧ c' = { c with data := partly i c.data d' }) ∨ (i = N + 1 ∧ c' = { c with data := d', offset := o }) := by
  have hself : ({ c with data := partly 0 c.data c.data } : DataContainer K) = c := by rw [partly_zero]
  rcases h with rfl | ⟨f, rfl⟩
  · rw [step_subtractMin]
    have hm' : c.moments .subtractMin = c.subtractMoments := rfl
    rw [hm']
    unfold DataContainer.subtractMoments DataContainer.subtractMin
    cases hm : c.getMinval with
    | error e => exact .inl ⟨rfl, rfl⟩
    | ok o =>
      right
      cases o with
      | none =>
        refine ⟨c.data, 0, none, rfl, partly_zero _ _, rfl, fun i c' hi => ?_⟩
        match i, hi with
        | 0, hi => cases hi; exact .inl ⟨le_rfl, hself.symm⟩
        | 1, hi => cases hi; exact .inr ⟨rfl, rfl⟩
        | i + 2, hi => exact absurd hi (by simp)
      | some km =>
        refine ⟨c.data.mapVals (fun v => v.map (fun p => (p.1, p.2 - km.2))), c.data.length, c.offset.map (fun o => o - km.2),
          Dict.keys_mapVals _ _, partly_all (mapVals_length _ _), rfl, fun i c' hi => ?_⟩
        dsimp only at hi
        rw [loopStates_last _ hwf, loopStates_self _ hwf] at hi
        cases i with
        | zero =>
          cases hi
          exact .inl ⟨Nat.zero_le _, by rw [partly_zero]⟩
        | succ i =>
          rw [List.cons_append, List.getElem?_cons_succ] at hi
          by_cases hil : i < c.data.length
          · rw [List.getElem?_append_left (by simpa using hil), List.map_map, List.getElem?_map, List.getElem?_range hil] at hi
            simp at hi
            exact .inl ⟨hil, hi.symm⟩
          · rw [List.getElem?_append_right (by simpa using Nat.le_of_not_lt hil)] at hi
            simp only [List.length_map, List.length_range] at hi
            cases hj : i - c.data.length with
            | zero =>
              rw [hj] at hi
              cases hi
              exact .inr ⟨by omega, rfl⟩
            | succ j => rw [hj] at hi; exact absurd hi (by simp)
  · right
    rw [step_filter]
    obtain ⟨n, hn, h1, h2⟩ := filterStates_eq f c.data [] (by simpa using hwf)
    rw [List.nil_append] at h1
    refine ⟨(DataContainer.filterLoop f c.data).1, n, c.offset, (loosely_filter f c.data).keys, h2.symm, rfl, fun i c' hi => ?_⟩
    have hm' : c.moments (.filter f) = c :: (DataContainer.filterStates f c.data c.data).map (fun d => { c with data := d }) := rfl
    rw [hm', h1] at hi
    left
    cases i with
    | zero =>
      cases hi
      exact ⟨Nat.zero_le _, by rw [partly_zero]⟩
    | succ i =>
      rw [List.getElem?_cons_succ, List.map_map, List.getElem?_map] at hi
      by_cases hin : i < n
      · rw [List.getElem?_range hin] at hi
        simp at hi
        exact ⟨hin, hi.symm⟩
      · rw [List.getElem?_eq_none (by simpa using hin)] at hi
        exact absurd hi (by simp)

/-- Cuts of `subtract_min` and `filter`. -/
theorem cut_loop {c : DataContainer K} (hwf : Dict.WF c.data) {op : DataContainer.Op K}
    (h : op = .subtractMin ∨ ∃ f, op = .filter f) :
    (∀ k, ∃ p, Cut (fun c' c => Dict.get? c'.data k = Dict.get? c.data k) c op p) ∧ ∃ p, Cut SameRecord c op p := by
  rcases loop_like hwf h with ⟨h1, h2⟩ | ⟨d', N, o, hk, hN, h1, h2⟩
  · exact ⟨fun k => ⟨0, cut_one (R := fun c' c => Dict.get? c'.data k = Dict.get? c.data k) (fun _ => rfl) h1 h2⟩, 0, cut_one SameRecord.refl h1 h2⟩
  · refine ⟨fun k => ?_, ?_⟩
    · obtain ⟨j, hj⟩ := partly_get? hk k
      refine ⟨j + 1, fun i c' hi => ?_⟩
      rw [h1]
      rcases h2 i c' hi with ⟨hi', rfl⟩ | ⟨rfl, rfl⟩
      · dsimp only
        rw [hj i]
        constructor
        · intro h; rw [if_neg (by omega)]
        · intro h; rw [if_pos (by omega)]
      · refine ⟨fun h => ?_, fun _ => rfl⟩
        have := hj N
        rw [hN, if_neg (by omega)] at this
        exact this
    · by_cases ho : o = c.offset
      · refine ⟨0, fun i c' hi => ⟨fun h => absurd h (by omega), fun _ => ?_⟩⟩
        rw [h1, ho]
        rcases h2 i c' hi with ⟨_, rfl⟩ | ⟨_, rfl⟩
        · exact ⟨rfl, rfl, rfl⟩
        · rw [ho]; exact ⟨rfl, rfl, rfl⟩
      · refine ⟨N + 1, fun i c' hi => ?_⟩
        rw [h1]
        rcases h2 i c' hi with ⟨_, rfl⟩ | ⟨rfl, rfl⟩
        · exact ⟨fun _ => ⟨rfl, rfl, rfl⟩, fun h => absurd h (by omega)⟩
        · exact ⟨fun h => absurd h (by omega), fun _ => ⟨rfl, rfl, rfl⟩⟩

theorem Cut.mono {R R' : DataContainer K → DataContainer K → Prop} (h : ∀ c c', R c c' → R' c c') {c : DataContainer K}
    {op : DataContainer.Op K} {p : ℕ} (hp : Cut R c op p) : Cut R' c op p :=
  fun i c' hi => ⟨fun hip => h _ _ ((hp i c' hi).1 hip), fun hip => h _ _ ((hp i c' hi).2 hip)⟩

theorem cut_points {c : DataContainer K} (hc : c.Reachable) (op : DataContainer.Op K) (k : Key) : ∃ p, Cut (SamePoints k) c op p := by
  have hwf := (reachable_normalForm hc).1
  have hm : ∀ {c op p}, Cut (fun c' c : DataContainer K => Dict.get? c'.data k = Dict.get? c.data k) c op p → Cut (SamePoints k) c op p :=
    fun h => h.mono (fun _ _ => SamePoints.of_eq)
  cases op with
  | scale s => obtain ⟨⟨p, h⟩, _⟩ := cut_scale (c := c) (.inl ⟨s, rfl⟩); exact ⟨p, hm (h k)⟩
  | normalize d => obtain ⟨⟨p, h⟩, _⟩ := cut_scale (c := c) (.inr ⟨d, rfl⟩); exact ⟨p, hm (h k)⟩
  | phaseShift a u => obtain ⟨⟨p, h⟩, _⟩ := cut_shift hwf a u; exact ⟨p, h k⟩
  | subtractMin => obtain ⟨p, h⟩ := (cut_loop hwf (.inl rfl)).1 k; exact ⟨p, hm h⟩
  | filter f => obtain ⟨p, h⟩ := (cut_loop hwf (.inr ⟨f, rfl⟩)).1 k; exact ⟨p, hm h⟩

theorem cut_record {c : DataContainer K} (hc : c.Reachable) (op : DataContainer.Op K) : ∃ p, Cut SameRecord c op p := by
  have hwf := (reachable_normalForm hc).1
  cases op with
  | scale s => exact (cut_scale (c := c) (.inl ⟨s, rfl⟩)).2
  | normalize d => exact (cut_scale (c := c) (.inr ⟨d, rfl⟩)).2
  | phaseShift a u => exact (cut_shift hwf a u).2
  | subtractMin => exact (cut_loop hwf (.inl rfl)).2
  | filter f => exact (cut_loop hwf (.inr ⟨f, rfl⟩)).2

end
end Shgpy
