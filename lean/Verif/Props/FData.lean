import Verif.Proofs.FData

/-!
# Properties C11 (Fourier part), C17, C18, C19: `fDataContainer`
-/

set_option linter.unusedSectionVars false
set_option linter.unusedSimpArgs false

namespace Shgpy
open Spec

/-- `c` can be obtained from a constructor call by any sequence of method calls (failing ones included). -/
def FDataContainer.Reachable (c : FDataContainer) : Prop :=
  ∃ iter M c₀ ops, FDataContainer.init iter M = .ok c₀ ∧ c = FDataContainer.run c₀ ops

theorem FDataContainer.Reachable.good {c : FDataContainer} (h : c.Reachable) : c.Good := by
  obtain ⟨iter, M, c₀, ops, h1, rfl⟩ := h
  obtain ⟨_, _, _, _, hg, _⟩ := FDataContainer.run_closed (FDataContainer.init_good h1).1 ops
  exact hg

/-- **C17.** After any history the components are the original ones times
`get_scale() * e^{i m get_phase_shift('radians')}`; keys, `M` and lengths are unchanged. -/
theorem C17_history_closed_form {iter : List (RawKey × RawFVal)} {M : ℕ} {c₀ : FDataContainer}
    (h₀ : FDataContainer.init iter M = .ok c₀) (ops : List FDataContainer.Op) :
    let c := FDataContainer.run c₀ ops
    c.getKeys = c₀.getKeys ∧ c.getM = M ∧
    ∃ a : ℝ, c.getPhaseShift sRadians = .ok (.num a) ∧
      ∀ k v₀, c₀.getPc k = .ok v₀ → ∃ v, c.getPc k = .ok v ∧ v.length = 2 * M + 1 ∧
        ∀ m z₀, Component v₀ M m z₀ →
          Component v M m (z₀ * (c.getScale * Complex.exp (Complex.I * (m * a)))) := by
  intro c
  obtain ⟨hg, hM, hs, hp, _⟩ := FDataContainer.init_good h₀
  obtain ⟨s, a, p₀, h1, h2, h3, h4, h5, h6⟩ := FDataContainer.run_closed hg ops
  rw [hp] at h1
  cases h1
  refine ⟨?_, h3.trans hM, a, ?_, ?_⟩
  · unfold FDataContainer.getKeys
    show Dict.keys (FDataContainer.run c₀ ops).fdata = _
    rw [h6]; simp
  · show Except.ok (FDataContainer.run c₀ ops).phaseShift = _
    rw [h5, zero_add]
  · intro k v₀ hv
    have hmem := Dict.mem_of_get? (Dict.get_ok_iff.1 hv)
    refine ⟨mulComp M (fun m => (s : ℂ) * harmonic m a) v₀, ?_, length_mulComp _ _ _, ?_⟩
    · show Dict.get (FDataContainer.run c₀ ops).fdata k = _
      rw [h6, hM, Dict.get_ok_iff, Dict.get?_mapVals, Dict.get_ok_iff.1 hv]
      rfl
    · intro m z₀ hz
      obtain ⟨⟨hm1, hm2⟩, hz⟩ := hz
      refine ⟨⟨hm1, hm2⟩, ?_⟩
      rw [getElem?_mulComp (by omega), List.getD_eq_getElem?_getD, hz]
      have hsc : c.getScale = s := by
        show (FDataContainer.run c₀ ops).scale = s
        rw [h4, hs, one_mul]
      have hmm : (((m + M).toNat : ℕ) : ℤ) - M = m := by omega
      rw [hsc, hmm]
      rfl

/-- **C17.** What the operations record: an accepted `scale_fdata(s)` multiplies the recorded scale by `s`, an accepted
`normalize_fdata(d)` by `d / max`, and an accepted `phase_shift_fdata(a, units)` adds `a` (in radians) to the recorded
phase shift. -/
theorem C17_recorded {c : FDataContainer} (hc : c.Reachable) :
    (∀ s, 0 ≤ s → (FDataContainer.step c (.scale s)).1.getScale = c.getScale * s) ∧
    (∀ d k m, c.getMaxval = .ok (some (k, m)) → m ≠ 0 → 0 ≤ d / m →
      (FDataContainer.step c (.normalize d)).1.getScale = c.getScale * (d / m)) ∧
    (∀ a u p, lower u = sRadians ∨ lower u = sDegrees → c.getPhaseShift sRadians = .ok (.num p) →
      (FDataContainer.step c (.phaseShift a u)).1.getPhaseShift sRadians = .ok (.num (p + rad (lower u) a))) := by
  have hg := hc.good
  have hscale : ∀ s, 0 ≤ s → (FDataContainer.step c (.scale s)).1.getScale = c.getScale * s := by
    intro s hs
    rw [FDataContainer.step_scale, if_neg (not_lt.2 hs)]
    rfl
  refine ⟨hscale, ?_, ?_⟩
  · intro d k m hm hm0 hd
    rw [FDataContainer.step_normalize, hm]
    simp only [hm0, if_false]
    exact hscale _ hd
  · intro a u p hu hp
    have hp' : c.phaseShift = .num p := by
      have : c.getPhaseShift sRadians = .ok c.phaseShift := rfl
      rw [this] at hp
      exact Except.ok.inj hp
    rw [FDataContainer.step_phaseShift hg.wf hg.len, if_pos hu, hp']
    rfl

/-- The arrays `fDataContainer(iterable, M)` is meant to accept. -/
def FAcceptable (M : ℕ) (d : Dict RawKey RawFVal) : Prop :=
  ∀ k v, (k, v) ∈ d → (∃ s, k = RawKey.str s) ∧
    ∃ dt a, v = .arr1 dt a ∧ (dt = .complex64 ∨ dt = .complex128) ∧ a.length = 2 * M + 1

/-- **C18.** The constructor accepts exactly string keys with one-dimensional complex arrays of length `2M+1`, and
raises `ValueError` otherwise; what it stores is the given dictionary. -/
theorem C18_acceptance (iter : List (RawKey × RawFVal)) (M : ℕ) :
    (FAcceptable M (Dict.ofPairs iter) → ∃ c, FDataContainer.init iter M = .ok c ∧ c.getM = M ∧
      c.getScale = 1 ∧ c.getPhaseShift sRadians = .ok (.num 0) ∧
      (∀ k, RawKey.str k ∈ Dict.keys (Dict.ofPairs iter) ↔ k ∈ c.getKeys) ∧
      ∀ k a, c.getPc k = .ok a ↔ ∃ dt, (RawKey.str k, RawFVal.arr1 dt a) ∈ Dict.ofPairs iter) ∧
    (¬ FAcceptable M (Dict.ofPairs iter) → FDataContainer.init iter M = .error .valueError) := by
  constructor
  · intro hacc
    obtain ⟨d, hd⟩ := checkFIterable_of (M := M) (d := Dict.ofPairs iter) (by
      rintro ⟨k, v⟩ hkv
      obtain ⟨⟨s, hs⟩, dt, a, h1, h2, h3⟩ := hacc k v hkv
      exact ⟨s, a, hs, checkFVal_some.2 ⟨dt, h1, h3, h2⟩⟩)
    have hinit : FDataContainer.init iter M = .ok ⟨d, M, 1, .num 0⟩ := by
      unfold FDataContainer.init; rw [hd]; rfl
    obtain ⟨hg, _, _, _, hf⟩ := FDataContainer.init_good hinit
    refine ⟨_, hinit, rfl, rfl, rfl, ?_, ?_⟩
    · intro k
      have := keys_of_forall₂ (R := fun a b => checkFVal M a = some b) hf
      rw [this]
      simp [FDataContainer.getKeys]
    · intro k a
      constructor
      · intro hk
        obtain ⟨p, hp, hp1, hp2⟩ := forall₂_mem_right hf (Dict.mem_of_get? (Dict.get_ok_iff.1 hk))
        obtain ⟨k', v'⟩ := p
        simp only at hp1 hp2
        obtain ⟨dt, hv, _⟩ := checkFVal_some.1 hp2
        subst hp1 hv
        exact ⟨dt, hp⟩
      · rintro ⟨dt, hm⟩
        obtain ⟨q, hq, hq1, hq2⟩ := forall₂_mem_left hf hm
        obtain ⟨k', v'⟩ := q
        simp only at hq1 hq2
        obtain ⟨_, hv, _⟩ := checkFVal_some.1 hq2
        cases hq1; cases hv
        exact get_of_mem hg.wf hq
  · intro hacc
    unfold FDataContainer.init
    cases hc : checkFIterable M (Dict.ofPairs iter) with
    | error e => rw [checkFIterable_error hc]; rfl
    | ok d =>
      exfalso
      apply hacc
      intro k v hkv
      obtain ⟨q, _, hq1, hq2⟩ := forall₂_mem_left (checkFIterable_ok hc) hkv
      obtain ⟨dt, h1, h2, h3⟩ := checkFVal_some.1 hq2
      exact ⟨⟨_, hq1⟩, dt, _, h1, h3, h2⟩

/-- **C18.** In every reachable container the index computed for frequency `m ∈ [-M, M]` addresses an element,
namely number `m + M`, and different frequencies address different positions. -/
theorem C18_indexing {c : FDataContainer} (hc : c.Reachable) {k : Key} {v : List ℂ} (hv : c.getPc k = .ok v)
    {m : ℤ} (hm : -(c.getM : ℤ) ≤ m ∧ m ≤ c.getM) :
    (∃ z, pyGet v (n2i m c.getM) = .ok z ∧ Component v c.getM m z) ∧
    ∀ m', n2i m c.getM = n2i m' c.getM → m = m' := by
  have hl := hc.good.len _ (Dict.mem_of_get? (Dict.get_ok_iff.1 hv))
  obtain ⟨z, h1, h2⟩ := pyGet_n2i_ok hl (mem_freqs.2 hm)
  exact ⟨⟨z, h1, hm, h2⟩, fun m' h => by unfold n2i at h; omega⟩

/-- **C19.** `get_maxval` finds the largest magnitude, and the first combination attaining it. -/
theorem C19_maxval {c : FDataContainer} (hc : c.Reachable) :
    (c.getItems = [] ∧ c.getMaxval = .ok none) ∨
    ∃ k m, c.getMaxval = .ok (some (k, m)) ∧
      ∃ pre v post, c.getItems = pre ++ (k, v) :: post ∧ (∃ z ∈ v, ‖z‖ = m) ∧ (∀ z ∈ v, ‖z‖ ≤ m) ∧
        (∀ it ∈ pre, ∀ z ∈ it.2, ‖z‖ < m) ∧ (∀ it ∈ post, ∀ z ∈ it.2, ‖z‖ ≤ m) :=
  FDataContainer.getMaxval_spec hc.good.len

/-- **C19.** `get_pc_maxval` is the largest magnitude of one combination; `KeyError` for unknown ones. -/
theorem C19_pc_maxval {c : FDataContainer} (hc : c.Reachable) (k : Key) :
    (k ∉ c.getKeys ∧ c.getPcMaxval k = .error .keyError) ∨
    ∃ v m, c.getPc k = .ok v ∧ c.getPcMaxval k = .ok m ∧ (∃ z ∈ v, ‖z‖ = m) ∧ ∀ z ∈ v, ‖z‖ ≤ m := by
  cases h : Dict.get c.fdata k with
  | error e =>
    left
    have := Dict.get_error_iff.1 h
    refine ⟨this.1, ?_⟩
    unfold FDataContainer.getPcMaxval
    rw [h, this.2]; rfl
  | ok v =>
    right
    have hl := hc.good.len _ (Dict.mem_of_get? (Dict.get_ok_iff.1 h))
    have hne : v.map (fun z => ‖z‖) ≠ [] := by
      intro hh
      have := congrArg List.length hh
      simp at this
      rw [this] at hl
      simp at hl
    obtain ⟨m, hm⟩ := pyMax_ne_nil hne
    obtain ⟨h1, h2⟩ := pyMax_spec hm
    refine ⟨v, m, h, ?_, ?_, ?_⟩
    · unfold FDataContainer.getPcMaxval
      rw [h]; exact hm
    · obtain ⟨z, hz, hzm⟩ := List.mem_map.1 h1
      exact ⟨z, hz, hzm⟩
    · intro z hz
      exact h2 _ (List.mem_map.2 ⟨z, hz, rfl⟩)

theorem FDataContainer.maxval_pos {c : FDataContainer} (hc : c.Reachable) (hnz : ∃ it ∈ c.getItems, ∃ z ∈ it.2, z ≠ 0) :
    ∃ k m, c.getMaxval = .ok (some (k, m)) ∧ 0 < m := by
  obtain ⟨it, hit, z, hz, hz0⟩ := hnz
  rcases C19_maxval hc with ⟨h1, _⟩ | ⟨k, m, h1, pre, v, post, h2, h3, h4, h5, h6⟩
  · rw [h1] at hit; cases hit
  · refine ⟨k, m, h1, ?_⟩
    have hpos : 0 < ‖z‖ := norm_pos_iff.2 hz0
    rw [h2, List.mem_append, List.mem_cons] at hit
    rcases hit with hit | rfl | hit
    · exact hpos.trans (h5 it hit z hz)
    · exact hpos.trans_le (h4 z hz)
    · exact hpos.trans_le (h6 it hit z hz)

/-- **C19.** After `normalize_fdata(d)`, `d > 0`, on data that is not identically zero the largest magnitude is
exactly `d`, attained by the same combination as before; `normalize_fdata(0)` makes every component zero. -/
theorem C19_normalize {c : FDataContainer} (hc : c.Reachable)
    (hnz : ∃ it ∈ c.getItems, ∃ z ∈ it.2, z ≠ 0) :
    (∀ d, 0 < d → (FDataContainer.step c (.normalize d)).2 = none ∧
      ∃ k m, c.getMaxval = .ok (some (k, m)) ∧
        (FDataContainer.step c (.normalize d)).1.getMaxval = .ok (some (k, d))) ∧
    ((FDataContainer.step c (.normalize 0)).2 = none ∧
      ∀ it ∈ (FDataContainer.step c (.normalize 0)).1.getItems, ∀ z ∈ it.2, z = 0) := by
  obtain ⟨k, m, h1, hm⟩ := FDataContainer.maxval_pos hc hnz
  constructor
  · intro d hd
    have hs : 0 < d / m := div_pos hd hm
    rw [FDataContainer.step_normalize, h1]
    simp only [hm.ne', if_false]
    rw [FDataContainer.step_scale, if_neg (not_lt.2 hs.le)]
    refine ⟨rfl, k, m, rfl, ?_⟩
    unfold FDataContainer.getMaxval
    have := FDataContainer.maxLoop_scale hs none c.fdata
    simp only [Option.map_none] at this
    rw [this]
    have h1' : FDataContainer.maxLoop none c.fdata = .ok (some (k, m)) := h1
    rw [h1']
    simp [Except.map, hm.ne']
  · rw [FDataContainer.step_normalize, h1]
    simp only [hm.ne', if_false, zero_div]
    rw [FDataContainer.step_scale, if_neg (lt_irrefl _)]
    refine ⟨rfl, ?_⟩
    rintro ⟨k', v'⟩ hit z hz
    obtain ⟨v, _, rfl⟩ := Dict.mem_mapVals.1 hit
    obtain ⟨w, _, rfl⟩ := List.mem_map.1 hz
    simp

/-- **C19.** `phase_shift_fdata` leaves all magnitudes unchanged. -/
theorem C19_phase_shift_magnitudes {c : FDataContainer} (hc : c.Reachable) (a : ℝ) (u : Key) (k : Key)
    {v : List ℂ} (hv : c.getPc k = .ok v) :
    ∃ v', (FDataContainer.step c (.phaseShift a u)).1.getPc k = .ok v' ∧
      v'.map (fun z => ‖z‖) = v.map (fun z => ‖z‖) := by
  have hg := hc.good
  rw [FDataContainer.step_phaseShift hg.wf hg.len]
  split
  · obtain ⟨p, hp⟩ := hg.num
    rw [hp]
    refine ⟨mulComp c.M (fun m => harmonic m (FDataContainer.angle a u)) v, ?_, ?_⟩
    · show Dict.get _ k = _
      rw [Dict.get_ok_iff, Dict.get?_mapVals, Dict.get_ok_iff.1 hv]
      rfl
    · have hl := hg.len _ (Dict.mem_of_get? (Dict.get_ok_iff.1 hv))
      simp only at hl
      apply List.ext_getElem?
      intro i
      by_cases hi : i < 2 * c.M + 1
      · rw [List.getElem?_map, List.getElem?_map, getElem?_mulComp hi, List.getD_eq_getElem?_getD,
          List.getElem?_eq_getElem (show i < v.length by omega)]
        simp [norm_harmonic]
      · rw [List.getElem?_eq_none (by simp [length_mulComp]; omega), List.getElem?_eq_none (by simp; omega)]
  · exact ⟨v, hv, rfl⟩

/-- **C11.** Rejected operations leave the Fourier container as it was, and operations are rejected exactly for a
negative factor or an unknown unit. -/
theorem C11_rejected_fdata_operations {c : FDataContainer} (hc : c.Reachable) :
    (∀ op e, (FDataContainer.step c op).2 = some e → (FDataContainer.step c op).1 = c) ∧
    (∀ s, (FDataContainer.step c (.scale s)).2 = if s < 0 then some .valueError else none) ∧
    (∀ a u, (FDataContainer.step c (.phaseShift a u)).2 =
      if lower u = sRadians ∨ lower u = sDegrees then none else some .valueError) ∧
    ((∃ it ∈ c.getItems, ∃ z ∈ it.2, z ≠ 0) → ∀ d,
      (FDataContainer.step c (.normalize d)).2 = if d < 0 then some .valueError else none) := by
  have hg := hc.good
  obtain ⟨p, hp⟩ := hg.num
  have hsc : ∀ s e, (FDataContainer.step c (.scale s)).2 = some e → (FDataContainer.step c (.scale s)).1 = c := by
    intro s e he
    rw [FDataContainer.step_scale] at he ⊢
    split at he
    · rename_i hs; rw [if_pos hs]
    · cases he
  refine ⟨?_, ?_, ?_, ?_⟩
  · intro op e he
    cases op with
    | scale s => exact hsc s e he
    | normalize d =>
      rw [FDataContainer.step_normalize] at he ⊢
      cases h : c.getMaxval with
      | error e => rfl
      | ok o =>
        rw [h] at he
        cases o with
        | none => exact hsc _ _ he
        | some km =>
          simp only at he ⊢
          by_cases hm : km.2 = 0
          · rw [if_pos hm]
          · rw [if_neg hm] at he ⊢
            exact hsc _ _ he
    | phaseShift a u =>
      rw [FDataContainer.step_phaseShift hg.wf hg.len, hp] at he ⊢
      split at he
      · cases he
      · rename_i hu; rw [if_neg hu]
  · intro s
    rw [FDataContainer.step_scale]
    split <;> rfl
  · intro a u
    rw [FDataContainer.step_phaseShift hg.wf hg.len, hp]
    split <;> rfl
  · intro hnz d
    obtain ⟨k, m, h1, hm⟩ := FDataContainer.maxval_pos hc hnz
    rw [FDataContainer.step_normalize, h1]
    simp only [hm.ne', if_false]
    rw [FDataContainer.step_scale]
    by_cases hd : d < 0
    · rw [if_pos (div_neg_of_neg_of_pos hd hm), if_pos hd]
    · rw [if_neg (not_lt.2 (div_nonneg (not_lt.1 hd) hm.le)), if_neg hd]

/-! ### A concrete case -/

/-- A reachable, scaled and shifted container with two combinations and nonzero data, `M = 1`. -/
example : ∃ c : FDataContainer, c.Reachable ∧ c.getKeys = [kPP, kSS] ∧ c.getM = 1 ∧
    ∃ it ∈ c.getItems, ∃ z ∈ it.2, z ≠ 0 := by
  have hi : FDataContainer.init [(.str kPP, .arr1 .complex64 [1, 2, 1]),
      (.str kSS, .arr1 .complex128 [Complex.I, 0, -Complex.I])] 1 =
      .ok ⟨[(kPP, [1, 2, 1]), (kSS, [Complex.I, 0, -Complex.I])], 1, 1, .num 0⟩ := by
    rfl
  obtain ⟨hk, hM, a, ha, hcl⟩ := C17_history_closed_form hi [.scale 3, .phaseShift 90 sDegrees, .scale (-1)]
  refine ⟨_, ⟨_, _, _, _, hi, rfl⟩, hk, hM, ?_⟩
  obtain ⟨v, hv, _, hv2⟩ := hcl kPP [1, 2, 1] rfl
  have := hv2 0 2 ⟨by norm_num, rfl⟩
  refine ⟨(kPP, v), Dict.mem_of_get? (Dict.get_ok_iff.1 hv), _, List.mem_of_getElem? this.2, ?_⟩
  have hsc : (FDataContainer.run ⟨[(kPP, [1, 2, 1]), (kSS, [Complex.I, 0, -Complex.I])], 1, 1, .num 0⟩
      [.scale 3, .phaseShift 90 sDegrees, .scale (-1)]).getScale = 3 := by
    unfold FDataContainer.run
    simp only [List.foldl_cons, List.foldl_nil]
    rw [FDataContainer.step_scale _ (-1), if_pos (by norm_num)]
    have hg : FDataContainer.Good (FDataContainer.step ⟨[(kPP, [1, 2, 1]), (kSS, [Complex.I, 0, -Complex.I])], 1, 1,
        .num 0⟩ (.scale 3)).1 :=
      FDataContainer.Reachable.good ⟨_, _, _, [.scale 3], hi, rfl⟩
    rw [FDataContainer.step_phaseShift hg.wf hg.len, if_pos (Or.inr (by decide))]
    rw [FDataContainer.step_scale, if_neg (by norm_num)]
    simp [FDataContainer.getScale]
  rw [hsc]
  simp

end Shgpy
