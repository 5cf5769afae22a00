import Verif.Model.ReadersOther
import Verif.Proofs.Readers

/-! Lemmas about the moments of a list of calls on Fourier data and on formulas. -/

set_option linter.unusedSectionVars false

namespace Shgpy
open Spec

section
variable {σ ω : Type} {moments : σ → ω → List σ} {step : σ → ω → σ}

/-- Before the moment with number `p` what is read is that before the call, and from then on that after it. -/
def CutOf (moments : σ → ω → List σ) (step : σ → ω → σ) (R : σ → σ → Prop) (c : σ) (op : ω) (p : ℕ) : Prop :=
  ∀ i c', (moments c op)[i]? = some c' → (i < p → R c' c) ∧ (p ≤ i → R c' (step c op))

theorem assembleOf {P : σ → Prop} (hstep : ∀ c op, P c → P (step c op)) {R : σ → σ → Prop} (hR : ∀ c, P c → R c c) (ops : List ω)
    (hcut : ∀ op ∈ ops, ∀ c, P c → ∃ p, CutOf moments step R c op p) {c : σ} (hc : P c) :
    ∃ ν : ℕ → ℕ, Monotone ν ∧ ∀ i c', (traceOf moments step c ops)[i]? = some c' →
      finishedOf moments step c ops i ≤ ν i ∧ ν i ≤ finishedOf moments step c ops i + 1 ∧ ν i ≤ ops.length ∧
      R c' ((ops.take (ν i)).foldl step c) := by
  induction ops generalizing c with
  | nil =>
    refine ⟨fun _ => 0, fun _ _ _ => le_rfl, fun i c' h => ⟨le_rfl, Nat.zero_le _, le_rfl, ?_⟩⟩
    cases i with
    | zero =>
      have : c = c' := Option.some.inj h
      subst this
      exact hR c hc
    | succ i => exact absurd h (by simp [traceOf])
  | cons op l ih =>
    obtain ⟨p, hp⟩ := hcut op (by simp) c hc
    obtain ⟨ν, hν, hs⟩ := ih (fun o ho => hcut o (by simp [ho])) (hstep c op hc)
    refine ⟨fun i => if i < (moments c op).length then (if i < p then 0 else 1) else 1 + ν (i - (moments c op).length), ?_, ?_⟩
    · intro i j hij
      have hm := hν (Nat.sub_le_sub_right hij (moments c op).length)
      dsimp only
      split_ifs <;> omega
    · intro i c' h
      unfold traceOf at h
      unfold finishedOf
      by_cases hi : i < (moments c op).length
      · rw [List.getElem?_append_left hi] at h
        simp only [if_pos hi]
        obtain ⟨h1, h2⟩ := hp i c' h
        by_cases hip : i < p
        · rw [if_pos hip]
          exact ⟨le_rfl, by omega, by omega, h1 hip⟩
        · rw [if_neg hip]
          exact ⟨by omega, by omega, by simp, h2 (by omega)⟩
      · rw [List.getElem?_append_right (by omega)] at h
        simp only [if_neg hi]
        obtain ⟨h1, h2, h3, h4⟩ := hs _ c' h
        refine ⟨by omega, by omega, by rw [List.length_cons]; omega, ?_⟩
        rw [Nat.add_comm 1, List.take_succ_cons]
        exact h4

theorem traceOf_last (c : σ) (ops : List ω) : (traceOf moments step c ops).getLast? = some (ops.foldl step c) := by
  induction ops generalizing c with
  | nil => rfl
  | cons op l ih =>
    unfold traceOf
    rw [List.getLast?_append, ih]
    rfl

theorem cutOf_pair {R : σ → σ → Prop} {c : σ} {op : ω} (h0 : R c c) (h1 : R (step c op) (step c op))
    (h : moments c op = [c, step c op] ∨ moments c op = [c] ∧ step c op = c) : ∃ p, CutOf moments step R c op p := by
  rcases h with h | ⟨h, h'⟩
  · refine ⟨1, fun i c' hi => ?_⟩
    rw [h] at hi
    match i, hi with
    | 0, hi => cases hi; exact ⟨fun _ => h0, fun h => absurd h (by omega)⟩
    | 1, hi => cases hi; exact ⟨fun h => absurd h (by omega), fun _ => h1⟩
    | i + 2, hi => exact absurd hi (by simp)
  · refine ⟨0, fun i c' hi => ?_⟩
    rw [h] at hi
    rw [h']
    cases i with
    | zero => cases hi; exact ⟨fun _ => h0, fun _ => h0⟩
    | succ i => exact absurd hi (by simp)

/-- If the items are replaced in their order, each combination changes at one moment. -/
theorem cutOf_partly {α : Type} (dict : σ → Dict Key α) {c : σ} {op : ω} (hk : (dict (step c op)).keys = (dict c).keys) {n : ℕ → ℕ}
    (hn : Monotone n) (h : ∀ i c', (moments c op)[i]? = some c' → dict c' = partly (n i) (dict c) (dict (step c op))) (k : Key) :
    ∃ p, CutOf moments step (fun c' c => Dict.get? (dict c') k = Dict.get? (dict c) k) c op p := by
  classical
  obtain ⟨j, hj⟩ := partly_get? hk k
  by_cases hex : ∃ i, j < n i
  · refine ⟨Nat.find hex, fun i c' hi => ?_⟩
    dsimp only
    rw [h i c' hi, hj]
    refine ⟨fun hip => if_neg (Nat.find_min hex hip), fun hip => if_pos ?_⟩
    exact lt_of_lt_of_le (Nat.find_spec hex) (hn hip)
  · push Not at hex
    refine ⟨(moments c op).length, fun i c' hi => ?_⟩
    dsimp only
    rw [h i c' hi, hj]
    refine ⟨fun _ => if_neg (by have := hex i; omega), fun hip => ?_⟩
    rw [List.getElem?_eq_none hip] at hi
    exact absurd hi (by simp)

end

/-! ### Fourier data -/

theorem FDataContainer.Reachable.step {c : FDataContainer} (h : c.Reachable) (op : FDataContainer.Op) :
    (FDataContainer.step c op).1.Reachable := by
  obtain ⟨iter, M, c₀, ops, h1, rfl⟩ := h
  refine ⟨iter, M, c₀, ops ++ [op], h1, ?_⟩
  unfold FDataContainer.run
  rw [List.foldl_append]
  rfl

/-- Moments of `scale_fdata`, and of `normalize_fdata`, which ends with it. -/
theorem fscale_like (c : FDataContainer) {op : FDataContainer.Op} (h : (∃ s, op = .scale s) ∨ ∃ d, op = .normalize d) :
    (c.moments op = [c] ∧ (FDataContainer.step c op).1 = c) ∨
    ∃ s : ℝ, c.moments op = [c, { c with fdata := c.fdata.mapVals (fun v => v.map (fun z => (s : ℂ) * z)) },
          { c with fdata := c.fdata.mapVals (fun v => v.map (fun z => (s : ℂ) * z)), scale := c.scale * s }] ∧
        (FDataContainer.step c op).1 = { c with fdata := c.fdata.mapVals (fun v => v.map (fun z => (s : ℂ) * z)), scale := c.scale * s } := by
  have hsc : ∀ s, (c.scaleMoments s = [c] ∧ (FDataContainer.step c (.scale s)).1 = c) ∨
      (c.scaleMoments s = [c, { c with fdata := c.fdata.mapVals (fun v => v.map (fun z => (s : ℂ) * z)) },
          { c with fdata := c.fdata.mapVals (fun v => v.map (fun z => (s : ℂ) * z)), scale := c.scale * s }] ∧
        (FDataContainer.step c (.scale s)).1 =
          { c with fdata := c.fdata.mapVals (fun v => v.map (fun z => (s : ℂ) * z)), scale := c.scale * s }) := by
    intro s
    rw [FDataContainer.step_scale]
    unfold FDataContainer.scaleMoments
    by_cases hs : s < 0
    · rw [if_pos hs, if_pos hs]; exact .inl ⟨rfl, rfl⟩
    · rw [if_neg hs, if_neg hs]; exact .inr ⟨rfl, rfl⟩
  rcases h with ⟨s, rfl⟩ | ⟨d, rfl⟩
  · rcases hsc s with h | h
    · exact .inl h
    · exact .inr ⟨s, h⟩
  · rw [FDataContainer.step_normalize]
    have hm' : c.moments (.normalize d) = c.normalizeMoments d := rfl
    rw [hm']
    unfold FDataContainer.normalizeMoments
    cases hm : c.getMaxval with
    | error e => exact .inl ⟨rfl, rfl⟩
    | ok o =>
      cases o with
      | none =>
        rcases hsc 0 with h | h
        · exact .inl h
        · exact .inr ⟨0, h⟩
      | some km =>
        dsimp only
        by_cases h0 : km.2 = 0
        · rw [if_pos h0, if_pos h0]; exact .inl ⟨rfl, rfl⟩
        · rw [if_neg h0, if_neg h0]
          rcases hsc (d / km.2) with h | h
          · exact .inl h
          · exact .inr ⟨_, h⟩

/-- A loop over the items, then perhaps one more assignment. -/
theorem loop_getElem? {α σ : Type} (f : α → α) {d : Dict Key α} (h : Dict.WF d) (g : Dict Key α → σ) (rest : List σ) {i : ℕ} {x : σ}
    (hi : ((g d :: (loopStates f d d).map g) ++ rest)[i]? = some x) :
    (i ≤ d.length ∧ x = g (partly i d (d.mapVals f))) ∨ (d.length < i ∧ rest[i - d.length - 1]? = some x) := by
  rw [loopStates_self _ h] at hi
  cases i with
  | zero => cases hi; exact .inl ⟨Nat.zero_le _, by rw [partly_zero]⟩
  | succ i =>
    rw [List.cons_append, List.getElem?_cons_succ] at hi
    by_cases hil : i < d.length
    · rw [List.getElem?_append_left (by simpa using hil), List.map_map, List.getElem?_map, List.getElem?_range hil] at hi
      simp at hi
      exact .inl ⟨hil, hi.symm⟩
    · rw [List.getElem?_append_right (by simpa using Nat.le_of_not_lt hil)] at hi
      simp only [List.length_map, List.length_range] at hi
      exact .inr ⟨by omega, by rw [← hi]; congr 1; omega⟩

theorem fshift_moments {c : FDataContainer} (hg : c.Good) (a : ℝ) (u : Key) :
    (c.moments (.phaseShift a u) = [c] ∧ (FDataContainer.step c (.phaseShift a u)).1 = c) ∨
    ((FDataContainer.step c (.phaseShift a u)).1.fdata.keys = c.fdata.keys ∧
      (FDataContainer.step c (.phaseShift a u)).1.fdata.length = c.fdata.length ∧
      ∀ i c', (c.moments (.phaseShift a u))[i]? = some c' →
        (i ≤ c.fdata.length ∧ c' = { c with fdata := partly i c.fdata (FDataContainer.step c (.phaseShift a u)).1.fdata }) ∨
        (i = c.fdata.length + 1 ∧ c' = (FDataContainer.step c (.phaseShift a u)).1)) := by
  by_cases hu : lower u = sRadians ∨ lower u = sDegrees
  · right
    obtain ⟨p, hp⟩ := hg.num
    have hst := FDataContainer.step_phaseShift hg.wf hg.len a u
    rw [if_pos hu, hp] at hst
    have hd : (FDataContainer.step c (.phaseShift a u)).1.fdata =
        c.fdata.mapVals (mulComp c.M (fun m => harmonic m (FDataContainer.angle a u))) := by rw [hst]
    refine ⟨by rw [hd, Dict.keys_mapVals], by rw [hd, mapVals_length], fun i c' hi => ?_⟩
    rw [fdata_shiftMoments hg hu hp] at hi
    rcases loop_getElem? _ hg.wf (fun d => ({ c with fdata := d } : FDataContainer)) _ hi with ⟨h1, h2⟩ | ⟨h1, h2⟩
    · exact .inl ⟨h1, by rw [h2, hd]⟩
    · right
      cases hj : i - c.fdata.length - 1 with
      | zero =>
        rw [hj] at h2
        exact ⟨by omega, (Option.some.inj h2).symm⟩
      | succ j => rw [hj] at h2; exact absurd h2 (by simp)
  · left
    have hc : checkAngleUnits (lower u) = .error .valueError := by unfold checkAngleUnits; rw [if_neg hu]
    rw [FDataContainer.step_phaseShift hg.wf hg.len, if_neg hu]
    refine ⟨?_, rfl⟩
    show c.shiftMoments a u = _
    unfold FDataContainer.shiftMoments
    rw [hc]

/-- The cuts of the methods of Fourier data. -/
theorem fdata_cut {c : FDataContainer} (hc : c.Reachable) (op : FDataContainer.Op) (k : Key) :
    ∃ p, CutOf FDataContainer.moments (fun c op => (FDataContainer.step c op).1)
      (fun c' c => Dict.get? c'.fdata k = Dict.get? c.fdata k) c op p := by
  have hg := hc.good
  have hone : ∀ {op}, c.moments op = [c] ∧ (FDataContainer.step c op).1 = c →
      ∃ p, CutOf FDataContainer.moments (fun c op => (FDataContainer.step c op).1)
        (fun c' c => Dict.get? c'.fdata k = Dict.get? c.fdata k) c op p :=
    fun h => cutOf_pair (R := fun c' c : FDataContainer => Dict.get? c'.fdata k = Dict.get? c.fdata k) rfl rfl (.inr h)
  have hsc : ∀ {op}, ((∃ s, op = .scale s) ∨ ∃ d, op = .normalize d) →
      ∃ p, CutOf FDataContainer.moments (fun c op => (FDataContainer.step c op).1)
        (fun c' c => Dict.get? c'.fdata k = Dict.get? c.fdata k) c op p := by
    intro op h
    rcases fscale_like c h with h | ⟨s, h1, h2⟩
    · exact hone h
    · refine ⟨1, fun i c' hi => ?_⟩
      rw [h1] at hi
      dsimp only
      rw [h2]
      match i, hi with
      | 0, hi => cases hi; exact ⟨fun _ => rfl, fun h => absurd h (by omega)⟩
      | 1, hi => cases hi; exact ⟨fun h => absurd h (by omega), fun _ => rfl⟩
      | 2, hi => cases hi; exact ⟨fun h => absurd h (by omega), fun _ => rfl⟩
      | i + 3, hi => exact absurd hi (by simp)
  cases op with
  | scale s => exact hsc (.inl ⟨s, rfl⟩)
  | normalize d => exact hsc (.inr ⟨d, rfl⟩)
  | phaseShift a u =>
    rcases fshift_moments hg a u with h | ⟨h1, h2, h3⟩
    · exact hone h
    · refine cutOf_partly FDataContainer.fdata h1 (n := id) monotone_id (fun i c' hi => ?_) k
      rcases h3 i c' hi with ⟨_, rfl⟩ | ⟨rfl, rfl⟩
      · rfl
      · unfold partly
        rw [id, List.take_of_length_le (by omega), List.drop_eq_nil_of_le (by omega), List.append_nil]

/-- The recorded numbers. -/
theorem fdata_cut_record {c : FDataContainer} (hc : c.Reachable) (op : FDataContainer.Op) :
    ∃ p, CutOf FDataContainer.moments (fun c op => (FDataContainer.step c op).1)
      (fun c' c => c'.getScale = c.getScale ∧ ∀ u, c'.getPhaseShift u = c.getPhaseShift u) c op p := by
  have hg := hc.good
  have hone : ∀ {op}, c.moments op = [c] ∧ (FDataContainer.step c op).1 = c →
      ∃ p, CutOf FDataContainer.moments (fun c op => (FDataContainer.step c op).1)
        (fun c' c => c'.getScale = c.getScale ∧ ∀ u, c'.getPhaseShift u = c.getPhaseShift u) c op p :=
    fun h => cutOf_pair (R := fun c' c : FDataContainer => c'.getScale = c.getScale ∧ ∀ u, c'.getPhaseShift u = c.getPhaseShift u)
      ⟨rfl, fun _ => rfl⟩ ⟨rfl, fun _ => rfl⟩ (.inr h)
  have hsc : ∀ {op}, ((∃ s, op = .scale s) ∨ ∃ d, op = .normalize d) →
      ∃ p, CutOf FDataContainer.moments (fun c op => (FDataContainer.step c op).1)
        (fun c' c => c'.getScale = c.getScale ∧ ∀ u, c'.getPhaseShift u = c.getPhaseShift u) c op p := by
    intro op h
    rcases fscale_like c h with h | ⟨s, h1, h2⟩
    · exact hone h
    · refine ⟨2, fun i c' hi => ?_⟩
      rw [h1] at hi
      dsimp only
      rw [h2]
      match i, hi with
      | 0, hi => cases hi; exact ⟨fun _ => ⟨rfl, fun _ => rfl⟩, fun h => absurd h (by omega)⟩
      | 1, hi => cases hi; exact ⟨fun _ => ⟨rfl, fun _ => rfl⟩, fun h => absurd h (by omega)⟩
      | 2, hi => cases hi; exact ⟨fun h => absurd h (by omega), fun _ => ⟨rfl, fun _ => rfl⟩⟩
      | i + 3, hi => exact absurd hi (by simp)
  cases op with
  | scale s => exact hsc (.inl ⟨s, rfl⟩)
  | normalize d => exact hsc (.inr ⟨d, rfl⟩)
  | phaseShift a u =>
    rcases fshift_moments hg a u with h | ⟨h1, h2, h3⟩
    · exact hone h
    · refine ⟨c.fdata.length + 1, fun i c' hi => ?_⟩
      rcases h3 i c' hi with ⟨h4, rfl⟩ | ⟨rfl, rfl⟩
      · exact ⟨fun _ => ⟨rfl, fun _ => rfl⟩, fun h => absurd h (by omega)⟩
      · exact ⟨fun h => absurd h (by omega), fun _ => ⟨rfl, fun _ => rfl⟩⟩

/-- The number of frequencies never changes. -/
theorem fdata_M {c : FDataContainer} (hc : c.Reachable) (op : FDataContainer.Op) {c' : FDataContainer} (h : c' ∈ c.moments op) :
    c'.M = c.M ∧ (FDataContainer.step c op).1.M = c.M := by
  have hst : (FDataContainer.step c op).1.M = c.M := by
    have hl := fdata_last hc.good op
    cases op with
    | scale s => rcases fscale_like c (.inl ⟨s, rfl⟩) with ⟨_, h2⟩ | ⟨s, _, h2⟩ <;> rw [h2]
    | normalize d => rcases fscale_like c (.inr ⟨d, rfl⟩) with ⟨_, h2⟩ | ⟨s, _, h2⟩ <;> rw [h2]
    | phaseShift a u =>
      by_cases hu : lower u = sRadians ∨ lower u = sDegrees
      · obtain ⟨p, hp⟩ := hc.good.num
        rw [FDataContainer.step_phaseShift hc.good.wf hc.good.len, if_pos hu, hp]
      · rw [FDataContainer.step_phaseShift hc.good.wf hc.good.len, if_neg hu]
  refine ⟨?_, hst⟩
  rcases fdata_moments hc.good h with rfl | ⟨n, rfl⟩
  · exact hst
  · rfl

/-! ### Formulas -/

theorem FFormContainer.Reachable.step {S : Sympy} {c : FFormContainer} (h : c.Reachable S) (op : FFormContainer.Op) :
    (FFormContainer.step S c op).1.Reachable S := by
  obtain ⟨iter, M, c₀, ops, h1, rfl⟩ := h
  refine ⟨iter, M, c₀, ops ++ [op], h1, ?_⟩
  unfold FFormContainer.run
  rw [List.foldl_append]
  rfl

theorem FormContainer.Reachable.step {S : Sympy} {c : FormContainer} (h : c.Reachable S) (op : FormContainer.Op) :
    (FormContainer.step S c op).1.Reachable S := by
  obtain ⟨iter, c₀, ops, h1, rfl⟩ := h
  refine ⟨iter, c₀, ops ++ [op], h1, ?_⟩
  unfold FormContainer.run
  rw [List.foldl_append]
  rfl

theorem fform_cut {S : Sympy} {c : FFormContainer} (hc : c.Reachable S) (op : FFormContainer.Op) (k : Key) :
    ∃ p, CutOf (FFormContainer.moments S) (fun c op => (FFormContainer.step S c op).1)
      (fun c' c => Dict.get? c'.fform k = Dict.get? c.fform k) c op p := by
  by_cases hop : ∃ s, op = .scale s
  · obtain ⟨s, rfl⟩ := hop
    refine cutOf_partly FFormContainer.fform ?_ (n := id) monotone_id (fun i c' hi => ?_) k
    · rw [FFormContainer.step_scale, Dict.keys_mapVals]
    · have h := loop_getElem? (FFormContainer.scaleF S s) hc.good.wf (fun d => ({ c with fform := d } : FFormContainer)) [] (i := i) (x := c')
        (by rw [List.append_nil]; exact hi)
      rcases h with ⟨_, rfl⟩ | ⟨_, h⟩
      · rfl
      · exact absurd h (by simp)
  · push Not at hop
    exact cutOf_pair (R := fun c' c : FFormContainer => Dict.get? c'.fform k = Dict.get? c.fform k) rfl rfl (fform_atOnce hc hop)

theorem form_loop {S : Sympy} {c : FormContainer} (hc : c.Reachable S) {op : FormContainer.Op}
    (h : (∃ s, op = .scale s) ∨ ∃ r, op = .rewrite r) {i : ℕ} {c' : FormContainer} (hi : (c.moments S op)[i]? = some c') :
    c'.form = partly i c.form (FormContainer.step S c op).1.form := by
  rw [FormContainer.step_eq S hc.wf]
  rcases h with ⟨s, rfl⟩ | ⟨r, rfl⟩
  · have h := loop_getElem? (S.mul s) hc.wf (fun d => ({ c with form := d } : FormContainer)) [] (i := i) (x := c')
      (by rw [List.append_nil]; exact hi)
    rcases h with ⟨_, rfl⟩ | ⟨_, h⟩
    · rfl
    · exact absurd h (by simp)
  · have h := loop_getElem? r.run hc.wf (fun d => ({ c with form := d } : FormContainer)) [] (i := i) (x := c')
      (by rw [List.append_nil]; exact hi)
    rcases h with ⟨_, rfl⟩ | ⟨_, h⟩
    · rfl
    · exact absurd h (by simp)

theorem form_cut {S : Sympy} {c : FormContainer} (hc : c.Reachable S) (op : FormContainer.Op) (k : Key) :
    ∃ p, CutOf (FormContainer.moments S) (fun c op => (FormContainer.step S c op).1)
      (fun c' c => Dict.get? c'.form k = Dict.get? c.form k) c op p := by
  have hloop : ∀ {op : FormContainer.Op}, ((∃ s, op = .scale s) ∨ ∃ r, op = .rewrite r) →
      ∃ p, CutOf (FormContainer.moments S) (fun c op => (FormContainer.step S c op).1)
        (fun c' c => Dict.get? c'.form k = Dict.get? c.form k) c op p := by
    intro op h
    refine cutOf_partly FormContainer.form ?_ (n := id) monotone_id (fun i c' hi => ?_) k
    · rw [FormContainer.step_eq S hc.wf, Dict.keys_mapVals]
    · exact form_loop hc h hi
  have hpair : ∀ {op : FormContainer.Op}, ((∃ p, op = .subs p) ∨ ∃ a v, op = .phaseShift a v) →
      ∃ p, CutOf (FormContainer.moments S) (fun c op => (FormContainer.step S c op).1)
        (fun c' c => Dict.get? c'.form k = Dict.get? c.form k) c op p := fun h =>
    cutOf_pair (R := fun c' c : FormContainer => Dict.get? c'.form k = Dict.get? c.form k) rfl rfl (.inl (form_atOnce hc h))
  cases op with
  | subs p => exact hpair (.inl ⟨p, rfl⟩)
  | phaseShift a v => exact hpair (.inr ⟨a, v, rfl⟩)
  | scale s => exact hloop (.inl ⟨s, rfl⟩)
  | rewrite r => exact hloop (.inr ⟨r, rfl⟩)

end Shgpy
