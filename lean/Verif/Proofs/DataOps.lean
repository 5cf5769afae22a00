import Verif.Proofs.DataInit2
import Verif.Props.DataInit
import Mathlib.Data.List.Perm.Basic

/-! Lemmas about the mutating methods of `DataContainer`. -/

set_option linter.unusedSectionVars false
set_option linter.unusedSimpArgs false

namespace Shgpy
open Spec

variable {K : Type} [Field K] [LinearOrder K] [IsStrictOrderedRing K] [FloorRing K] [HasPi K]

/-! ### `Matched` -/

theorem Spec.Matched.refl {α : Type} {R : α → α → Prop} (h : ∀ a, R a a) (l : List α) : Matched R l l :=
  ⟨l, List.forall₂_same.2 (fun a _ => h a), List.Perm.refl _⟩

theorem Spec.Matched.trans {α β γ : Type} {R : α → β → Prop} {S : β → γ → Prop} {T : α → γ → Prop}
    (hT : ∀ a b c, R a b → S b c → T a c) {x : List α} {y : List β} {z : List γ}
    (h1 : Matched R x y) (h2 : Matched S y z) : Matched T x z := by
  obtain ⟨m, hm, hym⟩ := h1
  obtain ⟨m', hm', hzm'⟩ := h2
  obtain ⟨m'', h3, h4⟩ := List.perm_comp_forall₂ hym.symm hm'
  refine ⟨m'', ?_, hzm'.trans h4.symm⟩
  clear hym hm' hzm' h4
  induction hm generalizing m'' with
  | nil => cases h3; exact .nil
  | cons h _ ih =>
    cases h3 with
    | cons h' ht => exact .cons (hT _ _ _ h h') (ih _ ht)

theorem Spec.Matched.mono {α β : Type} {R S : α → β → Prop} (h : ∀ a b, R a b → S a b)
    {x : List α} {y : List β} (hm : Matched R x y) : Matched S x y := by
  obtain ⟨m, h1, h2⟩ := hm
  exact ⟨m, h1.imp h, h2⟩

theorem Spec.Matched.of_forall₂ {α β : Type} {R : α → β → Prop} {x : List α} {y : List β}
    (h : List.Forall₂ R x y) : Matched R x y := ⟨y, h, List.Perm.refl _⟩

theorem moved_trans {a b s t : K} (p q r : K × K) (h1 : Moved a s p q) (h2 : Moved b t q r) :
    Moved (a + b) (s * t) p r := by
  refine ⟨?_, ?_⟩
  · have := h2.1.trans (h1.1.add_right b)
    rwa [add_assoc] at this
  · rw [h2.2, h1.2]; ring

theorem moved_refl (p : K × K) : Moved 0 1 p p := ⟨by rw [add_zero]; exact AngleEq.refl _, (one_mul _).symm⟩

/-! ### Results of the methods -/

theorem lower_sRadians : lower sRadians = sRadians := by decide
theorem lower_sDegrees : lower sDegrees = sDegrees := by decide

theorem angleOf_ok {a : K} {u : Key} {r : K} (h : DataContainer.angleOf a u = .ok r) :
    (lower u = sRadians ∧ r = a) ∨ (lower u = sDegrees ∧ r = deg2rad a) := by
  unfold DataContainer.angleOf at h
  by_cases hu : lower u = sRadians ∨ lower u = sDegrees
  · rw [checkAngleUnits_ok.2 hu] at h
    simp only [bind, Except.bind] at h
    split at h
    · next hd => cases h; exact Or.inr ⟨hd, rfl⟩
    · next hd => cases h; exact Or.inl ⟨hu.resolve_right hd, rfl⟩
  · rw [checkAngleUnits_error.2 ⟨hu, rfl⟩] at h
    cases h

theorem angleOf_error {a : K} {u : Key} :
    (∃ e, DataContainer.angleOf a u = .error e) ↔ ¬ (lower u = sRadians ∨ lower u = sDegrees) := by
  unfold DataContainer.angleOf
  by_cases hu : lower u = sRadians ∨ lower u = sDegrees
  · rw [checkAngleUnits_ok.2 hu]
    simp only [bind, Except.bind, hu]
    split <;> simp [pure, Except.pure]
  · rw [checkAngleUnits_error.2 ⟨hu, rfl⟩]
    simp [bind, Except.bind, hu]

/-- `phase_shift_data` on one array. -/
def shiftPts (a : K) (v : List (K × K)) : List (K × K) := sortPts (v.map (fun p => (pmod (p.1 + a), p.2)))

/-- `scale_data` on one array. -/
def scalePts (s : K) (v : List (K × K)) : List (K × K) := v.map (fun p => (p.1, s * p.2))

/-- `subtract_min` on one array. -/
def lowerPts (m : K) (v : List (K × K)) : List (K × K) := v.map (fun p => (p.1, p.2 - m))

theorem phaseShiftData_ok {c c' : DataContainer K} {a : K} {u : Key}
    (h : c.phaseShiftData a u = .ok c') :
    ∃ r, DataContainer.angleOf a u = .ok r ∧
      c' = { c with data := c.data.mapVals (shiftPts r), phaseShift := c.phaseShift + r } := by
  unfold DataContainer.phaseShiftData at h
  cases ha : DataContainer.angleOf a u with
  | error e => rw [ha] at h; cases h
  | ok r =>
    rw [ha] at h
    cases h
    exact ⟨r, rfl, rfl⟩

theorem phaseShiftData_of_angleOf {c : DataContainer K} {a : K} {u : Key} {r : K}
    (h : DataContainer.angleOf a u = .ok r) : c.phaseShiftData a u =
      .ok { c with data := c.data.mapVals (shiftPts r), phaseShift := c.phaseShift + r } := by
  unfold DataContainer.phaseShiftData
  rw [h]
  rfl

theorem scaleData_ok {c c' : DataContainer K} {s : K} :
    c.scaleData s = .ok c' ↔ 0 ≤ s ∧ c' = { c with data := c.data.mapVals (scalePts s), scale := c.scale * s } := by
  unfold DataContainer.scaleData
  by_cases hs : s < 0
  · simp [hs]
  · rw [if_neg hs]
    simp only [Except.ok.injEq, not_lt.1 hs, true_and]
    exact eq_comm

theorem normalizeData_ok {c c' : DataContainer K} {d : K} (h : c.normalizeData d = .ok c') :
    ∃ s, c.scaleData s = .ok c' := by
  unfold DataContainer.normalizeData at h
  cases hm : c.getMaxval with
  | error e => rw [hm] at h; cases h
  | ok o =>
    rw [hm] at h
    simp only [bind, Except.bind] at h
    cases o with
    | none => exact ⟨0, h⟩
    | some km =>
      obtain ⟨k, m⟩ := km
      simp only at h
      split at h
      · split at h <;> cases h
      · exact ⟨_, h⟩

theorem subtractMin_ok {c c' : DataContainer K} (h : c.subtractMin = .ok c') :
    (c.getMinval = .ok none ∧ c' = { c with offset := none }) ∨
    ∃ k m, c.getMinval = .ok (some (k, m)) ∧
      c' = { c with data := c.data.mapVals (lowerPts m), offset := c.offset.map (fun o => o - m) } := by
  unfold DataContainer.subtractMin at h
  cases hm : c.getMinval with
  | error e => rw [hm] at h; cases h
  | ok o =>
    rw [hm] at h
    simp only [bind, Except.bind] at h
    cases o with
    | none => cases h; exact Or.inl ⟨rfl, rfl⟩
    | some km =>
      obtain ⟨k, m⟩ := km
      cases h
      exact Or.inr ⟨k, m, rfl, rfl⟩

/-! ### The statement-level methods -/

open DataContainer in
theorem step_scale (c : DataContainer K) (s : K) : step c (.scale s) =
    match c.scaleData s with | .ok c' => (c', none) | .error e => (c, some e) := by
  by_cases hs : s < 0
  · simp only [step, Op.body, scaleDataM, scaleData, hs, if_true]; rfl
  · simp only [step, Op.body, scaleDataM, scaleData, hs, if_false]; rfl

open DataContainer in
theorem step_subtractMin (c : DataContainer K) : step c .subtractMin =
    match c.subtractMin with | .ok c' => (c', none) | .error e => (c, some e) := by
  unfold step Op.body subtractMinM subtractMin
  simp only [bind, ExceptT.bind, ExceptT.mk, ExceptT.bindCont, get, getThe, MonadStateOf.get, liftM, monadLift,
    MonadLift.monadLift, ExceptT.lift, StateT.get, StateT.bind, liftE, pure, StateT.pure, Functor.map,
    StateT.map, Except.bind, Except.pure]
  cases h : c.getMinval with
  | error e => rfl
  | ok o => cases o with
    | none => rfl
    | some km => rfl

open DataContainer in
theorem step_normalize (c : DataContainer K) (d : K) : step c (.normalize d) =
    match c.normalizeData d with | .ok c' => (c', none) | .error e => (c, some e) := by
  have hs := step_scale c
  unfold step Op.body at hs
  unfold step Op.body normalizeDataM normalizeData
  simp only [bind, ExceptT.bind, ExceptT.mk, ExceptT.bindCont, get, getThe, MonadStateOf.get, liftM, monadLift,
    MonadLift.monadLift, ExceptT.lift, StateT.get, StateT.bind, liftE, pure, StateT.pure, Functor.map,
    StateT.map, Except.bind, Except.pure]
  cases h : c.getMaxval with
  | error e => rfl
  | ok o => cases o with
    | none => exact hs 0
    | some km =>
      simp only
      by_cases hm : km.2 = 0
      · simp only [hm, if_true]
        by_cases hd : d < 0
        · simp only [hd, if_true]; rfl
        · simp only [hd, if_false]; rfl
      · simp only [hm, if_false]
        exact hs (d / km.2)

open DataContainer in
theorem step_phaseShift (c : DataContainer K) (a : K) (u : Key) : step c (.phaseShift a u) =
    match c.phaseShiftData a u with | .ok c' => (c', none) | .error e => (c, some e) := by
  unfold step Op.body phaseShiftDataM phaseShiftData angleOf
  simp only [bind, ExceptT.bind, ExceptT.mk, ExceptT.bindCont, liftE, StateT.bind, Except.bind, pure,
    Except.pure]
  cases h : checkAngleUnits (lower u) with
  | error e => rfl
  | ok o =>
    by_cases hd : lower u = sDegrees
    · simp only [hd, if_true, ← Dict.mapVals_mapVals (fun v : List (K × K) => v.map (fun p => (pmod (p.1 + deg2rad a), p.2))) sortPts c.data]
      rfl
    · simp only [hd, if_false, ← Dict.mapVals_mapVals (fun v : List (K × K) => v.map (fun p => (pmod (p.1 + a), p.2))) sortPts c.data]
      rfl

open DataContainer in
theorem step_filter (c : DataContainer K) (f : List K → Except Err (List K)) : step c (.filter f) =
    ({ c with data := (filterLoop f c.data).1 }, (filterLoop f c.data).2) := by
  unfold step Op.body filterM
  cases h : (filterLoop f c.data).2 with
  | none => simp [h]
  | some e => simp [h]

/-! ### Shape preservation -/

/-- Same keys in the same order, same number of points, normal form kept. -/
def Keeps (d d' : Dict Key (List (K × K))) : Prop :=
  List.Forall₂ (fun p q => q.1 = p.1 ∧ q.2.length = p.2.length ∧ (NormalForm p.2 → NormalForm q.2)) d d'

theorem Keeps.refl (d : Dict Key (List (K × K))) : Keeps d d :=
  List.forall₂_same.2 (fun _ _ => ⟨rfl, rfl, id⟩)

theorem Keeps.trans {d d' d'' : Dict Key (List (K × K))} (h : Keeps d d') (h' : Keeps d' d'') :
    Keeps d d'' := by
  unfold Keeps at *
  induction h generalizing d'' with
  | nil => cases h'; exact .nil
  | cons h _ ih =>
    cases h' with
    | cons h' ht =>
      exact .cons ⟨h'.1.trans h.1, h'.2.1.trans h.2.1, fun hn => h'.2.2 (h.2.2 hn)⟩ (ih ht)

theorem Keeps.mapVals {f : List (K × K) → List (K × K)} (d : Dict Key (List (K × K)))
    (h : ∀ v, (f v).length = v.length ∧ (NormalForm v → NormalForm (f v))) : Keeps d (d.mapVals f) := by
  unfold Keeps Dict.mapVals
  rw [List.forall₂_map_right_iff, List.forall₂_same]
  exact fun p _ => ⟨rfl, h p.2⟩

theorem NormalForm_of_fst {v v' : List (K × K)} (h : v'.map Prod.fst = v.map Prod.fst) (hv : NormalForm v) :
    NormalForm v' := by
  obtain ⟨h1, h2, h3⟩ := hv
  have hl : v'.length = v.length := by simpa using congrArg List.length h
  refine ⟨?_, ?_, ?_⟩
  · rintro rfl
    apply h1
    simpa using hl.symm
  · intro p hp
    have : p.1 ∈ v'.map Prod.fst := List.mem_map.2 ⟨p, hp, rfl⟩
    rw [h] at this
    obtain ⟨q, hq, he⟩ := List.mem_map.1 this
    rw [← he]; exact h2 q hq
  · rw [← List.pairwise_map (f := Prod.fst) (R := fun a b : K => a ≤ b)] at h3 ⊢
    rw [h]; exact h3

theorem shiftPts_normalForm {a : K} {v : List (K × K)} (h : v ≠ []) : NormalForm (shiftPts a v) := by
  refine ⟨?_, ?_, sortPts_sorted _⟩
  · unfold shiftPts
    rw [Ne, sortPts_eq_nil, List.map_eq_nil_iff]; exact h
  · intro p hp
    unfold shiftPts at hp
    rw [mem_sortPts, List.mem_map] at hp
    obtain ⟨q, _, rfl⟩ := hp
    exact pmod_inTurn _

theorem keeps_filterLoop (f : List K → Except Err (List K)) (d : Dict Key (List (K × K))) :
    Keeps d (DataContainer.filterLoop f d).1 := by
  induction d with
  | nil => exact .nil
  | cons p d ih =>
    obtain ⟨k, v⟩ := p
    simp only [DataContainer.filterLoop]
    split
    · exact Keeps.refl _
    · next ys _ =>
      split
      · next hl =>
        refine .cons ⟨rfl, ?_, ?_⟩ ih
        · simp [hl]
        · apply NormalForm_of_fst
          simp only
          rw [List.map_fst_zip]
          simp [hl]
      · exact Keeps.refl _

theorem keeps_scale (s : K) (d : Dict Key (List (K × K))) : Keeps d (d.mapVals (scalePts s)) :=
  Keeps.mapVals d (fun v => ⟨by simp [scalePts], NormalForm_of_fst (by simp [scalePts])⟩)

theorem keeps_step (c : DataContainer K) (op : DataContainer.Op K) :
    Keeps c.data (DataContainer.step c op).1.data := by
  cases op with
  | scale s =>
    rw [step_scale]
    cases h : c.scaleData s with
    | error e => exact Keeps.refl _
    | ok c' =>
      obtain ⟨_, rfl⟩ := scaleData_ok.1 h
      exact keeps_scale _ _
  | subtractMin =>
    rw [step_subtractMin]
    cases h : c.subtractMin with
    | error e => exact Keeps.refl _
    | ok c' =>
      rcases subtractMin_ok h with ⟨_, rfl⟩ | ⟨k, m, _, rfl⟩
      · exact Keeps.refl _
      · exact Keeps.mapVals _ (fun v => ⟨by simp [lowerPts], NormalForm_of_fst (by simp [lowerPts])⟩)
  | normalize d =>
    rw [step_normalize]
    cases h : c.normalizeData d with
    | error e => exact Keeps.refl _
    | ok c' =>
      obtain ⟨s, hs⟩ := normalizeData_ok h
      obtain ⟨_, rfl⟩ := scaleData_ok.1 hs
      exact keeps_scale _ _
  | phaseShift a u =>
    rw [step_phaseShift]
    cases h : c.phaseShiftData a u with
    | error e => exact Keeps.refl _
    | ok c' =>
      obtain ⟨r, _, rfl⟩ := phaseShiftData_ok h
      exact Keeps.mapVals _ (fun v => ⟨by simp [shiftPts], fun hv => shiftPts_normalForm hv.1⟩)
  | filter f =>
    rw [step_filter]
    exact keeps_filterLoop f c.data

theorem keeps_run (c : DataContainer K) (ops : List (DataContainer.Op K)) :
    Keeps c.data (DataContainer.run c ops).data := by
  unfold DataContainer.run
  induction ops generalizing c with
  | nil => exact Keeps.refl _
  | cons op ops ih => exact (keeps_step c op).trans (ih _)

theorem Keeps.keys {d d' : Dict Key (List (K × K))} (h : Keeps d d') : Dict.keys d' = Dict.keys d := by
  unfold Keeps at h
  induction h with
  | nil => rfl
  | cons h _ ih => rw [Dict.keys_cons, Dict.keys_cons, h.1, ih]

theorem Keeps.get {d d' : Dict Key (List (K × K))} (h : Keeps d d') {k : Key} {v : List (K × K)}
    (hv : Dict.get d k = .ok v) :
    ∃ v', Dict.get d' k = .ok v' ∧ v'.length = v.length ∧ (NormalForm v → NormalForm v') := by
  rw [Dict.get_ok_iff] at hv
  suffices ∃ v', Dict.get? d' k = some v' ∧ v'.length = v.length ∧ (NormalForm v → NormalForm v') by
    obtain ⟨v', h1, h2⟩ := this
    exact ⟨v', Dict.get_ok_iff.2 h1, h2⟩
  unfold Keeps at h
  induction h with
  | nil => cases hv
  | @cons p q _ _ h _ ih =>
    obtain ⟨pk, pv⟩ := p
    obtain ⟨qk, qv⟩ := q
    obtain ⟨h1, h2⟩ := h
    simp only at h1 h2
    subst h1
    simp only [Dict.get?] at hv ⊢
    split
    · next hk => rw [if_pos hk] at hv; cases hv; exact ⟨_, rfl, h2⟩
    · next hk => rw [if_neg hk] at hv; exact ih hv

end Shgpy
