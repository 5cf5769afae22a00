import Verif.Proofs.Cubic3
import Verif.Proofs.Form
import Verif.Proofs.DataExt
import Verif.Props.LeastSquares

/-! Lemmas for the acceptance of data by `dat_to_fdat`. -/

set_option linter.unusedSectionVars false

namespace Shgpy
open Spec

theorem fillFreqs_error {α : Type} {M : ℕ} {zero : α} {rhs : ℤ → Except Err α} {e : Err} (h : ∀ m, rhs m = .error e) :
    fillFreqs M zero (2 * M + 1) rhs = .error e := by
  unfold fillFreqs freqs
  rw [List.range_succ_eq_map, List.map_cons, List.foldlM_cons]
  simp only [bind, Except.bind, h]

/-- If the interpolation raises `e` for some combination, and for the others `e` or nothing, `dat_to_fdat` raises `e`. -/
theorem datToFdat_error {interp : Interp} {dat : DataContainer ℝ} {M : ℕ} {e : Err}
    (h : ∀ k pts, dat.getPc k sRadians = .ok pts → interp pts = .error e ∨ 2 ≤ pts.length ∧ ∃ f, interp pts = .ok f)
    (hex : ∃ k pts, dat.getPc k sRadians = .ok pts ∧ interp pts = .error e) : datToFdat interp dat M = .error e := by
  have hbad : ∀ k pts, dat.getPc k sRadians = .ok pts → interp pts = .error e →
      fillFreqs M (0 : ℂ) (2 * M + 1) (fun m => do
        let pts ← dat.getPc k sRadians
        fourierSum interp pts m) = .error e := by
    intro k pts hk hi
    apply fillFreqs_error
    intro m
    rw [hk]
    show fourierSum interp pts m = _
    unfold fourierSum
    rw [hi]
    rfl
  have hgood : ∀ k pts, dat.getPc k sRadians = .ok pts → 2 ≤ pts.length → ∀ f, interp pts = .ok f →
      fillFreqs M (0 : ℂ) (2 * M + 1) (fun m => do
        let pts ← dat.getPc k sRadians
        fourierSum interp pts m) = .ok ((freqs M).map (fun m => dft pts.length f m)) := by
    intro k pts hk h2 f hi
    apply fillFreqs_ok
    intro m _
    rw [hk]
    exact fourierSum_interp h2 hi m
  unfold datToFdat
  show Except.bind (List.foldlM _ _ _) _ = _
  rw [foldlM_error (e := e)]
  · rfl
  · intro k hk
    obtain ⟨v, hv⟩ : ∃ v, Dict.get? dat.data k = some v := by
      cases hg : Dict.get? dat.data k with
      | none => exact absurd hk (Dict.get?_eq_none.1 hg)
      | some v => exact ⟨v, rfl⟩
    have hk' : dat.getPc k sRadians = .ok v := by rw [getPc_radians, Dict.get_ok_iff, hv]
    rcases h k v hk' with h1 | ⟨h1, f, h2⟩
    · exact .inr (fun d => by rw [hbad k v hk' h1]; rfl)
    · exact .inl (fun d => ⟨_, by rw [hgood k v hk' h1 f h2]; rfl⟩)
  · obtain ⟨k, pts, hk, hi⟩ := hex
    refine ⟨k, ?_, fun d => by rw [hbad k pts hk hi]; rfl⟩
    rw [getPc_radians, Dict.get_ok_iff] at hk
    exact Dict.mem_keys_of_mem (Dict.mem_of_get? hk)

theorem cubicInterp_raises {pts : List (ℝ × ℝ)} (h : ¬ (4 ≤ pts.length ∧ pts.Pairwise (fun p q => p.1 < q.1))) :
    cubicInterp pts = .error .valueError := by
  unfold cubicInterp
  rw [if_pos]
  rw [List.pairwise_map]
  by_contra hc
  push Not at hc
  exact h ⟨hc.1, hc.2⟩

theorem pairwise_lt_iff {pts : List (ℝ × ℝ)} (h : NormalForm pts) :
    pts.Pairwise (fun p q => p.1 < q.1) ↔ (pts.map Prod.fst).Nodup := by
  unfold List.Nodup
  rw [List.pairwise_map]
  constructor
  · exact fun hp => hp.imp (fun h => h.ne)
  · exact fun hp => (List.pairwise_and_iff.2 ⟨h.2.2, hp⟩).imp (fun h => lt_of_le_of_ne h.1 h.2)

section
variable {K : Type} [Field K] [LinearOrder K] [IsStrictOrderedRing K] [FloorRing K] [HasPi K]

/-- Same combinations, numbers of points, and equalities between angles. -/
def Alike (d d' : Dict Key (List (K × K))) : Prop :=
  List.Forall₂ (fun p q => q.1 = p.1 ∧ q.2.length = p.2.length ∧
    ((∀ x ∈ p.2, InTurn x.1) → (∀ x ∈ q.2, InTurn x.1) ∧ ((q.2.map Prod.fst).Nodup ↔ (p.2.map Prod.fst).Nodup))) d d'

theorem Alike.refl (d : Dict Key (List (K × K))) : Alike d d := List.forall₂_same.2 (fun _ _ => ⟨rfl, rfl, fun h => ⟨h, Iff.rfl⟩⟩)

theorem Alike.trans {d d' d'' : Dict Key (List (K × K))} (h : Alike d d') (h' : Alike d' d'') : Alike d d'' := by
  unfold Alike at *
  induction h generalizing d'' with
  | nil => cases h'; exact .nil
  | cons h _ ih =>
    cases h' with
    | cons h' ht =>
      exact .cons ⟨h'.1.trans h.1, h'.2.1.trans h.2.1,
        fun hn => ⟨(h'.2.2 (h.2.2 hn).1).1, (h'.2.2 (h.2.2 hn).1).2.trans (h.2.2 hn).2⟩⟩ (ih ht)

theorem alike_of_fst {v v' : List (K × K)} (h : v'.map Prod.fst = v.map Prod.fst) :
    v'.length = v.length ∧ ((∀ x ∈ v, InTurn x.1) → (∀ x ∈ v', InTurn x.1) ∧ ((v'.map Prod.fst).Nodup ↔ (v.map Prod.fst).Nodup)) := by
  refine ⟨by simpa using congrArg List.length h, fun hv => ⟨fun p hp => ?_, by rw [h]⟩⟩
  have : p.1 ∈ v'.map Prod.fst := List.mem_map.2 ⟨p, hp, rfl⟩
  rw [h] at this
  obtain ⟨q, hq, he⟩ := List.mem_map.1 this
  rw [← he]; exact hv q hq

theorem Alike.mapVals {f : List (K × K) → List (K × K)} (d : Dict Key (List (K × K)))
    (h : ∀ v, (f v).length = v.length ∧ ((∀ x ∈ v, InTurn x.1) → (∀ x ∈ f v, InTurn x.1) ∧
      (((f v).map Prod.fst).Nodup ↔ (v.map Prod.fst).Nodup))) : Alike d (d.mapVals f) := by
  unfold Alike Dict.mapVals
  rw [List.forall₂_map_right_iff, List.forall₂_same]
  exact fun p _ => ⟨rfl, h p.2⟩

theorem alike_shift (r : K) (v : List (K × K)) :
    (shiftPts r v).length = v.length ∧ ((∀ x ∈ v, InTurn x.1) → (∀ x ∈ shiftPts r v, InTurn x.1) ∧
      (((shiftPts r v).map Prod.fst).Nodup ↔ (v.map Prod.fst).Nodup)) := by
  refine ⟨by simp [shiftPts], fun hv => ⟨fun p hp => ?_, ?_⟩⟩
  · unfold shiftPts at hp
    rw [mem_sortPts, List.mem_map] at hp
    obtain ⟨q, _, rfl⟩ := hp
    exact pmod_inTurn _
  · unfold shiftPts
    rw [((sortPts_perm _).map Prod.fst).nodup_iff, List.map_map]
    have h1 : v.map (Prod.fst ∘ fun p : K × K => (pmod (p.1 + r), p.2)) = (v.map Prod.fst).map (fun x => pmod (x + r)) := by
      rw [List.map_map]; rfl
    rw [h1]
    constructor
    · exact fun h => h.of_map _
    · intro h
      refine h.map_on (fun x hx y hy he => ?_)
      obtain ⟨p, hp, rfl⟩ := List.mem_map.1 hx
      obtain ⟨q, hq, rfl⟩ := List.mem_map.1 hy
      obtain ⟨n, hn⟩ := pmod_eq_iff.1 he
      exact (hv p hp).eq_of_angleEq (hv q hq) ⟨n, by linarith⟩

theorem alike_filterLoop (f : List K → Except Err (List K)) (d : Dict Key (List (K × K))) :
    Alike d (DataContainer.filterLoop f d).1 := by
  induction d with
  | nil => exact .nil
  | cons p d ih =>
    obtain ⟨k, v⟩ := p
    simp only [DataContainer.filterLoop]
    split
    · exact Alike.refl _
    · next ys _ =>
      split
      · next hl =>
        refine .cons ⟨rfl, alike_of_fst ?_⟩ ih
        simp only
        rw [List.map_fst_zip]
        simp [hl]
      · exact Alike.refl _

theorem alike_step (c : DataContainer K) (op : DataContainer.Op K) : Alike c.data (DataContainer.step c op).1.data := by
  cases op with
  | scale s =>
    rw [step_scale]
    cases h : c.scaleData s with
    | error e => exact Alike.refl _
    | ok c' =>
      obtain ⟨_, rfl⟩ := scaleData_ok.1 h
      exact Alike.mapVals _ (fun v => alike_of_fst (by simp [scalePts]))
  | subtractMin =>
    rw [step_subtractMin]
    cases h : c.subtractMin with
    | error e => exact Alike.refl _
    | ok c' =>
      rcases subtractMin_ok h with ⟨_, rfl⟩ | ⟨k, m, _, rfl⟩
      · exact Alike.refl _
      · exact Alike.mapVals _ (fun v => alike_of_fst (by simp [lowerPts]))
  | normalize d =>
    rw [step_normalize]
    cases h : c.normalizeData d with
    | error e => exact Alike.refl _
    | ok c' =>
      obtain ⟨s, hs⟩ := normalizeData_ok h
      obtain ⟨_, rfl⟩ := scaleData_ok.1 hs
      exact Alike.mapVals _ (fun v => alike_of_fst (by simp [scalePts]))
  | phaseShift a u =>
    rw [step_phaseShift]
    cases h : c.phaseShiftData a u with
    | error e => exact Alike.refl _
    | ok c' =>
      obtain ⟨r, _, rfl⟩ := phaseShiftData_ok h
      exact Alike.mapVals _ (alike_shift r)
  | filter f =>
    rw [step_filter]
    exact alike_filterLoop f c.data

theorem alike_run (c : DataContainer K) (ops : List (DataContainer.Op K)) : Alike c.data (DataContainer.run c ops).data := by
  unfold DataContainer.run
  induction ops generalizing c with
  | nil => exact Alike.refl _
  | cons op ops ih => exact (alike_step c op).trans (ih _)

end
end Shgpy
