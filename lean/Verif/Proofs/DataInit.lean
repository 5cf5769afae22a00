import Verif.Proofs.Dict
import Verif.Proofs.Angle

/-! Lemmas about the stages of `DataContainer.__init__`. -/

set_option linter.unusedSectionVars false

namespace Shgpy
open Spec

variable {K : Type} [Field K] [LinearOrder K] [IsStrictOrderedRing K] [FloorRing K] [HasPi K]

theorem checkAngleUnits_ok {u : Key} : checkAngleUnits u = .ok () ↔ u = sRadians ∨ u = sDegrees := by
  unfold checkAngleUnits
  split <;> simp_all

theorem checkAngleUnits_error {u : Key} {e : Err} :
    checkAngleUnits u = .error e ↔ ¬ (u = sRadians ∨ u = sDegrees) ∧ e = .valueError := by
  unfold checkAngleUnits
  split <;> simp_all [eq_comm]

/-! ### `_check_defining_iterable` -/

theorem checkVal_some {v : RawVal K} {a : NArr K} :
    checkVal v = some a ↔ ∃ dt xs ys rest, v = .arr2 dt (xs :: ys :: rest) ∧ xs.length = ys.length ∧
      dt ≠ .object ∧ a = ⟨decide (dt = .int), xs.zip ys⟩ := by
  constructor
  · intro h
    unfold checkVal at h
    split at h
    · next dt r0 r1 rest =>
      split at h
      · next hc =>
        cases h
        exact ⟨dt, r0, r1, rest, rfl, hc.1, hc.2, rfl⟩
      · cases h
    · cases h
  · rintro ⟨dt, xs, ys, rest, rfl, hl, hd, rfl⟩
    simp [checkVal, hl, hd]

theorem checkIterable_ok {d : Dict RawKey (RawVal K)} {d' : Dict Key (NArr K)}
    (h : checkIterable d = .ok d') :
    List.Forall₂ (fun p q => p.1 = .str q.1 ∧ checkVal p.2 = some q.2) d d' := by
  induction d generalizing d' with
  | nil => simp [checkIterable] at h; subst h; exact .nil
  | cons p d ih =>
    obtain ⟨k, v⟩ := p
    simp only [checkIterable] at h
    split at h
    · next s a r' hv hr =>
      cases h
      exact .cons ⟨rfl, hv⟩ (ih hr)
    · cases h

theorem checkIterable_of_forall {d : Dict RawKey (RawVal K)}
    (h : ∀ p ∈ d, ∃ s a, p.1 = RawKey.str s ∧ checkVal p.2 = some a) :
    ∃ d', checkIterable d = .ok d' := by
  induction d with
  | nil => exact ⟨[], rfl⟩
  | cons p d ih =>
    obtain ⟨k, v⟩ := p
    obtain ⟨s, a, hs, ha⟩ := h (k, v) (by simp)
    obtain ⟨d', hd'⟩ := ih (fun q hq => h q (List.mem_cons_of_mem _ hq))
    simp only at hs ha
    subst hs
    exact ⟨(s, a) :: d', by simp [checkIterable, ha, hd']⟩

theorem checkIterable_error {d : Dict RawKey (RawVal K)} {e : Err}
    (h : checkIterable d = .error e) : e = .valueError := by
  cases d with
  | nil => simp [checkIterable] at h
  | cons p d =>
    obtain ⟨k, v⟩ := p
    simp only [checkIterable] at h
    split at h
    · cases h
    · cases h; rfl

/-! ### `_remove_duplicates` -/

theorem dedupFrom_eq (kept l : List (K × K)) :
    ∃ s, s.Sublist l ∧ dedupFrom kept l = kept ++ s := by
  induction l generalizing kept with
  | nil => exact ⟨[], .slnil, by simp [dedupFrom]⟩
  | cons p l ih =>
    simp only [dedupFrom]
    split
    · obtain ⟨s, hs, h⟩ := ih kept
      exact ⟨s, hs.cons _, h⟩
    · obtain ⟨s, hs, h⟩ := ih (kept ++ [p])
      exact ⟨p :: s, hs.cons_cons _, by simpa using h⟩

theorem dedup_sublist (l : List (K × K)) : (dedupFrom [] l).Sublist l := by
  obtain ⟨s, hs, h⟩ := dedupFrom_eq [] l
  rw [h]; simpa using hs

theorem mem_dedupFrom_of_mem_kept {kept l : List (K × K)} {p : K × K} (h : p ∈ kept) :
    p ∈ dedupFrom kept l := by
  obtain ⟨s, _, hs⟩ := dedupFrom_eq kept l
  rw [hs]; exact List.mem_append_left _ h

theorem dedupFrom_covers (kept l : List (K × K)) :
    ∀ p ∈ l, ∃ q ∈ dedupFrom kept l, AngleEq p.1 q.1 := by
  induction l generalizing kept with
  | nil => simp
  | cons p l ih =>
    intro p' hp'
    simp only [dedupFrom]
    rcases List.mem_cons.1 hp' with rfl | hp'
    · split
      · next hm =>
        obtain ⟨q, hq, hqe⟩ := List.mem_map.1 hm
        exact ⟨q, mem_dedupFrom_of_mem_kept hq, hqe ▸ (pmod_angleEq _).symm⟩
      · exact ⟨p', mem_dedupFrom_of_mem_kept (by simp), AngleEq.refl _⟩
    · split
      · exact ih kept p' hp'
      · exact ih _ p' hp'

theorem dedupFrom_ne_nil {l : List (K × K)} : dedupFrom [] l = [] ↔ l = [] := by
  constructor
  · intro h
    cases l with
    | nil => rfl
    | cons p l =>
      obtain ⟨q, hq, _⟩ := dedupFrom_covers [] (p :: l) p (by simp)
      rw [h] at hq; simp at hq
  · rintro rfl; rfl

theorem dedupFrom_of_distinct {kept l : List (K × K)}
    (h : (kept ++ l).Pairwise (fun p q => ¬ AngleEq p.1 q.1)) : dedupFrom kept l = kept ++ l := by
  induction l generalizing kept with
  | nil => simp [dedupFrom]
  | cons p l ih =>
    simp only [dedupFrom]
    rw [if_neg, ih]
    · simp
    · simpa using h
    · intro hm
      obtain ⟨q, hq, hqe⟩ := List.mem_map.1 hm
      rw [List.pairwise_append] at h
      exact h.2.2 q hq p (by simp) (hqe ▸ pmod_angleEq _)

theorem dedup_of_distinct {l : List (K × K)}
    (h : l.Pairwise (fun p q => ¬ AngleEq p.1 q.1)) : dedupFrom [] l = l := by
  simpa using dedupFrom_of_distinct (kept := []) (by simpa using h)

/-- With all angles already in `[0, 2π)` the kept angles are pairwise distinct. -/
theorem dedupFrom_nodup {kept l : List (K × K)} (hk : (kept.map Prod.fst).Nodup)
    (hl : ∀ p ∈ l, InTurn p.1) : ((dedupFrom kept l).map Prod.fst).Nodup := by
  induction l generalizing kept with
  | nil => simpa [dedupFrom] using hk
  | cons p l ih =>
    simp only [dedupFrom]
    have hl' : ∀ p ∈ l, InTurn p.1 := fun q hq => hl q (List.mem_cons_of_mem _ hq)
    split
    · exact ih hk hl'
    · next hm =>
      apply ih _ hl'
      rw [pmod_of_inTurn (hl p (by simp))] at hm
      rw [List.map_append, List.nodup_append]
      refine ⟨hk, by simp, ?_⟩
      intro a ha b hb e
      simp at hb
      subst e hb
      exact hm (by simpa using ha)

/-! ### The whole constructor -/

/-- The points stored for a validated array: deduplicated, reduced and sorted. -/
def finalPts (v : NArr K) : List (K × K) :=
  sortPts ((dedupFrom [] v.pts).map (fun p => (castTo v.isInt (pmod p.1), p.2)))

theorem mapValsM_modulate {d : Dict Key (NArr K)} (h : ∀ p ∈ d, p.2.pts ≠ []) :
    ((removeDuplicates d).mapValsM modulate).map (fun d => d.mapVals (fun v => sortPts v.pts))
      = .ok (d.mapVals finalPts) := by
  induction d with
  | nil => rfl
  | cons p d ih =>
    obtain ⟨k, v⟩ := p
    have hv : dedupFrom [] v.pts ≠ [] := fun h' => h (k, v) (by simp) (dedupFrom_ne_nil.1 h')
    have ih' := ih (fun q hq => h q (List.mem_cons_of_mem _ hq))
    simp only [removeDuplicates, Dict.mapVals_cons, Dict.mapValsM, modulate, hv, if_false]
    simp only [removeDuplicates] at ih'
    cases hr : Dict.mapValsM modulate (Dict.mapVals (fun v : NArr K => ⟨v.isInt, dedupFrom [] v.pts⟩) d) with
    | error e => rw [hr] at ih'; cases ih'
    | ok r =>
      rw [hr] at ih'
      simp only [Except.map, Except.ok.injEq] at ih'
      simp [Except.map, bind, Except.bind, pure, Except.pure, ih', finalPts]

theorem mapValsM_modulate_error {d : Dict Key (NArr K)} (h : ¬ ∀ p ∈ d, p.2.pts ≠ []) :
    (removeDuplicates d).mapValsM modulate = .error .valueError := by
  induction d with
  | nil => simp at h
  | cons p d ih =>
    obtain ⟨k, v⟩ := p
    simp only [removeDuplicates, Dict.mapVals_cons, Dict.mapValsM, modulate, dedupFrom_ne_nil]
    by_cases hv : v.pts = []
    · simp [hv, bind, Except.bind]
    · have : ¬ ∀ p ∈ d, p.2.pts ≠ [] := by
        intro hall
        apply h
        intro q hq
        rcases List.mem_cons.1 hq with rfl | hq
        · exact hv
        · exact hall q hq
      have ih' := ih this
      simp only [removeDuplicates] at ih'
      simp [hv, ih', bind, Except.bind]

/-- The dictionary of validated arrays after conversion to radians. -/
def radDict (units : Key) (d : Dict Key (NArr K)) : Dict Key (NArr K) :=
  if units = sDegrees then toRadians d else d

/-- Decomposition of a constructor call. -/
theorem init_eq (iter : List (RawKey × RawVal K)) (units : Key) (b : Bool) :
    DataContainer.init iter units b =
      (if units = sRadians ∨ units = sDegrees then
        match checkIterable (Dict.ofPairs iter) with
        | .error e => .error e
        | .ok d =>
          match (if b then coerceOblique (radDict units d) else .ok (radDict units d)) with
          | .error e => .error e
          | .ok d => if ∀ p ∈ d, p.2.pts ≠ [] then
              .ok (⟨d.mapVals finalPts, 1, 0, some 0, b, units⟩, duplicateWarnings d)
            else .error .valueError
      else .error .valueError) := by
  unfold DataContainer.init
  by_cases hu : units = sRadians ∨ units = sDegrees
  · rw [if_pos hu, checkAngleUnits_ok.2 hu]
    cases hc : checkIterable (Dict.ofPairs iter) with
    | error e => rfl
    | ok d =>
      simp only [bind, Except.bind]
      have tail : ∀ d : Dict Key (NArr K),
          (match Dict.mapValsM modulate (removeDuplicates d) with
            | Except.error err => Except.error err
            | Except.ok v =>
              pure ((⟨Dict.mapVals (fun v => sortPts v.pts) v, 1, 0, some 0, b, units⟩ : DataContainer K),
                duplicateWarnings d)) =
          if ∀ p ∈ d, p.2.pts ≠ [] then
            Except.ok (⟨d.mapVals finalPts, 1, 0, some 0, b, units⟩, duplicateWarnings d)
          else Except.error Err.valueError := by
        intro d
        by_cases hne : ∀ p ∈ d, p.2.pts ≠ []
        · rw [if_pos hne]
          have := mapValsM_modulate hne
          cases hm : Dict.mapValsM modulate (removeDuplicates d) with
          | error e => rw [hm] at this; cases this
          | ok r =>
            rw [hm] at this
            simp only [Except.map, Except.ok.injEq] at this
            simp [pure, Except.pure, this]
        · rw [if_neg hne, mapValsM_modulate_error hne]
      have hr : (if units = sDegrees then toRadians d else d) = radDict units d := rfl
      rw [hr]
      cases b with
      | false =>
        rw [if_neg (by simp), if_neg (by simp)]
        have := tail (radDict units d)
        revert this
        cases Dict.mapValsM modulate (removeDuplicates (radDict units d)) <;> exact fun this => this
      | true =>
        rw [if_pos rfl, if_pos rfl]
        cases coerceOblique (radDict units d) with
        | error e => rfl
        | ok d =>
          have := tail d
          revert this
          simp only
          cases Dict.mapValsM modulate (removeDuplicates d) <;> exact fun this => this
  · rw [if_neg hu]
    have : checkAngleUnits units = .error .valueError := checkAngleUnits_error.2 ⟨hu, rfl⟩
    rw [this]; rfl

theorem finalPts_normalForm {v : NArr K} (h : v.pts ≠ []) : NormalForm (finalPts v) := by
  refine ⟨?_, ?_, sortPts_sorted _⟩
  · unfold finalPts
    rw [Ne, sortPts_eq_nil, List.map_eq_nil_iff, dedupFrom_ne_nil]
    exact h
  · intro p hp
    rw [finalPts, mem_sortPts, List.mem_map] at hp
    obtain ⟨q, _, rfl⟩ := hp
    exact castTo_inTurn _ (pmod_inTurn _)

end Shgpy
