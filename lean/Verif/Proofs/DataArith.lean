import Verif.Model.DataArith
import Verif.Spec.DataArith
import Verif.Props.DataOps

/-! Lemmas for `dat_add`/`dat_subtract`. -/

set_option linter.unusedSectionVars false
set_option linter.unusedSimpArgs false

namespace Shgpy
open Spec

variable {K : Type} [Field K] [LinearOrder K] [IsStrictOrderedRing K] [FloorRing K] [HasPi K]

theorem isclose_iff {a b : K} : isclose a b = true ↔ Close a b := by
  simp [isclose, Close]

theorem forall₂_close_iff {p₁ p₂ : List (K × K)} :
    List.Forall₂ (fun p q : K × K => Close p.1 q.1) p₁ p₂ ↔ p₁.length = p₂.length ∧
      ((p₁.map Prod.fst).zip (p₂.map Prod.fst)).all (fun ab => isclose ab.1 ab.2) = true := by
  induction p₁ generalizing p₂ with
  | nil =>
    cases p₂ with
    | nil => simp
    | cons => simp
  | cons p p₁ ih =>
    cases p₂ with
    | nil => simp
    | cons q p₂ =>
      rw [List.forall₂_cons, ih]
      simp [isclose_iff]
      tauto

theorem combinePts_eq_of_length {op : K → K → K} {p₁ p₂ : List (K × K)} (h : p₁.length = p₂.length) :
    (List.Forall₂ (fun p q : K × K => Close p.1 q.1) p₁ p₂ ∧
      combinePts op p₁ p₂ = .ok (List.zipWith (fun p q => (p.1, op p.2 q.2)) p₁ p₂)) ∨
    (¬ List.Forall₂ (fun p q : K × K => Close p.1 q.1) p₁ p₂ ∧ combinePts op p₁ p₂ = .error .valueError) := by
  unfold combinePts bcast
  simp only [List.length_map, h, if_true, bind, Except.bind]
  by_cases hc : ((p₁.map Prod.fst).zip (p₂.map Prod.fst)).all (fun ab => isclose ab.1 ab.2) = true
  · left
    refine ⟨forall₂_close_iff.2 ⟨h, hc⟩, ?_⟩
    rw [if_pos hc, if_pos (by simp [h])]
    congr 1
    clear hc
    induction p₁ generalizing p₂ with
    | nil => rfl
    | cons p p₁ ih =>
      cases p₂ with
      | nil => simp at h
      | cons q p₂ => simp at h ⊢; exact ih h
  · right
    refine ⟨fun hf => hc (forall₂_close_iff.1 hf).2, ?_⟩
    rw [if_neg hc]

theorem zipWith_const (f : K × K → K × K → K × K) (p₁ : List (K × K)) (q : K × K) :
    List.zipWith f p₁ (p₁.map (fun _ => q)) = p₁.map (fun p => f p q) := by
  induction p₁ with
  | nil => rfl
  | cons p p₁ ih => simp only [List.map_cons, List.zipWith_cons_cons, ih]

theorem combinePts_eq (op : K → K → K) (p₁ p₂ : List (K × K)) :
    (Compatible p₁ p₂ ∧
      combinePts op p₁ p₂ = .ok (List.zipWith (fun p q => (p.1, op p.2 q.2)) p₁ (expand p₁ p₂))) ∨
    (¬ Compatible p₁ p₂ ∧ combinePts op p₁ p₂ = .error .valueError) := by
  by_cases h : p₁.length = p₂.length
  · have he : expand p₁ p₂ = p₂ := by
      match p₂, h with
      | [], _ => rfl
      | [q], h =>
        match p₁, h with
        | [p], _ => rfl
      | _ :: _ :: _, _ => rfl
    unfold Compatible
    rw [he]
    exact combinePts_eq_of_length h
  · match p₂, h with
    | [q], h =>
      have he : expand p₁ [q] = p₁.map (fun _ => q) := rfl
      have hb1 : bcast (p₁.map Prod.fst) [q.1] = .ok (p₁.map (fun p => (p.1, q.1))) := by
        unfold bcast
        rw [if_neg (by simpa using h)]
        match p₁, h with
        | [], _ => rfl
        | [_], h => simp at h
        | a :: b :: r, _ => simp
      have hb2 : bcast (p₁.map Prod.snd) [q.2] = .ok (p₁.map (fun p => (p.2, q.2))) := by
        unfold bcast
        rw [if_neg (by simpa using h)]
        match p₁, h with
        | [], _ => rfl
        | [_], h => simp at h
        | a :: b :: r, _ => simp
      unfold Compatible combinePts
      rw [he]
      simp only [List.map_cons, List.map_nil, hb1, hb2, bind, Except.bind]
      rw [List.forall₂_map_right_iff, List.forall₂_same, zipWith_const]
      by_cases hc : (p₁.map (fun p => (p.1, q.1))).all (fun ab => isclose ab.1 ab.2) = true
      · left
        refine ⟨?_, ?_⟩
        · intro p hp
          rw [List.all_eq_true] at hc
          exact isclose_iff.1 (hc (p.1, q.1) (List.mem_map.2 ⟨p, hp, rfl⟩))
        · rw [if_pos hc, if_pos (by simp), List.map_map, List.zip_map']
          rfl
      · right
        refine ⟨?_, by rw [if_neg hc]⟩
        intro hf
        apply hc
        rw [List.all_eq_true]
        intro ab hab
        obtain ⟨p, hp, rfl⟩ := List.mem_map.1 hab
        exact isclose_iff.2 (hf p hp)
    | [], h =>
      right
      refine ⟨?_, ?_⟩
      · intro hf
        have := hf.length_eq
        simp [expand] at this
        simp [this] at h
      · unfold combinePts bcast
        simp only [List.map_nil, List.length_map, h, List.length_nil, bind, Except.bind]
        match p₁, h with
        | [], h => simp at h
        | [p], _ => simp
        | _ :: _ :: _, _ => simp
    | q :: q' :: r, h =>
      right
      have he : expand p₁ (q :: q' :: r) = q :: q' :: r := rfl
      refine ⟨?_, ?_⟩
      · intro hf
        have := hf.length_eq
        rw [he] at this
        exact h this
      · unfold combinePts bcast
        simp only [List.map_cons, List.length_map, List.length_cons, bind, Except.bind] at h ⊢
        rw [if_neg h]
        match p₁, h with
        | [], h => simp
        | [p], _ =>
          simp
          exact ite_self _
        | _ :: _ :: _, _ => simp

theorem combineLoop_ok {op : K → K → K} {d₁ d₂ : Dict Key (List (K × K))} {ks : List Key}
    (h : ∀ k ∈ ks, ∃ p₁ p₂, Dict.get d₁ k = .ok p₁ ∧ Dict.get d₂ k = .ok p₂ ∧ Compatible p₁ p₂) :
    ∃ items, combineLoop op d₁ d₂ ks = .ok items ∧
      List.Forall₂ (fun k it => it.1 = k ∧ ∀ p₁ p₂, Dict.get d₁ k = .ok p₁ → Dict.get d₂ k = .ok p₂ →
        it.2 = List.zipWith (fun p q => (p.1, op p.2 q.2)) p₁ (expand p₁ p₂)) ks items := by
  induction ks with
  | nil => exact ⟨[], rfl, .nil⟩
  | cons k ks ih =>
    obtain ⟨p₁, p₂, h1, h2, h3⟩ := h k (by simp)
    obtain ⟨items, h4, h5⟩ := ih (fun k hk => h k (List.mem_cons_of_mem _ hk))
    rcases combinePts_eq op p₁ p₂ with ⟨_, h6⟩ | ⟨h6, _⟩
    · refine ⟨(k, List.zipWith (fun p q => (p.1, op p.2 q.2)) p₁ (expand p₁ p₂)) :: items, ?_,
        .cons ⟨rfl, ?_⟩ h5⟩
      rotate_left
      · intro p₁' p₂' h1' h2'
        rw [h1] at h1'; rw [h2] at h2'
        cases h1'; cases h2'
        rfl
      · simp [combineLoop, h1, h2, h4, h6, bind, Except.bind, pure, Except.pure]
    · exact absurd h3 h6

theorem combineLoop_error {op : K → K → K} {d₁ d₂ : Dict Key (List (K × K))} {ks : List Key}
    (hk : ∀ k ∈ ks, ∃ p₁ p₂, Dict.get d₁ k = .ok p₁ ∧ Dict.get d₂ k = .ok p₂)
    (h : ¬ ∀ k ∈ ks, ∀ p₁ p₂, Dict.get d₁ k = .ok p₁ → Dict.get d₂ k = .ok p₂ → Compatible p₁ p₂) :
    combineLoop op d₁ d₂ ks = .error .valueError := by
  induction ks with
  | nil => simp at h
  | cons k ks ih =>
    obtain ⟨p₁, p₂, h1, h2⟩ := hk k (by simp)
    simp only [combineLoop, h1, h2, bind, Except.bind]
    rcases combinePts_eq op p₁ p₂ with ⟨hc, h6⟩ | ⟨_, h6⟩
    · rw [h6]
      simp only
      rw [ih (fun k hk' => hk k (List.mem_cons_of_mem _ hk'))]
      intro hall
      apply h
      intro k' hk' q₁ q₂ e1 e2
      rcases List.mem_cons.1 hk' with rfl | hk'
      · rw [h1] at e1; rw [h2] at e2
        cases e1; cases e2
        exact hc
      · exact hall k' hk' q₁ q₂ e1 e2
    · rw [h6]

/-- Building a container from float items in radians that are in normal form with distinct angles. -/
theorem init_items {items : List (Key × List (K × K))} (hwf : Dict.WF items)
    (hnf : ∀ it ∈ items, NormalForm it.2) (hd : ∀ it ∈ items, (it.2.map Prod.fst).Nodup) :
    DataContainer.init
      (items.map (fun it => (.str it.1, .arr2 .float [it.2.map Prod.fst, it.2.map Prod.snd]))) sRadians false
      = .ok (⟨items, 1, 0, some 0, false, sRadians⟩, []) := by
  have hnd : ((items.map (fun it => ((.str it.1 : RawKey),
      (.arr2 .float [it.2.map Prod.fst, it.2.map Prod.snd] : RawVal K)))).map Prod.fst).Nodup := by
    rw [List.map_map]
    have : (Prod.fst ∘ fun it : Key × List (K × K) => ((.str it.1 : RawKey),
      (.arr2 .float [it.2.map Prod.fst, it.2.map Prod.snd] : RawVal K))) = RawKey.str ∘ Prod.fst := rfl
    rw [this, ← List.map_map]
    exact List.Nodup.map (fun a b h => by cases h; rfl) hwf
  have hck : ∀ d : Dict Key (List (K × K)), checkIterable (d.map (fun it => ((.str it.1 : RawKey),
      (.arr2 .float [it.2.map Prod.fst, it.2.map Prod.snd] : RawVal K))))
      = .ok (d.mapVals (fun v => ⟨false, v⟩)) := by
    intro d
    induction d with
    | nil => rfl
    | cons it d ih =>
      obtain ⟨k, v⟩ := it
      simp only [List.map_cons, checkIterable, ih]
      have : checkVal (RawVal.arr2 DType.float [List.map Prod.fst v, List.map Prod.snd v])
          = some ⟨false, v⟩ := by
        simp only [checkVal, List.length_map, ne_eq, reduceCtorEq, not_false_eq_true, and_self, if_true,
          decide_false, Option.some.injEq, NArr.mk.injEq, true_and]
        rw [List.zip_map']
        simp
      rw [this]
      rfl
  have hdist : ∀ it ∈ items, DistinctAngles it.2 := by
    intro it hit
    have h1 := hd it hit
    rw [List.Nodup, List.pairwise_map] at h1
    have h2 : it.2.Pairwise (fun p q => p ∈ it.2 ∧ q ∈ it.2) := by
      rw [List.pairwise_iff_forall_sublist]
      intro x y hxy
      exact ⟨hxy.subset (by simp), hxy.subset (by simp)⟩
    refine (h1.and h2).imp ?_
    rintro p q ⟨hne, hp, hq⟩ he
    exact hne (((hnf it hit).2.1 p hp).eq_of_angleEq ((hnf it hit).2.1 q hq) he)
  have hfin : ∀ it ∈ items, finalPts (⟨false, it.2⟩ : NArr K) = it.2 := by
    intro it hit
    unfold finalPts
    simp only [castTo_false]
    rw [dedup_of_distinct (hdist it hit)]
    have := shiftPts_zero (hnf it hit)
    simpa [shiftPts] using this
  rw [init_eq, if_pos (Or.inl rfl), Dict.ofPairs_of_nodup hnd, hck]
  simp only [Bool.false_eq_true, if_false]
  have hrd : radDict sRadians (Dict.mapVals (fun v => (⟨false, v⟩ : NArr K)) items)
      = Dict.mapVals (fun v => (⟨false, v⟩ : NArr K)) items := by
    simp [radDict, sRadians, sDegrees]
  rw [hrd, if_pos]
  · simp only [Except.ok.injEq, Prod.mk.injEq, DataContainer.mk.injEq, and_true, Dict.mapVals_mapVals]
    refine ⟨?_, ?_⟩
    · conv_rhs => rw [← Dict.mapVals_id items]
      exact Dict.mapVals_congr hfin
    · unfold duplicateWarnings
      rw [List.map_eq_nil_iff, List.filter_eq_nil_iff]
      intro it hit
      obtain ⟨v, hv, he⟩ := Dict.mem_mapVals.1 (show (it.1, it.2) ∈ _ from hit)
      rw [← he]
      simp [dedup_of_distinct (hdist _ hv)]
  · intro it hit
    obtain ⟨v, hv, he⟩ := Dict.mem_mapVals.1 (show (it.1, it.2) ∈ _ from hit)
    rw [← he]
    exact (hnf _ hv).1

end Shgpy
