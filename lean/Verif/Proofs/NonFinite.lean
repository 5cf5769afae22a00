import Verif.Spec.NonFinite
import Verif.Proofs.DataExt
import Verif.Proofs.DataArith
import Verif.Proofs.Formgen3

/-!
# Lemmas about values that are infinite or not numbers
-/

set_option linter.unusedSectionVars false

namespace Shgpy
open Spec

variable {K : Type} [Field K] [LinearOrder K] [IsStrictOrderedRing K]

namespace Fl

theorem lt_iff_not_le {a b : Fl K} (ha : a ≠ .nan) (hb : b ≠ .nan) : a.lt b = true ↔ ¬ FlLe b a := by
  cases a <;> cases b <;> simp_all [lt, FlLe]

theorem le_refl' {a : Fl K} (ha : a ≠ .nan) : FlLe a a := by cases a <;> simp_all [FlLe]

theorem le_trans' {a b c : Fl K} (h1 : FlLe a b) (h2 : FlLe b c) : FlLe a c := by
  cases a <;> cases b <;> cases c <;> simp_all [FlLe]
  exact h1.trans h2

theorem le_total' {a b : Fl K} (ha : a ≠ .nan) (hb : b ≠ .nan) : FlLe a b ∨ FlLe b a := by
  cases a <;> cases b <;> simp_all [FlLe]
  exact le_total _ _

theorem lt_nan {a : Fl K} : a.lt .nan = false := by cases a <;> rfl

theorem nan_lt {a : Fl K} : (Fl.nan : Fl K).lt a = false := by cases a <;> rfl

end Fl

/-- What a comparison needs to be for `pyBest`: `le x m` says that `x` is not better than `m`. -/
structure Comparison (better : Fl K → Fl K → Bool) (le : Fl K → Fl K → Prop) (worst : Fl K) : Prop where
  nan_left : ∀ m, better .nan m = false
  nan_right : ∀ x, better x .nan = false
  iff : ∀ {x m}, x ≠ .nan → m ≠ .nan → (better x m = true ↔ ¬ le x m)
  refl : ∀ {x}, x ≠ .nan → le x x
  trans : ∀ {x y z}, le x y → le y z → le x z
  total : ∀ {x y}, x ≠ .nan → y ≠ .nan → le x y ∨ le y x
  worst_ne : worst ≠ .nan
  worst_eq : ∀ {x}, x ≠ .nan → le x worst → x = worst

theorem comparison_max : Comparison (K := K) (fun x m => m.lt x) FlLe .ninf :=
  ⟨fun _ => Fl.lt_nan, fun _ => Fl.nan_lt, fun hx hm => Fl.lt_iff_not_le hm hx, Fl.le_refl', Fl.le_trans', Fl.le_total',
    by simp, fun {x} hx h => by cases x <;> simp_all [FlLe]⟩

theorem comparison_min : Comparison (K := K) (fun x m => x.lt m) (fun x m => FlLe m x) .pinf :=
  ⟨fun _ => Fl.nan_lt, fun _ => Fl.lt_nan, fun hx hm => Fl.lt_iff_not_le hx hm, Fl.le_refl', fun h1 h2 => Fl.le_trans' h2 h1,
    fun hx hy => Fl.le_total' hy hx, by simp, fun {x} hx h => by cases x <;> simp_all [FlLe]⟩

section
variable {better : Fl K → Fl K → Bool} {le : Fl K → Fl K → Prop} {worst : Fl K} (H : Comparison better le worst)
include H

theorem fold_nan (l : List (Fl K)) : l.foldl (fun m x => if better x m then x else m) .nan = .nan := by
  induction l with
  | nil => rfl
  | cons a l ih => rw [List.foldl_cons, H.nan_right, if_neg (by simp)]; exact ih

theorem fold_best : ∀ (l : List (Fl K)) {a : Fl K}, a ≠ .nan →
    let v := l.foldl (fun m x => if better x m then x else m) a
    v ≠ .nan ∧ (v = a ∨ v ∈ l) ∧ le a v ∧ ∀ x ∈ l, x = .nan ∨ le x v
  | [], a, ha => ⟨ha, Or.inl rfl, H.refl ha, by simp⟩
  | b :: l, a, ha => by
      rw [List.foldl_cons]
      by_cases hb : better b a = true
      · rw [if_pos hb]
        have hbn : b ≠ .nan := by rintro rfl; rw [H.nan_left] at hb; cases hb
        obtain ⟨h1, h2, h3, h4⟩ := fold_best l hbn
        have hab : le a b := by
          rcases H.total ha hbn with h | h
          · exact h
          · exact absurd h ((H.iff hbn ha).1 hb)
        refine ⟨h1, Or.inr ?_, H.trans hab h3, ?_⟩
        · rcases h2 with h | h
          · rw [h]; exact List.mem_cons_self
          · exact List.mem_cons_of_mem _ h
        · intro x hx
          rcases List.mem_cons.1 hx with rfl | hx
          · exact Or.inr h3
          · exact h4 x hx
      · rw [if_neg hb]
        obtain ⟨h1, h2, h3, h4⟩ := fold_best l ha
        refine ⟨h1, ?_, h3, ?_⟩
        · rcases h2 with h | h
          · exact Or.inl h
          · exact Or.inr (List.mem_cons_of_mem _ h)
        · intro x hx
          rcases List.mem_cons.1 hx with rfl | hx
          · by_cases hxn : x = .nan
            · exact Or.inl hxn
            · refine Or.inr (H.trans ?_ h3)
              by_contra hle
              exact hb ((H.iff hxn ha).2 hle)
          · exact h4 x hx

theorem pyBest_starts {v : List (K × Fl K)} (hne : v ≠ []) (hs : StartsWell v) :
    ∃ m, pyBest better (v.map Prod.snd) = .ok m ∧ m ≠ .nan ∧ m ∈ v.map Prod.snd ∧ ∀ p ∈ v, p.2 = .nan ∨ le p.2 m := by
  cases v with
  | nil => exact absurd rfl hne
  | cons a r =>
      have ha : a.2 ≠ .nan := hs a rfl
      obtain ⟨h1, h2, h3, h4⟩ := fold_best H (r.map Prod.snd) ha
      refine ⟨_, rfl, h1, ?_, ?_⟩
      · rcases h2 with h | h
        · rw [h]; simp
        · exact List.mem_cons_of_mem _ h
      · intro p hp
        rcases List.mem_cons.1 hp with rfl | hp
        · exact Or.inr h3
        · exact h4 p.2 (List.mem_map_of_mem hp)

theorem pyBest_nan {v : List (K × Fl K)} (hne : v ≠ []) (hs : ¬ StartsWell v) :
    pyBest better (v.map Prod.snd) = .ok .nan := by
  cases v with
  | nil => exact absurd rfl hne
  | cons a r =>
      have ha : a.2 = .nan := by
        by_contra h
        exact hs (fun p hp => by cases hp; exact h)
      simp only [List.map_cons, pyBest, ha, fold_nan H]

/-- The loop over the combinations. -/
theorem bestLoop_spec : ∀ (d : Dict Key (List (K × Fl K))) (b : Option Key × Fl K), (∀ it ∈ d, it.2 ≠ []) → b.2 ≠ .nan →
    ∃ k v, bestLoop better b d = .ok (k, v) ∧ v ≠ .nan ∧ le b.2 v ∧
      (∀ it ∈ d, StartsWell it.2 → ∀ p ∈ it.2, p.2 = .nan ∨ le p.2 v) ∧
      ((k, v) = b ∨ ∃ k' pts, k = some k' ∧ (k', pts) ∈ d ∧ StartsWell pts ∧ v ∈ pts.map Prod.snd)
  | [], b, _, hb => ⟨b.1, b.2, rfl, hb, H.refl hb, by simp, Or.inl rfl⟩
  | (k₀, pts₀) :: d, b, hne, hb => by
      have hne' : ∀ it ∈ d, it.2 ≠ [] := fun it hit => hne it (List.mem_cons_of_mem _ hit)
      by_cases hs : StartsWell pts₀
      · obtain ⟨m, e, hm, hmem, hmax⟩ := pyBest_starts H (hne (k₀, pts₀) (by simp)) hs
        have hstep : bestLoop better b ((k₀, pts₀) :: d) = bestLoop better (if better m b.2 then (some k₀, m) else b) d := by
          simp only [bestLoop, e]; rfl
        rw [hstep]
        by_cases hbt : better m b.2 = true
        · rw [if_pos hbt]
          obtain ⟨k, v, h1, h2, h3, h4, h5⟩ := bestLoop_spec d (some k₀, m) hne' hm
          have hbm : le b.2 m := by
            rcases H.total hb hm with h | h
            · exact h
            · exact absurd h ((H.iff hm hb).1 hbt)
          refine ⟨k, v, h1, h2, H.trans hbm h3, ?_, ?_⟩
          · intro it hit hw p hp
            rcases List.mem_cons.1 hit with rfl | hit
            · rcases hmax p hp with h | h
              · exact Or.inl h
              · exact Or.inr (H.trans h h3)
            · exact h4 it hit hw p hp
          · rcases h5 with h | ⟨k', pts, e1, e2, e3, e4⟩
            · cases h
              exact Or.inr ⟨k₀, pts₀, rfl, by simp, hs, hmem⟩
            · exact Or.inr ⟨k', pts, e1, List.mem_cons_of_mem _ e2, e3, e4⟩
        · rw [if_neg hbt]
          obtain ⟨k, v, h1, h2, h3, h4, h5⟩ := bestLoop_spec d b hne' hb
          have hmb : le m b.2 := by
            by_contra h
            exact hbt ((H.iff hm hb).2 h)
          refine ⟨k, v, h1, h2, h3, ?_, ?_⟩
          · intro it hit hw p hp
            rcases List.mem_cons.1 hit with rfl | hit
            · rcases hmax p hp with h | h
              · exact Or.inl h
              · exact Or.inr (H.trans h (H.trans hmb h3))
            · exact h4 it hit hw p hp
          · rcases h5 with h | ⟨k', pts, e1, e2, e3, e4⟩
            · exact Or.inl h
            · exact Or.inr ⟨k', pts, e1, List.mem_cons_of_mem _ e2, e3, e4⟩
      · have hstep : bestLoop better b ((k₀, pts₀) :: d) = bestLoop better b d := by
          simp only [bestLoop, pyBest_nan H (hne (k₀, pts₀) (by simp)) hs, ok_bind, H.nan_left]
          rfl
        rw [hstep]
        obtain ⟨k, v, h1, h2, h3, h4, h5⟩ := bestLoop_spec d b hne' hb
        refine ⟨k, v, h1, h2, h3, ?_, ?_⟩
        · intro it hit hw p hp
          rcases List.mem_cons.1 hit with rfl | hit
          · exact absurd hw hs
          · exact h4 it hit hw p hp
        · rcases h5 with h | ⟨k', pts, e1, e2, e3, e4⟩
          · exact Or.inl h
          · exact Or.inr ⟨k', pts, e1, List.mem_cons_of_mem _ e2, e3, e4⟩

theorem bestLoop_nan : ∀ (d : Dict Key (List (K × Fl K))) (b : Option Key × Fl K), (∀ it ∈ d, it.2 ≠ []) →
    (∀ it ∈ d, ¬ StartsWell it.2) → bestLoop better b d = .ok b
  | [], b, _, _ => rfl
  | (k₀, pts₀) :: d, b, hne, hs => by
      simp only [bestLoop, pyBest_nan H (hne (k₀, pts₀) (by simp)) (hs (k₀, pts₀) (by simp)), ok_bind, H.nan_left]
      exact bestLoop_nan d b (fun it hit => hne it (List.mem_cons_of_mem _ hit)) (fun it hit => hs it (List.mem_cons_of_mem _ hit))

end

/-! ## Reachable containers -/

section
variable [FloorRing K] [HasPi K]

theorem dedupFl_ne_nil {l : List (K × Fl K)} : ∀ (kept : List (K × Fl K)), kept ≠ [] → dedupFl kept l ≠ [] := by
  induction l with
  | nil => exact fun kept h => h
  | cons p l ih =>
      intro kept h
      unfold dedupFl
      split
      · exact ih kept h
      · exact ih _ (by simp)

theorem mapVals_ne_nil {d : Dict Key (List (K × Fl K))} (h : ∀ it ∈ d, it.2 ≠ []) (f : K × Fl K → K × Fl K) :
    ∀ it ∈ d.mapVals (fun v => v.map f), it.2 ≠ [] := by
  rintro ⟨k, v⟩ hit
  obtain ⟨w, hw, rfl⟩ := Dict.mem_mapVals.1 hit
  simpa using h _ hw

theorem scaleData_fl {c c' : FlContainer K} {s : Fl K} (h : c.scaleData s = .ok c') :
    s.lt (.num 0) = false ∧ c' = { c with
      data := c.data.mapVals (fun v => v.map (fun p => (p.1, s.mul p.2))), scale := c.scale.mul s } := by
  unfold FlContainer.scaleData at h
  split at h
  · cases h
  · rename_i hh
    simp only [Except.ok.injEq] at h
    exact ⟨by simpa using hh, h.symm⟩

theorem mem_mapValsM_ok {α β : Type} {f : α → Except Err β} {d : Dict Key α} {d' : Dict Key β} (h : d.mapValsM f = .ok d')
    {k : Key} {v : β} (hv : (k, v) ∈ d') : ∃ w, (k, w) ∈ d ∧ f w = .ok v := by
  have h3 := Dict.mapValsM_ok h
  clear h
  induction h3 with
  | nil => cases hv
  | @cons p q l l' h _ ih =>
      rcases List.mem_cons.1 hv with rfl | hv
      · exact ⟨p.2, by rw [← show p.1 = k from h.1]; simp, h.2⟩
      · obtain ⟨w, h1, h2⟩ := ih hv
        exact ⟨w, List.mem_cons_of_mem _ h1, h2⟩

/-- Every array of a container that the code makes has a point. -/
theorem flReachable_ne_nil {c : FlContainer K} (h : FlReachable c) : ∀ it ∈ c.data, it.2 ≠ [] := by
  induction h with
  | init h =>
      rename_i d c
      unfold FlContainer.init at h
      obtain ⟨d', h1, h2⟩ := bind_ok h
      cases h2
      rintro ⟨k, v⟩ hit
      obtain ⟨w, _, e⟩ := mem_mapValsM_ok h1 hit
      unfold normalFl at e
      split at e
      · cases e
      · simp only [Except.ok.injEq] at e
        rename_i hne
        rintro hv
        simp only at hv
        rw [hv] at e
        have := congrArg List.length e
        simp only [List.length_mergeSort, List.length_map, List.length_nil] at this
        exact hne (List.eq_nil_of_length_eq_zero this)
  | scale _ h ih => rw [(scaleData_fl h).2]; exact mapVals_ne_nil ih _
  | normalize _ h ih =>
      unfold FlContainer.normalizeData at h
      obtain ⟨r, _, h2⟩ := bind_ok h
      rw [(scaleData_fl h2).2]; exact mapVals_ne_nil ih _
  | subtractMin _ h ih =>
      unfold FlContainer.subtractMin at h
      obtain ⟨r, _, h2⟩ := bind_ok h
      cases h2
      exact mapVals_ne_nil ih _

theorem Spec.LargestIn.unique {d : Dict Key (List (K × Fl K))} {ok : List (K × Fl K) → Prop} {k k' : Option Key} {v v' : Fl K}
    (h : LargestIn d ok k v) (h' : LargestIn d ok k' v') : v = v' := by
  have key : ∀ {k k' : Option Key} {v v' : Fl K}, LargestIn d ok k v → LargestIn d ok k' v' → FlLe v v' := by
    rintro k k' v v' ⟨h1, _, h3⟩ ⟨g1, g2, _⟩
    rcases h3 with ⟨_, rfl⟩ | ⟨k'', pts, _, hm, hok, hv⟩
    · cases v' <;> simp_all [FlLe]
    · obtain ⟨p, hp, rfl⟩ := List.mem_map.1 hv
      rcases g2 _ hm hok p hp with h | h
      · exact absurd h h1
      · exact h
  have a := key h h'
  have b := key h' h
  cases v <;> cases v' <;> simp_all [FlLe]
  exact le_antisymm a b

theorem Fl.num_mul_le {s : K} (hs : 0 < s) {a b : Fl K} (h : FlLe a b) : FlLe ((Fl.num s).mul a) ((Fl.num s).mul b) := by
  have h1 : s ≠ 0 := hs.ne'
  have h2 : ¬ s < 0 := not_lt.2 hs.le
  cases a <;> cases b <;> simp_all [FlLe, Fl.mul, Fl.timesInf, not_lt.2 hs.le]

theorem Fl.num_mul_nan {s : K} (hs : 0 < s) {a : Fl K} : (Fl.num s).mul a = .nan ↔ a = .nan := by
  have h1 : s ≠ 0 := hs.ne'
  have h2 : ¬ s < 0 := not_lt.2 hs.le
  cases a <;> simp_all [Fl.mul, Fl.timesInf, not_lt.2 hs.le]

theorem startsWell_map {s : K} (hs : 0 < s) {v : List (K × Fl K)} :
    StartsWell (v.map (fun p => (p.1, (Fl.num s).mul p.2))) ↔ StartsWell v := by
  cases v with
  | nil => simp [StartsWell]
  | cons a r => simp [StartsWell, Fl.num_mul_nan hs]

theorem largestIn_scaled {d : Dict Key (List (K × Fl K))} {s : K} (hs : 0 < s) {k : Option Key} {v : Fl K} (h : LargestIn d StartsWell k v) :
    LargestIn (d.mapVals (fun v => v.map (fun p => (p.1, (Fl.num s).mul p.2)))) StartsWell k ((Fl.num s).mul v) := by
  obtain ⟨h1, h2, h3⟩ := h
  refine ⟨fun h => h1 ((Fl.num_mul_nan hs).1 h), ?_, ?_⟩
  · rintro ⟨k', w⟩ hit hw p hp
    obtain ⟨w', hw', rfl⟩ := Dict.mem_mapVals.1 hit
    obtain ⟨q, hq, rfl⟩ := List.mem_map.1 hp
    rcases h2 _ hw' ((startsWell_map hs).1 hw) q hq with h | h
    · exact Or.inl ((Fl.num_mul_nan hs).2 h)
    · exact Or.inr (Fl.num_mul_le hs h)
  · rcases h3 with ⟨rfl, rfl⟩ | ⟨k', pts, e1, e2, e3, e4⟩
    · refine Or.inl ⟨rfl, ?_⟩
      have h1 : s ≠ 0 := hs.ne'
      have h2 : ¬ s < 0 := not_lt.2 hs.le
      simp [Fl.mul, Fl.timesInf, h1, h2]
    · refine Or.inr ⟨k', _, e1, Dict.mem_mapVals.2 ⟨pts, e2, rfl⟩, (startsWell_map hs).2 e3, ?_⟩
      obtain ⟨q, hq, rfl⟩ := List.mem_map.1 e4
      exact List.mem_map.2 ⟨_, List.mem_map.2 ⟨q, hq, rfl⟩, rfl⟩

/-! ### With finite values the model is the one of `DataContainer` -/

theorem pyBest_max (l : List K) : pyBest (fun x m : Fl K => m.lt x) (l.map .num) = (DataContainer.pyMax l).map .num := by
  cases l with
  | nil => rfl
  | cons a r =>
      simp only [List.map_cons, pyBest, DataContainer.pyMax, Except.map, Except.ok.injEq]
      induction r generalizing a with
      | nil => rfl
      | cons b r ih =>
          simp only [List.map_cons, List.foldl_cons, Fl.lt, decide_eq_true_eq, gt_iff_lt]
          split
          · exact ih b
          · exact ih a

theorem pyBest_min (l : List K) : pyBest (fun x m : Fl K => x.lt m) (l.map .num) = (DataContainer.pyMin l).map .num := by
  cases l with
  | nil => rfl
  | cons a r =>
      simp only [List.map_cons, pyBest, DataContainer.pyMin, Except.map, Except.ok.injEq]
      induction r generalizing a with
      | nil => rfl
      | cons b r ih =>
          simp only [List.map_cons, List.foldl_cons, Fl.lt, decide_eq_true_eq]
          split
          · exact ih b
          · exact ih a

/-- `(None, w)` for no value. -/
def bestOr (w : Fl K) : Option (Key × K) → Option Key × Fl K
  | none => (none, w)
  | some (k, m) => (some k, .num m)

theorem values_asFl (v : List (K × K)) :
    (v.map (fun p => (p.1, Fl.num p.2))).map Prod.snd = (v.map Prod.snd).map Fl.num := by
  simp [Function.comp_def]

theorem bestLoop_max (d : Dict Key (List (K × K))) (b : Option (Key × K)) :
    bestLoop (fun x m : Fl K => m.lt x) (bestOr .ninf b) (d.mapVals (fun v => v.map (fun p => (p.1, .num p.2)))) =
      (DataContainer.maxLoop b d).map (bestOr .ninf) := by
  induction d generalizing b with
  | nil => rfl
  | cons p d ih =>
      obtain ⟨k, v⟩ := p
      simp only [Dict.mapVals_cons, bestLoop, DataContainer.maxLoop, values_asFl, pyBest_max]
      cases DataContainer.pyMax (v.map Prod.snd) with
      | error e => rfl
      | ok m =>
          simp only [Except.map, ok_bind]
          rcases b with _ | ⟨k', m'⟩
          · exact ih (some (k, m))
          · simp only [bestOr, Fl.lt, decide_eq_true_eq, gt_iff_lt]
            split
            · exact ih (some (k, m))
            · exact ih (some (k', m'))

theorem bestLoop_min (d : Dict Key (List (K × K))) (b : Option (Key × K)) :
    bestLoop (fun x m : Fl K => x.lt m) (bestOr .pinf b) (d.mapVals (fun v => v.map (fun p => (p.1, .num p.2)))) =
      (DataContainer.minLoop b d).map (bestOr .pinf) := by
  induction d generalizing b with
  | nil => rfl
  | cons p d ih =>
      obtain ⟨k, v⟩ := p
      simp only [Dict.mapVals_cons, bestLoop, DataContainer.minLoop, values_asFl, pyBest_min]
      cases DataContainer.pyMin (v.map Prod.snd) with
      | error e => rfl
      | ok m =>
          simp only [Except.map, ok_bind]
          rcases b with _ | ⟨k', m'⟩
          · exact ih (some (k, m))
          · simp only [bestOr, Fl.lt, decide_eq_true_eq]
            split
            · exact ih (some (k, m))
            · exact ih (some (k', m'))

theorem getMaxval_asFl (c : DataContainer K) : (asFl c).getMaxval = c.getMaxval.map (bestOr .ninf) := bestLoop_max c.data none
theorem getMinval_asFl (c : DataContainer K) : (asFl c).getMinval = c.getMinval.map (bestOr .pinf) := bestLoop_min c.data none

theorem scaleData_asFl (c : DataContainer K) (s : K) : (asFl c).scaleData (.num s) = (c.scaleData s).map asFl := by
  unfold FlContainer.scaleData DataContainer.scaleData
  simp only [Fl.lt, decide_eq_true_eq]
  split
  · rfl
  · simp [asFl, Except.map, Dict.mapVals_mapVals, Function.comp_def, Fl.mul]

theorem mapVals_eq_nil_of_minval {c : DataContainer K} (h : c.getMinval = .ok none) : c.data = [] := by
  have : ∀ (d : Dict Key (List (K × K))) (b : Option (Key × K)), DataContainer.minLoop b d = .ok none → b = none ∧ d = [] := by
    intro d
    induction d with
    | nil => intro b hb; simp only [DataContainer.minLoop, Except.ok.injEq] at hb; exact ⟨hb, rfl⟩
    | cons p d ih =>
        intro b hb
        obtain ⟨k, v⟩ := p
        simp only [DataContainer.minLoop] at hb
        obtain ⟨m, _, h2⟩ := bind_ok hb
        exfalso
        rcases b with _ | ⟨k', m'⟩
        · exact absurd (ih _ h2).1 (by simp)
        · simp only at h2
          split at h2
          · exact absurd (ih _ h2).1 (by simp)
          · exact absurd (ih _ h2).1 (by simp)
  exact (this c.data none h).2

theorem subtractMin_asFl (c : DataContainer K) : (asFl c).subtractMin = c.subtractMin.map asFl := by
  unfold FlContainer.subtractMin DataContainer.subtractMin
  rw [getMinval_asFl]
  cases h : c.getMinval with
  | error e => rfl
  | ok b =>
      simp only [Except.map, ok_bind]
      rcases b with _ | ⟨k, m⟩
      · have hd := mapVals_eq_nil_of_minval h
        simp only [bestOr, pure, Except.pure, asFl, hd, Dict.mapVals, List.map_nil]
        cases c.offset <;> rfl
      · simp only [bestOr, pure, Except.pure, asFl, Dict.mapVals_mapVals, Function.comp_def, List.map_map, Fl.sub]
        cases c.offset <;> rfl

theorem dedupFl_asFl (kept l : List (K × K)) :
    dedupFl (kept.map (fun p => (p.1, Fl.num p.2))) (l.map (fun p => (p.1, .num p.2))) =
      (dedupFrom kept l).map (fun p => (p.1, .num p.2)) := by
  induction l generalizing kept with
  | nil => rfl
  | cons p l ih =>
      have e : (kept.map (fun p => (p.1, Fl.num p.2))).map Prod.fst = kept.map Prod.fst := by simp [Function.comp_def]
      simp only [List.map_cons, dedupFl, dedupFrom, e]
      split
      · exact ih kept
      · rw [← ih]; simp

theorem normalFl_asFl (l : List (K × K)) :
    normalFl (dedupFl [] (l.map (fun p => (p.1, Fl.num p.2)))) =
      if l = [] then .error .valueError else .ok ((finalPts ⟨false, l⟩).map (fun p => (p.1, .num p.2))) := by
  have h := dedupFl_asFl [] l
  simp only [List.map_nil] at h
  rw [h]
  unfold normalFl finalPts sortPts
  simp only [List.map_eq_nil_iff, dedupFrom_ne_nil, castTo_false]
  split
  · rfl
  · rw [List.map_mergeSort (s := fun a b : K × Fl K => decide (a.1 ≤ b.1)) (fun _ _ _ _ => rfl)]
    simp [Function.comp_def]

theorem init_floats {items : List (Key × List (K × K))} (hwf : Dict.WF items) :
    DataContainer.init
      (items.map (fun it => (.str it.1, .arr2 .float [it.2.map Prod.fst, it.2.map Prod.snd]))) sRadians false =
      if ∀ p ∈ items, p.2 ≠ [] then
        .ok (⟨Dict.mapVals (fun v => finalPts ⟨false, v⟩) items, 1, 0, some 0, false, sRadians⟩,
          duplicateWarnings (Dict.mapVals (fun v => (⟨false, v⟩ : NArr K)) items))
      else .error .valueError := by
  have hnd : ((items.map (fun it => ((.str it.1 : RawKey),
      (.arr2 .float [it.2.map Prod.fst, it.2.map Prod.snd] : RawVal K)))).map Prod.fst).Nodup := by
    rw [List.map_map]
    have : (Prod.fst ∘ fun it : Key × List (K × K) => ((.str it.1 : RawKey),
      (.arr2 .float [it.2.map Prod.fst, it.2.map Prod.snd] : RawVal K))) = RawKey.str ∘ Prod.fst := rfl
    rw [this, ← List.map_map]
    exact List.Nodup.map (fun a b h => by cases h; rfl) hwf
  have hck : ∀ d : Dict Key (List (K × K)), checkIterable (d.map (fun it => ((.str it.1 : RawKey),
      (.arr2 .float [it.2.map Prod.fst, it.2.map Prod.snd] : RawVal K))))
      = .ok (d.mapVals (fun v => ⟨false, v⟩)) := by
    intro d
    induction d with
    | nil => rfl
    | cons it d ih =>
      obtain ⟨k, v⟩ := it
      simp only [List.map_cons, checkIterable, ih]
      have : checkVal (RawVal.arr2 DType.float [List.map Prod.fst v, List.map Prod.snd v])
          = some ⟨false, v⟩ := by
        simp only [checkVal, List.length_map, ne_eq, reduceCtorEq, not_false_eq_true, and_self, if_true,
          decide_false, Option.some.injEq, NArr.mk.injEq, true_and]
        rw [List.zip_map']
        simp
      rw [this]
      rfl
  have hrd : radDict sRadians (Dict.mapVals (fun v => (⟨false, v⟩ : NArr K)) items)
      = Dict.mapVals (fun v => (⟨false, v⟩ : NArr K)) items := by
    simp [radDict, sRadians, sDegrees]
  rw [init_eq, if_pos (Or.inl rfl), Dict.ofPairs_of_nodup hnd, hck]
  simp only [Bool.false_eq_true, if_false, hrd, Dict.mapVals_mapVals]
  have : (∀ p ∈ Dict.mapVals (fun v => (⟨false, v⟩ : NArr K)) items, p.2.pts ≠ []) ↔ ∀ p ∈ items, p.2 ≠ [] := by
    constructor
    · rintro h ⟨k, v⟩ hv
      exact h (k, ⟨false, v⟩) (Dict.mem_mapVals.2 ⟨v, hv, rfl⟩)
    · rintro h ⟨k, v⟩ hv
      obtain ⟨w, hw, rfl⟩ := Dict.mem_mapVals.1 hv
      exact h _ hw
  simp only [this]

theorem init_asFl {items : List (Key × List (K × K))} (hwf : Dict.WF items) :
    FlContainer.init (Dict.mapVals (fun v => v.map (fun p => (p.1, .num p.2))) items) =
      (DataContainer.init (items.map (fun it => (.str it.1, .arr2 .float [it.2.map Prod.fst, it.2.map Prod.snd]))) sRadians
        false).map (fun r => asFl r.1) := by
  rw [init_floats hwf]
  unfold FlContainer.init
  have key : ∀ d : Dict Key (List (K × K)),
      Dict.mapValsM (fun v => normalFl (dedupFl [] v)) (Dict.mapVals (fun v => v.map (fun p => (p.1, Fl.num p.2))) d) =
        if ∀ p ∈ d, p.2 ≠ [] then .ok (d.mapVals (fun v => (finalPts ⟨false, v⟩).map (fun p => (p.1, .num p.2))))
        else .error .valueError := by
    intro d
    induction d with
    | nil => rfl
    | cons p d ih =>
        obtain ⟨k, v⟩ := p
        simp only [Dict.mapVals_cons, Dict.mapValsM, normalFl_asFl, ih]
        by_cases hv : v = []
        · simp [hv, bind, Except.bind]
        · by_cases hd : ∀ p ∈ d, p.2 ≠ []
          · rw [if_neg hv, if_pos hd, if_pos (by simpa [hv] using hd)]
            rfl
          · rw [if_neg hv, if_neg hd, if_neg (by simpa [hv] using hd)]
            rfl
  rw [key]
  split
  · simp [Except.map, asFl, Dict.mapVals_mapVals, bind, Except.bind, pure, Except.pure]
  · rfl

end

end Shgpy
