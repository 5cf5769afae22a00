import Verif.Proofs.DataOps
import Verif.Spec.History

/-! Lemmas about extrema. -/

set_option linter.unusedSectionVars false
set_option linter.unusedSimpArgs false

namespace Shgpy
open Spec

variable {K : Type} [Field K] [LinearOrder K] [IsStrictOrderedRing K] [FloorRing K] [HasPi K]

theorem foldl_max_spec (r : List K) (a : K) :
    let m := r.foldl (fun m x => if x > m then x else m) a
    (m = a ∨ m ∈ r) ∧ a ≤ m ∧ ∀ x ∈ r, x ≤ m := by
  induction r generalizing a with
  | nil => simp
  | cons x r ih =>
    simp only [List.foldl_cons]
    obtain ⟨h1, h2, h3⟩ := ih (if x > a then x else a)
    refine ⟨?_, ?_, ?_⟩
    · rcases h1 with h1 | h1
      · rw [h1]
        split
        · right; simp
        · left; rfl
      · right; exact List.mem_cons_of_mem _ h1
    · refine le_trans ?_ h2
      split
      · next h => exact le_of_lt h
      · exact le_rfl
    · intro y hy
      rcases List.mem_cons.1 hy with rfl | hy
      · refine le_trans ?_ h2
        split
        · exact le_rfl
        · next h => exact not_lt.1 h
      · exact h3 y hy

theorem foldl_min_spec (r : List K) (a : K) :
    let m := r.foldl (fun m x => if x < m then x else m) a
    (m = a ∨ m ∈ r) ∧ m ≤ a ∧ ∀ x ∈ r, m ≤ x := by
  induction r generalizing a with
  | nil => simp
  | cons x r ih =>
    simp only [List.foldl_cons]
    obtain ⟨h1, h2, h3⟩ := ih (if x < a then x else a)
    refine ⟨?_, ?_, ?_⟩
    · rcases h1 with h1 | h1
      · rw [h1]
        split
        · right; simp
        · left; rfl
      · right; exact List.mem_cons_of_mem _ h1
    · refine le_trans h2 ?_
      split
      · next h => exact le_of_lt h
      · exact le_rfl
    · intro y hy
      rcases List.mem_cons.1 hy with rfl | hy
      · refine le_trans h2 ?_
        split
        · exact le_rfl
        · next h => exact not_lt.1 h
      · exact h3 y hy

theorem pyMax_spec {l : List K} {m : K} (h : DataContainer.pyMax l = .ok m) : m ∈ l ∧ ∀ x ∈ l, x ≤ m := by
  cases l with
  | nil => cases h
  | cons a r =>
    simp only [DataContainer.pyMax, Except.ok.injEq] at h
    obtain ⟨h1, h2, h3⟩ := foldl_max_spec r a
    rw [h] at h1 h2 h3
    refine ⟨?_, ?_⟩
    · rcases h1 with rfl | h1
      · simp
      · exact List.mem_cons_of_mem _ h1
    · intro x hx
      rcases List.mem_cons.1 hx with rfl | hx
      · exact h2
      · exact h3 x hx

theorem pyMin_spec {l : List K} {m : K} (h : DataContainer.pyMin l = .ok m) : m ∈ l ∧ ∀ x ∈ l, m ≤ x := by
  cases l with
  | nil => cases h
  | cons a r =>
    simp only [DataContainer.pyMin, Except.ok.injEq] at h
    obtain ⟨h1, h2, h3⟩ := foldl_min_spec r a
    rw [h] at h1 h2 h3
    refine ⟨?_, ?_⟩
    · rcases h1 with rfl | h1
      · simp
      · exact List.mem_cons_of_mem _ h1
    · intro x hx
      rcases List.mem_cons.1 hx with rfl | hx
      · exact h2
      · exact h3 x hx

theorem pyMax_ne_nil {l : List K} (h : l ≠ []) : ∃ m, DataContainer.pyMax l = .ok m := by
  cases l with
  | nil => exact absurd rfl h
  | cons a r => exact ⟨_, rfl⟩

theorem pyMin_ne_nil {l : List K} (h : l ≠ []) : ∃ m, DataContainer.pyMin l = .ok m := by
  cases l with
  | nil => exact absurd rfl h
  | cons a r => exact ⟨_, rfl⟩

/-- Invariant of the maximum loop. -/
theorem maxLoop_spec {k₀ : Key} {m₀ : K} {done rest : Dict Key (List (K × K))}
    (hdone : FirstExtremum (fun x y : K => x > y) done k₀ m₀) {r : Option (Key × K)}
    (h : DataContainer.maxLoop (some (k₀, m₀)) rest = .ok r) :
    ∃ k m, r = some (k, m) ∧ FirstExtremum (fun x y : K => x > y) (done ++ rest) k m := by
  induction rest generalizing done k₀ m₀ with
  | nil =>
    cases h
    exact ⟨k₀, m₀, rfl, by simpa using hdone⟩
  | cons it rest ih =>
    obtain ⟨k, v⟩ := it
    simp only [DataContainer.maxLoop, bind, Except.bind] at h
    cases hm : DataContainer.pyMax (v.map Prod.snd) with
    | error e => rw [hm] at h; cases h
    | ok m =>
      rw [hm] at h
      simp only at h
      obtain ⟨hmem, hub⟩ := pyMax_spec hm
      obtain ⟨p, hp, hpm⟩ := List.mem_map.1 hmem
      have hub' : ∀ q ∈ v, q.2 ≤ m := fun q hq => hub _ (List.mem_map.2 ⟨q, hq, rfl⟩)
      obtain ⟨pre, pts, post, hd, h1, h2, h3, h4⟩ := hdone
      have happ : done ++ (k, v) :: rest = (done ++ [(k, v)]) ++ rest := by simp
      rw [happ]
      split at h
      · next hgt =>
        apply ih (k₀ := k) (m₀ := m) ?_ h
        refine ⟨done, v, [], rfl, ⟨p, hp, hpm⟩, fun q hq => not_lt.2 (hub' q hq), ?_, by simp⟩
        intro it hit q hq
        rw [hd] at hit
        rcases List.mem_append.1 hit with hit | hit
        · exact lt_trans (h3 it hit q hq) hgt
        · rcases List.mem_cons.1 hit with rfl | hit
          · exact lt_of_le_of_lt (not_lt.1 (h2 q hq)) hgt
          · exact lt_of_le_of_lt (not_lt.1 (h4 it hit q hq)) hgt
      · next hgt =>
        apply ih (k₀ := k₀) (m₀ := m₀) ?_ h
        refine ⟨pre, pts, post ++ [(k, v)], by rw [hd]; simp, h1, h2, h3, ?_⟩
        intro it hit q hq
        rcases List.mem_append.1 hit with hit | hit
        · exact h4 it hit q hq
        · rw [List.mem_singleton.1 hit] at hq
          exact not_lt.2 (le_trans (hub' q hq) (not_lt.1 hgt))

theorem minLoop_spec {k₀ : Key} {m₀ : K} {done rest : Dict Key (List (K × K))}
    (hdone : FirstExtremum (fun x y : K => x < y) done k₀ m₀) {r : Option (Key × K)}
    (h : DataContainer.minLoop (some (k₀, m₀)) rest = .ok r) :
    ∃ k m, r = some (k, m) ∧ FirstExtremum (fun x y : K => x < y) (done ++ rest) k m := by
  induction rest generalizing done k₀ m₀ with
  | nil =>
    cases h
    exact ⟨k₀, m₀, rfl, by simpa using hdone⟩
  | cons it rest ih =>
    obtain ⟨k, v⟩ := it
    simp only [DataContainer.minLoop, bind, Except.bind] at h
    cases hm : DataContainer.pyMin (v.map Prod.snd) with
    | error e => rw [hm] at h; cases h
    | ok m =>
      rw [hm] at h
      simp only at h
      obtain ⟨hmem, hub⟩ := pyMin_spec hm
      obtain ⟨p, hp, hpm⟩ := List.mem_map.1 hmem
      have hub' : ∀ q ∈ v, m ≤ q.2 := fun q hq => hub _ (List.mem_map.2 ⟨q, hq, rfl⟩)
      obtain ⟨pre, pts, post, hd, h1, h2, h3, h4⟩ := hdone
      have happ : done ++ (k, v) :: rest = (done ++ [(k, v)]) ++ rest := by simp
      rw [happ]
      split at h
      · next hgt =>
        apply ih (k₀ := k) (m₀ := m) ?_ h
        refine ⟨done, v, [], rfl, ⟨p, hp, hpm⟩, fun q hq => not_lt.2 (hub' q hq), ?_, by simp⟩
        intro it hit q hq
        rw [hd] at hit
        rcases List.mem_append.1 hit with hit | hit
        · exact lt_trans hgt (h3 it hit q hq)
        · rcases List.mem_cons.1 hit with rfl | hit
          · exact lt_of_lt_of_le hgt (not_lt.1 (h2 q hq))
          · exact lt_of_lt_of_le hgt (not_lt.1 (h4 it hit q hq))
      · next hgt =>
        apply ih (k₀ := k₀) (m₀ := m₀) ?_ h
        refine ⟨pre, pts, post ++ [(k, v)], by rw [hd]; simp, h1, h2, h3, ?_⟩
        intro it hit q hq
        rcases List.mem_append.1 hit with hit | hit
        · exact h4 it hit q hq
        · rw [List.mem_singleton.1 hit] at hq
          exact not_lt.2 (le_trans (not_lt.1 hgt) (hub' q hq))

theorem maxLoop_total (b : Option (Key × K)) (d : Dict Key (List (K × K))) (h : ∀ it ∈ d, it.2 ≠ []) :
    ∃ r, DataContainer.maxLoop b d = .ok r := by
  induction d generalizing b with
  | nil => exact ⟨b, rfl⟩
  | cons it d ih =>
    obtain ⟨k, v⟩ := it
    have hv : v.map Prod.snd ≠ [] := by
      rw [Ne, List.map_eq_nil_iff]; exact h (k, v) (by simp)
    obtain ⟨m, hm⟩ := pyMax_ne_nil hv
    have ih' := fun b => ih b (fun it hit => h it (List.mem_cons_of_mem _ hit))
    simp only [DataContainer.maxLoop, hm, bind, Except.bind]
    cases b with
    | none => exact ih' _
    | some km =>
      simp only
      split
      · exact ih' _
      · exact ih' _

theorem minLoop_total (b : Option (Key × K)) (d : Dict Key (List (K × K))) (h : ∀ it ∈ d, it.2 ≠ []) :
    ∃ r, DataContainer.minLoop b d = .ok r := by
  induction d generalizing b with
  | nil => exact ⟨b, rfl⟩
  | cons it d ih =>
    obtain ⟨k, v⟩ := it
    have hv : v.map Prod.snd ≠ [] := by
      rw [Ne, List.map_eq_nil_iff]; exact h (k, v) (by simp)
    obtain ⟨m, hm⟩ := pyMin_ne_nil hv
    have ih' := fun b => ih b (fun it hit => h it (List.mem_cons_of_mem _ hit))
    simp only [DataContainer.minLoop, hm, bind, Except.bind]
    cases b with
    | none => exact ih' _
    | some km =>
      simp only
      split
      · exact ih' _
      · exact ih' _

theorem getMaxval_spec {c : DataContainer K} (hne : ∀ it ∈ c.data, it.2 ≠ []) :
    (c.data = [] ∧ c.getMaxval = .ok none) ∨
    ∃ k m, c.getMaxval = .ok (some (k, m)) ∧ FirstExtremum (fun x y : K => x > y) c.data k m := by
  unfold DataContainer.getMaxval
  cases hd : c.data with
  | nil => exact Or.inl ⟨rfl, rfl⟩
  | cons it d =>
    right
    rw [hd] at hne
    obtain ⟨r, hr⟩ := maxLoop_total none (it :: d) hne
    obtain ⟨k, v⟩ := it
    have hr' := hr
    simp only [DataContainer.maxLoop, bind, Except.bind] at hr'
    cases hm : DataContainer.pyMax (v.map Prod.snd) with
    | error e => rw [hm] at hr'; cases hr'
    | ok m =>
      rw [hm] at hr'
      simp only at hr'
      obtain ⟨hmem, hub⟩ := pyMax_spec hm
      obtain ⟨p, hp, hpm⟩ := List.mem_map.1 hmem
      have hub' : ∀ q ∈ v, q.2 ≤ m := fun q hq => hub _ (List.mem_map.2 ⟨q, hq, rfl⟩)
      obtain ⟨k', m', rfl, hf⟩ := maxLoop_spec (done := [(k, v)])
        ⟨[], v, [], rfl, ⟨p, hp, hpm⟩, fun q hq => not_lt.2 (hub' q hq), by simp, by simp⟩ hr'
      exact ⟨k', m', hr, hf⟩

theorem getMinval_spec {c : DataContainer K} (hne : ∀ it ∈ c.data, it.2 ≠ []) :
    (c.data = [] ∧ c.getMinval = .ok none) ∨
    ∃ k m, c.getMinval = .ok (some (k, m)) ∧ FirstExtremum (fun x y : K => x < y) c.data k m := by
  unfold DataContainer.getMinval
  cases hd : c.data with
  | nil => exact Or.inl ⟨rfl, rfl⟩
  | cons it d =>
    right
    rw [hd] at hne
    obtain ⟨r, hr⟩ := minLoop_total none (it :: d) hne
    obtain ⟨k, v⟩ := it
    have hr' := hr
    simp only [DataContainer.minLoop, bind, Except.bind] at hr'
    cases hm : DataContainer.pyMin (v.map Prod.snd) with
    | error e => rw [hm] at hr'; cases hr'
    | ok m =>
      rw [hm] at hr'
      simp only at hr'
      obtain ⟨hmem, hub⟩ := pyMin_spec hm
      obtain ⟨p, hp, hpm⟩ := List.mem_map.1 hmem
      have hub' : ∀ q ∈ v, m ≤ q.2 := fun q hq => hub _ (List.mem_map.2 ⟨q, hq, rfl⟩)
      obtain ⟨k', m', rfl, hf⟩ := minLoop_spec (done := [(k, v)])
        ⟨[], v, [], rfl, ⟨p, hp, hpm⟩, fun q hq => not_lt.2 (hub' q hq), by simp, by simp⟩ hr'
      exact ⟨k', m', hr, hf⟩

/-! ### Monotone maps of the values -/

/-- Apply `g` to the values. -/
def mapY (g : K → K) (v : List (K × K)) : List (K × K) := v.map (fun p => (p.1, g p.2))

theorem pyMax_mapY {g : K → K} (hg : StrictMono g) (v : List (K × K)) :
    DataContainer.pyMax ((mapY g v).map Prod.snd) = (DataContainer.pyMax (v.map Prod.snd)).map g := by
  have aux : ∀ (r : List K) (a : K), (r.map g).foldl (fun m x => if x > m then x else m) (g a)
      = g (r.foldl (fun m x => if x > m then x else m) a) := by
    intro r
    induction r with
    | nil => intro a; rfl
    | cons x r ih =>
      intro a
      simp only [List.map_cons, List.foldl_cons, gt_iff_lt, hg.lt_iff_lt]
      rw [← ih]
      congr 1
      split <;> rfl
  cases v with
  | nil => rfl
  | cons p v =>
    simp only [mapY, List.map_cons, DataContainer.pyMax, Except.map, List.map_map]
    rw [← aux, List.map_map]
    rfl

theorem pyMin_mapY {g : K → K} (hg : StrictMono g) (v : List (K × K)) :
    DataContainer.pyMin ((mapY g v).map Prod.snd) = (DataContainer.pyMin (v.map Prod.snd)).map g := by
  have aux : ∀ (r : List K) (a : K), (r.map g).foldl (fun m x => if x < m then x else m) (g a)
      = g (r.foldl (fun m x => if x < m then x else m) a) := by
    intro r
    induction r with
    | nil => intro a; rfl
    | cons x r ih =>
      intro a
      simp only [List.map_cons, List.foldl_cons, hg.lt_iff_lt]
      rw [← ih]
      congr 1
      split <;> rfl
  cases v with
  | nil => rfl
  | cons p v =>
    simp only [mapY, List.map_cons, DataContainer.pyMin, Except.map, List.map_map]
    rw [← aux, List.map_map]
    rfl

theorem maxLoop_mapY {g : K → K} (hg : StrictMono g) (b : Option (Key × K)) (d : Dict Key (List (K × K))) :
    DataContainer.maxLoop (b.map (fun km => (km.1, g km.2))) (d.mapVals (mapY g)) =
      (DataContainer.maxLoop b d).map (fun o => o.map (fun km => (km.1, g km.2))) := by
  induction d generalizing b with
  | nil => rfl
  | cons it d ih =>
    obtain ⟨k, v⟩ := it
    simp only [Dict.mapVals_cons, DataContainer.maxLoop, pyMax_mapY hg]
    cases hm : DataContainer.pyMax (v.map Prod.snd) with
    | error e => rfl
    | ok m =>
      simp only [Except.map, bind, Except.bind]
      cases b with
      | none => exact ih (some (k, m))
      | some km =>
        simp only [Option.map_some, gt_iff_lt, hg.lt_iff_lt]
        split
        · exact ih (some (k, m))
        · exact ih (some km)

theorem minLoop_mapY {g : K → K} (hg : StrictMono g) (b : Option (Key × K)) (d : Dict Key (List (K × K))) :
    DataContainer.minLoop (b.map (fun km => (km.1, g km.2))) (d.mapVals (mapY g)) =
      (DataContainer.minLoop b d).map (fun o => o.map (fun km => (km.1, g km.2))) := by
  induction d generalizing b with
  | nil => rfl
  | cons it d ih =>
    obtain ⟨k, v⟩ := it
    simp only [Dict.mapVals_cons, DataContainer.minLoop, pyMin_mapY hg]
    cases hm : DataContainer.pyMin (v.map Prod.snd) with
    | error e => rfl
    | ok m =>
      simp only [Except.map, bind, Except.bind]
      cases b with
      | none => exact ih (some (k, m))
      | some km =>
        simp only [Option.map_some, hg.lt_iff_lt]
        split
        · exact ih (some (k, m))
        · exact ih (some km)

theorem reachable_normalForm {c : DataContainer K} (h : c.Reachable) :
    Dict.WF c.data ∧ ∀ it ∈ c.data, NormalForm it.2 := by
  obtain ⟨iter, units, b, c₀, w, ops, hi, rfl⟩ := h
  obtain ⟨items, h1, _, h3, h4⟩ := C01_construction_normal_form hi
  rw [getItems_radians] at h1
  cases h1
  have hk := keeps_run c₀ ops
  refine ⟨?_, ?_⟩
  · unfold Dict.WF
    rw [hk.keys]; exact h3
  · intro it hit
    obtain ⟨it', hit', _, _, hh⟩ := forall₂_mem_right hk hit
    exact hh (h4 it'.1 it'.2 hit')

theorem reachable_ne_nil {c : DataContainer K} (h : c.Reachable) : ∀ it ∈ c.data, it.2 ≠ [] :=
  fun it hit => ((reachable_normalForm h).2 it hit).1

theorem reachable_step {c : DataContainer K} (h : c.Reachable) (op : DataContainer.Op K) :
    (DataContainer.step c op).1.Reachable := by
  obtain ⟨iter, units, b, c₀, w, ops, hi, rfl⟩ := h
  refine ⟨iter, units, b, c₀, w, ops ++ [op], hi, ?_⟩
  simp [DataContainer.run]

end Shgpy
