import Verif.Py.Arr
import Mathlib.Tactic.Linarith
import Mathlib.Data.List.Range

/-! Lemmas about Fourier arrays. -/

namespace Shgpy

theorem mem_freqs {M : ℕ} {m : ℤ} : m ∈ freqs M ↔ -(M : ℤ) ≤ m ∧ m ≤ M := by
  unfold freqs
  simp only [List.mem_map, List.mem_range]
  constructor
  · rintro ⟨i, hi, rfl⟩
    omega
  · rintro ⟨h1, h2⟩
    exact ⟨(m + M).toNat, by omega, by omega⟩

theorem length_freqs (M : ℕ) : (freqs M).length = 2 * M + 1 := by simp [freqs]

theorem freqs_nodup (M : ℕ) : (freqs M).Nodup := by
  unfold freqs
  refine List.Nodup.map ?_ List.nodup_range
  intro a b h
  simp only at h
  omega

theorem getElem?_freqs {M i : ℕ} (h : i < 2 * M + 1) : (freqs M)[i]? = some ((i : ℤ) - M) := by
  unfold freqs
  rw [List.getElem?_map, List.getElem?_range h]
  rfl

theorem pyGet_nonneg {α : Type} {l : List α} {i : ℤ} (h0 : 0 ≤ i) (h1 : i < l.length) :
    pyGet l i = .ok (l[i.toNat]'(by omega)) := by
  unfold pyGet
  rw [if_pos h0, List.getElem?_eq_getElem (by omega)]

/-- Component `m` of a Fourier array of the right length exists. -/
theorem pyGet_n2i_ok {α : Type} {l : List α} {M : ℕ} (hl : l.length = 2 * M + 1) {m : ℤ} (hm : m ∈ freqs M) :
    ∃ v, pyGet l (n2i m M) = .ok v ∧ l[(m + M).toNat]? = some v := by
  rw [mem_freqs] at hm
  have h1 : n2i m M < l.length := by unfold n2i; omega
  refine ⟨_, pyGet_nonneg (by unfold n2i; omega) h1, ?_⟩
  unfold n2i
  rw [List.getElem?_eq_getElem]

theorem pyGet_n2i_iff {α : Type} {l : List α} {M : ℕ} {m : ℤ} (hm : m ∈ freqs M) {v : α} :
    pyGet l (n2i m M) = .ok v ↔ l[(m + M).toNat]? = some v := by
  rw [mem_freqs] at hm
  unfold pyGet n2i
  rw [if_pos (by omega)]
  cases l[(m + M).toNat]? <;> simp

theorem pyGet_map {α β : Type} (f : α → β) (l : List α) (i : ℤ) :
    pyGet (l.map f) i = (pyGet l i).map f := by
  unfold pyGet
  simp only [List.length_map, List.getElem?_map]
  split
  · cases l[i.toNat]? <;> rfl
  · split
    · cases l[(i + l.length).toNat]? <;> rfl
    · rfl

theorem pyGet_freqs_map {α : Type} (g : ℤ → α) {M : ℕ} {m : ℤ} (hm : m ∈ freqs M) :
    pyGet ((freqs M).map g) (n2i m M) = .ok (g m) := by
  rw [pyGet_n2i_iff hm]
  rw [mem_freqs] at hm
  rw [List.getElem?_map, getElem?_freqs (by omega)]
  simp only [Option.map_some, Option.some.injEq]
  congr 1
  omega

/-- Two Fourier arrays of the right length with the same components are equal. -/
theorem ext_freqs {α : Type} {l l' : List α} {M : ℕ} (hl : l.length = 2 * M + 1) (hl' : l'.length = 2 * M + 1)
    (h : ∀ m ∈ freqs M, pyGet l (n2i m M) = pyGet l' (n2i m M)) : l = l' := by
  apply List.ext_getElem? 
  intro i
  by_cases hi : i < 2 * M + 1
  · have hm : (i : ℤ) - M ∈ freqs M := by rw [mem_freqs]; omega
    obtain ⟨v, h1, h2⟩ := pyGet_n2i_ok hl hm
    have h3 := h _ hm
    rw [h1] at h3
    have h4 := (pyGet_n2i_iff hm).1 h3.symm
    have : ((i : ℤ) - M + M).toNat = i := by omega
    rw [this] at h2 h4
    rw [h2, h4]
  · rw [List.getElem?_eq_none (by omega), List.getElem?_eq_none (by omega)]

theorem pySet_nonneg {α : Type} {l : List α} {i : ℤ} (h0 : 0 ≤ i) (h1 : i < l.length) (v : α) :
    pySet l i v = .ok (l.set i.toNat v) := by
  unfold pySet
  rw [if_pos h0, if_pos h1]

theorem fillLoop_ok {α : Type} {M : ℕ} {rhs : ℤ → Except Err α} {g : ℤ → α} :
    ∀ (n : ℕ) (l : List α), l.length = 2 * M + 1 → n ≤ 2 * M + 1 →
      (∀ m ∈ freqs M, rhs m = .ok (g m)) →
      (∀ i < 2 * M + 1 - n, l[i]? = some (g ((i : ℤ) - M))) →
      ((freqs M).drop (2 * M + 1 - n)).foldlM (fun ans m => do
        let v ← rhs m
        pySet ans (n2i m M) v) l = .ok ((freqs M).map g) := by
  intro n
  induction n with
  | zero =>
    intro l hl _ _ hpre
    rw [List.drop_eq_nil_of_le (by rw [length_freqs]; omega)]
    simp only [List.foldlM_nil, pure, Except.pure, Except.ok.injEq]
    apply List.ext_getElem?
    intro i
    by_cases hi : i < 2 * M + 1
    · rw [hpre i (by omega), List.getElem?_map, getElem?_freqs hi]
      rfl
    · rw [List.getElem?_eq_none (by omega), List.getElem?_eq_none (by rw [List.length_map, length_freqs]; omega)]
  | succ n ih =>
    intro l hl hn hr hpre
    have hi : 2 * M + 1 - (n + 1) < 2 * M + 1 := by omega
    obtain ⟨i, hidef⟩ : ∃ i, i = 2 * M + 1 - (n + 1) := ⟨_, rfl⟩
    have hmem : (i : ℤ) - M ∈ freqs M := by rw [mem_freqs]; omega
    have hdrop : (freqs M).drop i = ((i : ℤ) - M) :: (freqs M).drop (i + 1) := by
      have hlt : i < (freqs M).length := by rw [length_freqs]; omega
      rw [List.drop_eq_getElem_cons hlt]
      congr 1
      have := getElem?_freqs (M := M) (i := i) (by omega)
      rw [List.getElem?_eq_getElem hlt] at this
      exact Option.some.inj this
    rw [← hidef, hdrop, List.foldlM_cons]
    have hset : pySet l (n2i ((i : ℤ) - M) M) (g ((i : ℤ) - M)) = .ok (l.set i (g ((i : ℤ) - M))) := by
      rw [pySet_nonneg (by unfold n2i; omega) (by unfold n2i; omega)]
      congr 2
      unfold n2i
      omega
    simp only [hr _ hmem, bind, Except.bind, hset]
    have h2 : i + 1 = 2 * M + 1 - n := by omega
    rw [h2]
    apply ih
    · simpa using hl
    · omega
    · exact hr
    · intro j hj
      by_cases hji : j = i
      · subst hji
        rw [List.getElem?_set_self (by omega)]
      · rw [List.getElem?_set_ne (fun h => hji h.symm)]
        exact hpre j (by omega)

/-- A completed loop over the frequencies leaves `g(m)` at component `m`. -/
theorem fillFreqs_ok {α : Type} {M : ℕ} {zero : α} {rhs : ℤ → Except Err α} {g : ℤ → α}
    (h : ∀ m ∈ freqs M, rhs m = .ok (g m)) :
    fillFreqs M zero (2 * M + 1) rhs = .ok ((freqs M).map g) := by
  have := fillLoop_ok (rhs := rhs) (g := g) (2 * M + 1) (List.replicate (2 * M + 1) zero) (by simp) le_rfl h
    (by intro i hi; omega)
  simpa [fillFreqs] using this

end Shgpy
