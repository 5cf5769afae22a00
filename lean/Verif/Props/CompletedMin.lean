import Verif.Props.Completed
import Verif.Props.LinearDefault
import Verif.Props.Robust

/-!
# Two combinations measured at normal incidence, with `min_subtract`: C145
-/

namespace Shgpy
open Spec

variable {iter : List (RawKey × RawVal ℝ)} {units : Key} {c : DataContainer ℝ} {w : List Key} {N : ℕ}

/-- The values in the container are measured values. -/
theorem value_measured (h : DataContainer.init iter units true = .ok (c, w)) (hN : 1 ≤ N)
    (hin : ∀ k v dt xs ys, (k, v) ∈ Dict.ofPairs iter → IsXY v dt xs ys → (dt = .float ∨ units = sDegrees) ∧
      ∃ y, (xs.zip ys).map (fun p => (rad units p.1, p.2)) = sampled N y)
    {X : Key} {pts : List (ℝ × ℝ)} (hX : c.getPc X sRadians = .ok pts) {p : ℝ × ℝ} (hp : p ∈ pts) :
    ∃ k v dt xs ys, LastFor (Dict.ofPairs iter) k v ∧ IsXY v dt xs ys ∧ p.2 ∈ ys := by
  obtain ⟨hperm, _, _⟩ := C13_normal_to_oblique h (distinct_of_grid hN hin)
  have hXm : X ∈ [kPP, kPS, kSP, kSS] := by
    rw [← hperm.mem_iff]
    rw [getPc_radians, Dict.get_ok_iff] at hX
    exact List.mem_map_of_mem (f := Prod.fst) (Dict.mem_of_get? hX)
  have hval : ∀ {xs ys : List ℝ} {y : ℝ → ℝ} {s : ℝ × ℝ}, (xs.zip ys).map (fun p => (rad units p.1, p.2)) = sampled N y →
      s ∈ sampled N y → s.2 ∈ ys := by
    intro xs ys y s hy hs
    rw [← hy] at hs
    obtain ⟨t, ht, rfl⟩ := List.mem_map.1 hs
    exact (List.of_mem_zip (a := t.1) (b := t.2) ht).2
  by_cases hpc : X ∈ pcs (Dict.ofPairs iter)
  · obtain ⟨k, v, hl, rfl⟩ := exists_lastFor hpc
    have hmem : (RawKey.str k, v) ∈ Dict.ofPairs iter := by
      obtain ⟨pre, post, he, _⟩ := hl
      rw [he]; simp
    obtain ⟨_, dt, xs, ys, hv⟩ := ((C04_acceptance iter units true).1.1 ⟨c, w, h⟩).2.1 _ _ hmem
    obtain ⟨_, y, hy⟩ := hin _ v dt xs ys hmem hv
    rw [given_points h hN hin hl hv hy] at hX
    cases hX
    exact ⟨k, v, dt, xs, ys, hl, hv, hval hy hp⟩
  · obtain ⟨k, v, dt, xs, ys, y, hl, hv, _, hy, _, h9⟩ := completed_points h hN hin hXm hpc
    rw [h9] at hX
    cases hX
    rw [shiftPts, (sortPts_perm _).mem_iff] at hp
    obtain ⟨s, hs, rfl⟩ := List.mem_map.1 hp
    exact ⟨k, v, dt, xs, ys, hl, hv, hval (s := s) hy hs⟩

/-- The measured values are in the container. -/
theorem measured_value (h : DataContainer.init iter units true = .ok (c, w)) (hN : 1 ≤ N)
    (hin : ∀ k v dt xs ys, (k, v) ∈ Dict.ofPairs iter → IsXY v dt xs ys → (dt = .float ∨ units = sDegrees) ∧
      ∃ y, (xs.zip ys).map (fun p => (rad units p.1, p.2)) = sampled N y)
    {k : Key} {v : RawVal ℝ} {dt : DType} {xs ys : List ℝ} (hl : LastFor (Dict.ofPairs iter) k v) (hv : IsXY v dt xs ys) {a : ℝ}
    (ha : a ∈ ys) : ∃ pts, c.getPc (pcOf k) sRadians = .ok pts ∧ ∃ p ∈ pts, p.2 = a := by
  have hmem : (RawKey.str k, v) ∈ Dict.ofPairs iter := by
    obtain ⟨pre, post, he, _⟩ := hl
    rw [he]; simp
  obtain ⟨_, y, hy⟩ := hin _ v dt xs ys hmem hv
  refine ⟨_, given_points h hN hin hl hv hy, ?_⟩
  obtain ⟨_, _, hlen, _⟩ := hv
  rw [← hy]
  obtain ⟨j, hj, rfl⟩ := List.getElem_of_mem ha
  refine ⟨(rad units xs[j], ys[j]), List.mem_map.2 ⟨(xs[j], ys[j]), ?_, rfl⟩, rfl⟩
  rw [← List.getElem_zip (h := by simp; omega)]
  exact List.getElem_mem _

/-- **C145 with `subtract_min`.**  Under the hypotheses of `C145_crystal` the least value `μ` of the container is the least measured value, and
after `subtract_min` the Fourier components are those of the intensities lowered by `μ`, with the same error. -/
theorem C145_min (h : DataContainer.init iter units true = .ok (c, w)) {M : ℕ} (hM : 8 ≤ M) (hN : 2 * M < N) (Y : Crystal) {δ : ℝ}
    (hin : ∀ k v dt xs ys, (k, v) ∈ Dict.ofPairs iter → IsXY v dt xs ys → (dt = .float ∨ units = sDegrees) ∧
      ∃ y, (xs.zip ys).map (fun p => (rad units p.1, p.2)) = sampled N y)
    (hm : ∀ k v dt xs ys p q, LastFor (Dict.ofPairs iter) k v → IsXY v dt xs ys → pcOf k = combo p q →
      ∀ s ∈ xs.zip ys, |s.2 - intensity Y 0 (rad units s.1) p q| ≤ δ) :
    ∃ μ c' fdat, IsLeast {a | ∃ k v dt xs ys, LastFor (Dict.ofPairs iter) k v ∧ IsXY v dt xs ys ∧ a ∈ ys} μ ∧
      c.subtractMin = .ok c' ∧ datToFdat cubicInterp c' M = .ok fdat ∧ fdat.getM = M ∧ fdat.getKeys.Perm [kPP, kPS, kSP, kSS] ∧
      ∀ p q, ∃ z : ℤ → ℂ, (∀ m : ℤ, -(M : ℤ) ≤ m → m ≤ M → DRepresents fdat (combo p q) m (z m)) ∧
        √(∑ m ∈ Finset.Icc (-(M : ℤ)) M, ‖z m - integralCoeff (fun x => ((intensity Y 0 x p q - μ : ℝ) : ℂ)) m‖ ^ 2) ≤
          14 * fourth M (integralCoeff (fun x => (intensity Y 0 x p q : ℂ))) * (2 * Real.pi / N) ^ 4 + 75 * δ := by
  have hN1 : 1 ≤ N := by omega
  have hd : c.Reachable := ⟨iter, units, true, c, w, [], h, rfl⟩
  have hwf := (reachable_normalForm hd).1
  have hget : ∀ {k pts}, (k, pts) ∈ c.data → c.getPc k sRadians = .ok pts := by
    intro k pts hk
    rw [getPc_radians]
    exact get_of_mem hwf hk
  obtain ⟨f₀, h1, h2, h3, h4⟩ := C145_crystal h hM hN Y hin hm
  obtain ⟨hperm, _, _⟩ := C13_normal_to_oblique h (distinct_of_grid hN1 hin)
  obtain ⟨items, hi, hcase⟩ := C09_minval hd
  rw [getItems_radians] at hi
  cases hi
  rcases hcase with ⟨he, _⟩ | ⟨k₀, μ, hmin, pre, pts, post, he, ⟨p₀, hp₀, rfl⟩, ha, hb, hc⟩
  · exfalso
    have : c.getKeys = [] := by unfold DataContainer.getKeys; rw [he]; rfl
    rw [this] at hperm
    exact absurd hperm.length_eq (by simp)
  have hle : ∀ k qs, (k, qs) ∈ c.data → ∀ p ∈ qs, p₀.2 ≤ p.2 := by
    intro k qs hk p hp
    rw [he, List.mem_append, List.mem_cons] at hk
    rcases hk with hk | hk | hk
    · exact le_of_lt (hb _ hk p hp)
    · cases hk
      exact not_lt.1 (ha p hp)
    · exact not_lt.1 (hc _ hk p hp)
  obtain ⟨fdat, h5, h6, h7, h8⟩ := C97_subtract_min_default hd h1 hmin
  have hsub : ∃ c', c.subtractMin = .ok c' := by
    unfold DataContainer.subtractMin
    rw [hmin]
    exact ⟨_, rfl⟩
  obtain ⟨c', hc'⟩ := hsub
  have hst : (DataContainer.step c .subtractMin).1 = c' := by rw [step_subtractMin, hc']
  rw [hst] at h5
  refine ⟨p₀.2, c', fdat, ⟨?_, ?_⟩, hc', h5, by rw [h7, h2], by rw [h6]; exact h3, fun p q => ?_⟩
  · exact value_measured h hN1 hin (hget (k := k₀) (pts := pts) (by rw [he]; simp)) hp₀
  · rintro a ⟨k, v, dt, xs, ys, hl, hv, hay⟩
    obtain ⟨qs, hq, s, hs, rfl⟩ := measured_value h hN1 hin hl hv hay
    rw [getPc_radians, Dict.get_ok_iff] at hq
    exact hle _ qs (Dict.mem_of_get? hq) s hs
  · obtain ⟨z, hz, herr⟩ := h4 p q
    refine ⟨fun m => if m = 0 then z m - (p₀.2 : ℂ) else z m, fun m hm1 hm2 => ?_, ?_⟩
    · obtain ⟨qs, hq⟩ : ∃ qs, c.getPc (combo p q) sRadians = .ok qs := by
        obtain ⟨qs, hq⟩ := Dict.mem_keys.1 (show combo p q ∈ c.getKeys from hperm.mem_iff.2 (combo_four p q))
        exact ⟨qs, hget hq⟩
      have hlen := (crystal_points h hM hN Y hin hm hq).1
      exact (h8 (combo p q) m (z m) (hz m hm1 hm2) qs hq).1 (by omega)
    · refine le_of_eq_of_le ?_ herr
      congr 1
      refine Finset.sum_congr rfl (fun m _ => ?_)
      have hcont : Continuous (fun x => (intensity Y 0 x p q : ℂ)) := by
        simpa only [add_zero] using continuous_intensity Y 0 0 p q
      have e : integralCoeff (fun x => ((intensity Y 0 x p q - p₀.2 : ℝ) : ℂ)) m =
          integralCoeff (fun x => (intensity Y 0 x p q : ℂ)) m + if m = 0 then -(p₀.2 : ℂ) else 0 := by
        rw [← integralCoeff_const, ← integralCoeff_add _ _ hcont continuous_const]
        congr 1
        funext x
        push_cast
        ring
      rw [e]
      by_cases h0 : m = 0
      · simp only [if_pos h0]
        congr 2
        ring
      · simp only [if_neg h0, add_zero]

/-- **C145 from files with `min_subtract=True`.**  What is subtracted is a value of the files, the least one if no two files are for the
same combination (of these only the last is used), and the Fourier components of all four combinations are those of the intensities lowered by it, with the error of `C145_files`. -/
theorem C145_files_min {float : Key → Option ℝ} {fs : CsvFiles} {names : Dict Key Key} {y : Key → ℝ → ℝ}
    (hu : units = sRadians ∨ units = sDegrees) (hwf : Dict.WF names) (ho : ObliqueKeys (names.keys.map pcOf))
    (hS : FilesSample float fs names units N y) {M : ℕ} (hM : 8 ≤ M) (hN : 2 * M < N) (Y : Crystal) {δ : ℝ}
    (hm : ∀ k ∈ names.keys, ∀ p q, pcOf k = combo p q → ∀ j < N, |y k (gridAngle N j) - intensity Y 0 (gridAngle N j) p q| ≤ δ) :
    ∃ μ dat fdat, loadDataAndFourierTransform float fs cubicInterp names units none M true 1 true = .ok (dat, fdat) ∧ fdat.getM = M ∧
      fdat.getKeys.Perm [kPP, kPS, kSP, kSS] ∧ (∃ k ∈ names.keys, ∃ j < N, μ = y k (gridAngle N j)) ∧
      ((names.keys.map pcOf).Nodup → ∀ k ∈ names.keys, ∀ j < N, μ ≤ y k (gridAngle N j)) ∧
      ∀ p q, ∃ z : ℤ → ℂ, (∀ m : ℤ, -(M : ℤ) ≤ m → m ≤ M → DRepresents fdat (combo p q) m (z m)) ∧
        √(∑ m ∈ Finset.Icc (-(M : ℤ)) M, ‖z m - integralCoeff (fun x => ((intensity Y 0 x p q - μ : ℝ) : ℂ)) m‖ ^ 2) ≤
          14 * fourth M (integralCoeff (fun x => (intensity Y 0 x p q : ℂ))) * (2 * Real.pi / N) ^ 4 + 75 * δ := by
  obtain ⟨iter, c, w, h, hl, hin, hp, hall, _⟩ := files_container hu hwf ho hS (by omega)
  obtain ⟨μ, c', fdat, h1, h2, h3, h4, h5, h6⟩ := C145_min h hM hN Y hin (δ := δ) (by
    intro k v dt xs ys p q hk hv hpq s hs
    obtain ⟨g1, g2⟩ := hp k v dt xs ys hk hv
    obtain ⟨j, hj, g3, g4⟩ := g2 s hs
    rw [g3, g4]
    exact hm k g1 p q hpq j hj)
  refine ⟨μ, c', fdat, (C35_composition _ _ _ _ _ _ _ _ _ _ _).2 ⟨c, hl, by simpa using h2, h3⟩, h4, h5, ?_, ?_, h6⟩
  rotate_left
  · intro hnd k hk j hj
    obtain ⟨v, dt, xs, ys, g1, g2, g3⟩ := hall hnd k hk
    exact h1.2 ⟨k, v, dt, xs, ys, g1, g2, g3 j hj⟩
  obtain ⟨k, v, dt, xs, ys, hk, hv, ha⟩ := h1.1
  obtain ⟨g1, g2⟩ := hp k v dt xs ys hk hv
  obtain ⟨_, _, hlen, _⟩ := hv
  obtain ⟨i, hi, rfl⟩ := List.getElem_of_mem ha
  obtain ⟨j, hj, _, g4⟩ := g2 (xs[i], ys[i]) (by
    rw [← List.getElem_zip (h := by simp; omega)]
    exact List.getElem_mem _)
  exact ⟨k, g1, j, hj, g4⟩

open FitCases in
/-- The hypotheses are met: two files that hold the value `1 / 4` at 36 angles; after `min_subtract` nothing is left. -/
example : ∃ μ dat fdat, loadDataAndFourierTransform unaryFloat unaryCsv cubicInterp [(['p', 'p'], ['f']), (['s', 'p', '1'], ['g'])] sDegrees none
      16 true 1 true = .ok (dat, fdat) ∧ fdat.getKeys.Perm [kPP, kPS, kSP, kSS] ∧ μ = (1 / 4 : ℝ) := by
  obtain ⟨μ, dat, fdat, h1, _, h2, ⟨k, _, j, _, h3⟩, _, _⟩ := C145_files_min (float := unaryFloat) (fs := unaryCsv) (units := sDegrees) (N := 36)
    (names := [(['p', 'p'], ['f']), (['s', 'p', '1'], ['g'])]) (.inr rfl) (by unfold Dict.WF; decide)
    (.inr ⟨kPP, kSP, .inl rfl, .inr rfl, fun x => by
      have : (Dict.keys [((['p', 'p'] : Key), (['f'] : Key)), (['s', 'p', '1'], ['g'])]).map pcOf = [kPP, kSP] := by decide
      rw [this]; simp⟩)
    (unary_samples_all _) (M := 16) (by omega) (by omega) SixFold.axial (δ := 1)
    (fun k _ p q _ j _ => by
      obtain ⟨h3, h4⟩ := SixFold.axial_le p q (gridAngle 36 j)
      rw [abs_le]
      constructor <;> linarith)
  exact ⟨μ, dat, fdat, h1, h2, by rw [h3]⟩

end Shgpy
