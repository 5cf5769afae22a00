import Verif.Proofs.Completed
import Verif.Props.Load

/-!
# Fourier data of combinations that `normal_to_oblique` fills in: C145
-/

set_option linter.unusedSectionVars false

namespace Shgpy
open Spec

section
variable {iter : List (RawKey × RawVal ℝ)} {units : Key} {c : DataContainer ℝ} {w : List Key} {N : ℕ}

/-- All combinations of the container, measured or filled in, have equally spaced points. -/
theorem completed_grid (h : DataContainer.init iter units true = .ok (c, w)) {q : ℕ} (hq : 1 ≤ q) (hN : N = 4 * q)
    (hin : ∀ k v dt xs ys, (k, v) ∈ Dict.ofPairs iter → IsXY v dt xs ys → (dt = .float ∨ units = sDegrees) ∧
      ∃ y, (xs.zip ys).map (fun p => (rad units p.1, p.2)) = sampled N y) :
    ∀ k pts, c.getPc k sRadians = .ok pts → ∃ y, pts = sampled N y := by
  have hN1 : 1 ≤ N := by omega
  obtain ⟨hperm, _, _⟩ := C13_normal_to_oblique h (distinct_of_grid hN1 hin)
  have hturn : (Real.pi / 2 : ℝ) = 2 * Real.pi * ((q : ℤ) : ℝ) / N := by
    have : (q : ℝ) ≠ 0 := by exact_mod_cast (by omega : q ≠ 0)
    rw [hN]
    push_cast
    field_simp
    ring
  intro X pts hX
  have hXm : X ∈ [kPP, kPS, kSP, kSS] := by
    rw [← hperm.mem_iff]
    rw [getPc_radians, Dict.get_ok_iff] at hX
    exact List.mem_map_of_mem (f := Prod.fst) (Dict.mem_of_get? hX)
  by_cases hp : X ∈ pcs (Dict.ofPairs iter)
  · obtain ⟨k, v, hl, rfl⟩ := exists_lastFor hp
    have hmem : (RawKey.str k, v) ∈ Dict.ofPairs iter := by
      obtain ⟨pre, post, he, _⟩ := hl
      rw [he]; simp
    obtain ⟨_, dt, xs, ys, hv⟩ := ((C04_acceptance iter units true).1.1 ⟨c, w, h⟩).2.1 _ _ hmem
    obtain ⟨_, y, hy⟩ := hin _ v dt xs ys hmem hv
    rw [given_points h hN1 hin hl hv hy] at hX
    cases hX
    exact ⟨y, rfl⟩
  · obtain ⟨k, v, dt, xs, ys, y, _, _, _, _, _, h9⟩ := completed_points h hN1 hin hXm hp
    rw [h9] at hX
    cases hX
    rw [hturn, shiftPts_sampled hN1]
    exact ⟨_, rfl⟩

/-- **C145, exact components.**  Let the given combinations be measured at `N = 4q` equally spaced angles.  Then `dat_to_fdat` of the
container that `normal_to_oblique` makes succeeds with the default interpolation; the components of a given combination are those of the
discrete Fourier transform of the given values, and component `m` of a combination that was not given is that of its partner times
`(-i)^m`. -/
theorem C145_quarter (h : DataContainer.init iter units true = .ok (c, w)) {q : ℕ} (hq : 1 ≤ q) (hN : N = 4 * q) (M : ℕ)
    (hin : ∀ k v dt xs ys, (k, v) ∈ Dict.ofPairs iter → IsXY v dt xs ys → (dt = .float ∨ units = sDegrees) ∧
      ∃ y, (xs.zip ys).map (fun p => (rad units p.1, p.2)) = sampled N y) :
    ∃ fdat, datToFdat cubicInterp c M = .ok fdat ∧ fdat.getM = M ∧ fdat.getKeys.Perm [kPP, kPS, kSP, kSS] ∧
      (∀ k v dt xs ys y, LastFor (Dict.ofPairs iter) k v → IsXY v dt xs ys →
        (xs.zip ys).map (fun p => (rad units p.1, p.2)) = sampled N y →
        ∀ m : ℤ, -(M : ℤ) ≤ m → m ≤ M → DRepresents fdat (pcOf k) m (dft N y m)) ∧
      (∀ X ∈ [kPP, kPS, kSP, kSS], X ∉ pcs (Dict.ofPairs iter) → partner X ∈ pcs (Dict.ofPairs iter) ∧
        ∀ m z, DRepresents fdat (partner X) m z → DRepresents fdat X m (z * (-Complex.I) ^ m)) := by
  have hN1 : 1 ≤ N := by omega
  have hd : c.Reachable := ⟨iter, units, true, c, w, [], h, rfl⟩
  obtain ⟨hperm, _, h3⟩ := C13_normal_to_oblique h (distinct_of_grid hN1 hin)
  have hturn : (Real.pi / 2 : ℝ) = 2 * Real.pi * ((q : ℤ) : ℝ) / N := by
    have : (q : ℝ) ≠ 0 := by exact_mod_cast (by omega : q ≠ 0)
    rw [hN]
    push_cast
    field_simp
    ring
  have hgrid := completed_grid h hq hN hin
  obtain ⟨fdat, h4, _, h5, h6, h7⟩ := C137_grid hd (by omega : 4 ≤ N) M hgrid
  refine ⟨fdat, h4, h6, by rw [h5]; exact hperm, ?_, ?_⟩
  · intro k v dt xs ys y hl hv hy m hm1 hm2
    obtain ⟨f, h8, _, h9⟩ := h7 _ y (given_points h hN1 hin hl hv hy)
    exact ⟨f, h8, by rw [h6]; exact h9 m ⟨hm1, hm2⟩⟩
  · intro X hX hn
    refine ⟨(h3 X hX hn).1, ?_⟩
    rintro m z ⟨f, hf, hz⟩
    obtain ⟨k, v, dt, xs, ys, y, _, _, _, _, h10, h11⟩ := completed_points h hN1 hin hX hn
    rw [hturn, shiftPts_sampled hN1] at h11
    obtain ⟨f₁, h12, _, h13⟩ := h7 _ _ h10
    obtain ⟨f₂, h14, _, h15⟩ := h7 _ _ h11
    rw [hf] at h12
    cases h12
    rw [h6] at hz
    have e : z = dft N y m := Option.some.inj (hz.2.symm.trans (h13 m hz.1).2)
    refine ⟨f₂, h14, ?_⟩
    rw [h6, e, ← harmonic_quarter, hturn, ← dft_shift hN1]
    exact h15 m hz.1

/-- At normal incidence a quarter turn exchanges the polarizations. -/
theorem intensity_partner (Y : Crystal) (φ : ℝ) (p q : Pol) :
    intensity Y 0 φ p q = intensity Y 0 (φ + Real.pi / 2) (if p = .P then .S else .P) (if q = .P then .S else .P) := by
  obtain ⟨f1, f2⟩ := normal_fields Y φ
  have z1 := normal_z Y φ .P
  have z2 := normal_z Y φ .S
  cases p <;> cases q <;> simp only [intensity, outIntensity, f1, f2, z1, z2, if_true, if_false, reduceCtorEq] <;> simp

theorem partner_combo (p q : Pol) : partner (combo p q) = combo (if p = .P then .S else .P) (if q = .P then .S else .P) := by
  cases p <;> cases q <;> decide

theorem combo_four (p q : Pol) : combo p q ∈ [kPP, kPS, kSP, kSS] := by
  cases p <;> cases q <;> decide

theorem four_combo {X : Key} (h : X ∈ [kPP, kPS, kSP, kSS]) : ∃ p q, X = combo p q := by
  simp only [List.mem_cons, List.not_mem_nil, or_false] at h
  rcases h with rfl | rfl | rfl | rfl
  · exact ⟨.P, .P, rfl⟩
  · exact ⟨.P, .S, rfl⟩
  · exact ⟨.S, .P, rfl⟩
  · exact ⟨.S, .S, rfl⟩

theorem combo_inj {p q p' q' : Pol} (h : combo p q = combo p' q') : p = p' ∧ q = q' := by
  revert h
  cases p <;> cases q <;> cases p' <;> cases q' <;> decide

/-- The points of each combination, measured or filled in, lie on the intensities of the crystal. -/
theorem crystal_points (h : DataContainer.init iter units true = .ok (c, w)) {M : ℕ} (hM : 8 ≤ M) (hN : 2 * M < N) (Y : Crystal) {δ : ℝ}
    (hin : ∀ k v dt xs ys, (k, v) ∈ Dict.ofPairs iter → IsXY v dt xs ys → (dt = .float ∨ units = sDegrees) ∧
      ∃ y, (xs.zip ys).map (fun p => (rad units p.1, p.2)) = sampled N y)
    (hm : ∀ k v dt xs ys p q, LastFor (Dict.ofPairs iter) k v → IsXY v dt xs ys → pcOf k = combo p q →
      ∀ s ∈ xs.zip ys, |s.2 - intensity Y 0 (rad units s.1) p q| ≤ δ) {p q : Pol} {pts : List (ℝ × ℝ)}
    (hX : c.getPc (combo p q) sRadians = .ok pts) :
    2 * M < pts.length ∧ 4 ≤ pts.length ∧ (∀ x, (pattern M (integralCoeff (fun x => (intensity Y 0 x p q : ℂ))) x).im = 0) ∧
      Covers (2 * Real.pi / N) pts ∧ Spread (2 * Real.pi / N) 1 pts ∧
      MeasuredOn M (integralCoeff (fun x => (intensity Y 0 x p q : ℂ))) δ pts := by
  have hN1 : 1 ≤ N := by omega
  have hXm := combo_four p q
  have hpat : ∀ p q x, pattern M (integralCoeff (fun x => (intensity Y 0 x p q : ℂ))) x = (intensity Y 0 x p q : ℂ) :=
    fun p q x => pattern_coeff hM (intensity_degree Y 0 p q) x
  have hper : ∀ p q x (n : ℤ), intensity Y 0 (x + n * (2 * Real.pi)) p q = intensity Y 0 x p q := by
    intro p q x n
    have := pattern_periodic M (integralCoeff (fun x => (intensity Y 0 x p q : ℂ))) x n
    rw [hpat, hpat] at this
    exact_mod_cast this
  have hgiven : ∀ k v dt xs ys y p q, LastFor (Dict.ofPairs iter) k v → IsXY v dt xs ys →
      (xs.zip ys).map (fun p => (rad units p.1, p.2)) = sampled N y → pcOf k = combo p q →
      ∀ s ∈ sampled N y, |s.2 - intensity Y 0 s.1 p q| ≤ δ := by
    intro k v dt xs ys y p q hl hv hy hk s hs
    rw [← hy] at hs
    obtain ⟨t, ht, rfl⟩ := List.mem_map.1 hs
    exact hm k v dt xs ys p q hl hv hk t ht
  have hz : ∀ y : ℝ → ℝ, shiftPts 0 (sampled N y) = sampled N y := fun y => shiftPts_zero (sampled_normalForm hN1 y)
  have hlen : ∀ b y, (shiftPts b (sampled N y)).length = N := fun b y => by simp [shiftPts, sampled]
  have hreal : ∀ x, (pattern M (integralCoeff (fun x => (intensity Y 0 x p q : ℂ))) x).im = 0 := fun x => by
    rw [hpat, Complex.ofReal_im]
  have hnorm : ∀ s : ℝ × ℝ, ‖(s.2 : ℂ) - pattern M (integralCoeff (fun x => (intensity Y 0 x p q : ℂ))) s.1‖ =
      |s.2 - intensity Y 0 s.1 p q| := by
    intro s
    rw [hpat, ← Complex.ofReal_sub, Complex.norm_real, Real.norm_eq_abs]
  by_cases hp : combo p q ∈ pcs (Dict.ofPairs iter)
  · obtain ⟨k, v, hl, hk⟩ := exists_lastFor hp
    have hmem : (RawKey.str k, v) ∈ Dict.ofPairs iter := by
      obtain ⟨pre, post, he, _⟩ := hl
      rw [he]; simp
    obtain ⟨_, dt, xs, ys, hv⟩ := ((C04_acceptance iter units true).1.1 ⟨c, w, h⟩).2.1 _ _ hmem
    obtain ⟨_, y, hy⟩ := hin _ v dt xs ys hmem hv
    have h8 := given_points h hN1 hin hl hv hy
    rw [hk, hX] at h8
    cases h8
    refine ⟨by rw [← hz y, hlen]; exact hN, by rw [← hz y, hlen]; omega, hreal, by rw [← hz y]; exact turned_covers (by omega) y 0,
      by rw [← hz y]; exact turned_spread (by omega) y 0, fun s hs => ?_⟩
    rw [hnorm]
    exact hgiven k v dt xs ys y p q hl hv hy hk s hs
  · obtain ⟨k, v, dt, xs, ys, y, hl, hv, hk, hy, _, h9⟩ := completed_points h hN1 hin hXm hp
    rw [hX] at h9
    cases h9
    refine ⟨by rw [hlen]; exact hN, by rw [hlen]; omega, hreal, turned_covers (by omega) y _, turned_spread (by omega) y _, fun s hs => ?_⟩
    rw [hnorm]
    unfold shiftPts at hs
    obtain ⟨t, ht, rfl⟩ := List.mem_map.1 (mem_sortPts.1 hs)
    have h10 := hgiven k v dt xs ys y _ _ hl hv hy (hk.trans (partner_combo p q)) t ht
    obtain ⟨n, hn⟩ : AngleEq (pmod (t.1 + Real.pi / 2)) (t.1 + Real.pi / 2) := pmod_angleEq _
    have hn' : pmod (t.1 + Real.pi / 2) = t.1 + Real.pi / 2 + n * (2 * Real.pi) := hn
    dsimp only
    rw [hn', hper]
    have h11 := intensity_partner Y t.1 (if p = .P then .S else .P) (if q = .P then .S else .P)
    have e1 : ∀ p : Pol, (if (if p = .P then Pol.S else .P) = .P then Pol.S else .P) = p := by intro p; cases p <;> rfl
    rw [e1, e1] at h11
    rw [← h11]
    exact h10

/-- **C145, crystals at normal incidence.**  Measure some of the combinations of a crystal at normal incidence, at `N` equally spaced angles
and with an error of at most `δ` in each value, and load them with `normal_to_oblique`.  If `M ≥ 8` and `N > 2M`, then `dat_to_fdat` succeeds
with the default interpolation, and the components of all four combinations, given or not, are those of the intensities of the crystal,
with an error of at most `14 (2π/N)⁴ Σ m⁴ |c_m| + 75 δ`. -/
theorem C145_crystal (h : DataContainer.init iter units true = .ok (c, w)) {M : ℕ} (hM : 8 ≤ M) (hN : 2 * M < N) (Y : Crystal) {δ : ℝ}
    (hin : ∀ k v dt xs ys, (k, v) ∈ Dict.ofPairs iter → IsXY v dt xs ys → (dt = .float ∨ units = sDegrees) ∧
      ∃ y, (xs.zip ys).map (fun p => (rad units p.1, p.2)) = sampled N y)
    (hm : ∀ k v dt xs ys p q, LastFor (Dict.ofPairs iter) k v → IsXY v dt xs ys → pcOf k = combo p q →
      ∀ s ∈ xs.zip ys, |s.2 - intensity Y 0 (rad units s.1) p q| ≤ δ) :
    ∃ fdat, datToFdat cubicInterp c M = .ok fdat ∧ fdat.getM = M ∧ fdat.getKeys.Perm [kPP, kPS, kSP, kSS] ∧
      ∀ p q, ∃ z : ℤ → ℂ, (∀ m : ℤ, -(M : ℤ) ≤ m → m ≤ M → DRepresents fdat (combo p q) m (z m)) ∧
        √(∑ m ∈ Finset.Icc (-(M : ℤ)) M, ‖z m - integralCoeff (fun x => (intensity Y 0 x p q : ℂ)) m‖ ^ 2) ≤
          14 * fourth M (integralCoeff (fun x => (intensity Y 0 x p q : ℂ))) * (2 * Real.pi / N) ^ 4 + 75 * δ := by
  have hN1 : 1 ≤ N := by omega
  have hd : c.Reachable := ⟨iter, units, true, c, w, [], h, rfl⟩
  obtain ⟨hperm, _, _⟩ := C13_normal_to_oblique h (distinct_of_grid hN1 hin)
  -- the pattern of a combination, by its name
  let a : Key → ℤ → ℂ := fun X =>
    if X = kPP then integralCoeff (fun x => (intensity Y 0 x .P .P : ℂ)) else
    if X = kPS then integralCoeff (fun x => (intensity Y 0 x .P .S : ℂ)) else
    if X = kSP then integralCoeff (fun x => (intensity Y 0 x .S .P : ℂ)) else integralCoeff (fun x => (intensity Y 0 x .S .S : ℂ))
  have ha : ∀ p q, a (combo p q) = integralCoeff (fun x => (intensity Y 0 x p q : ℂ)) := by
    intro p q
    cases p <;> cases q <;> rfl
  have key := C137_fourier hd (M := M) (c := a) (h := fun _ => 2 * Real.pi / N) (ρ := fun _ => 1) (δ := fun _ => δ) (fun X pts hX => ?_)
  · obtain ⟨fdat, h1, h2, h3, h4⟩ := key
    refine ⟨fdat, h1, h3, by rw [h2]; exact hperm, fun p q => ?_⟩
    obtain ⟨z, h5, h6⟩ := h4 (combo p q) (hperm.mem_iff.2 (combo_four p q))
    rw [ha] at h6
    exact ⟨z, h5, by simpa only [mul_one, one_pow] using h6⟩
  · have hXm : X ∈ [kPP, kPS, kSP, kSS] := by
      rw [← hperm.mem_iff]
      rw [getPc_radians, Dict.get_ok_iff] at hX
      exact List.mem_map_of_mem (f := Prod.fst) (Dict.mem_of_get? hX)
    obtain ⟨p, q, rfl⟩ := four_combo hXm
    rw [ha]
    exact crystal_points h hM hN Y hin hm hX

/-- The discrete Fourier transform finds the components of a pattern with fewer than `N / 2` frequencies. -/
theorem dft_of_pattern {M N : ℕ} (hN : 2 * M < N) {f : ℝ → ℝ} {a : ℤ → ℂ} (hf : ∀ j < N, (f (gridAngle N j) : ℂ) = pattern M a (gridAngle N j))
    {m : ℤ} (h1 : -(M : ℤ) ≤ m) (h2 : m ≤ M) : dft N f m = a m := by
  have hN0 : N ≠ 0 := by omega
  have hNc : (N : ℂ) ≠ 0 := by exact_mod_cast hN0
  rw [dft_eq]
  have e : ∑ j ∈ Finset.range N, (f (gridAngle N j) : ℂ) * harmonic (-m) (gridAngle N j) =
      ∑ n ∈ Finset.Icc (-(M : ℤ)) M, a n * ∑ j ∈ Finset.range N, harmonic (n - m) (gridAngle N j) := by
    simp only [Finset.mul_sum]
    rw [Finset.sum_comm]
    refine Finset.sum_congr rfl (fun j hj => ?_)
    rw [hf j (Finset.mem_range.1 hj)]
    unfold pattern
    rw [Finset.sum_mul]
    refine Finset.sum_congr rfl (fun n _ => ?_)
    rw [mul_assoc]
    congr 1
    unfold harmonic
    rw [← Complex.exp_add]
    congr 1
    push_cast
    ring
  rw [e, Finset.sum_eq_single m]
  · rw [sum_harmonic _ hN0]
    simp only [sub_self, dvd_zero, if_true]
    field_simp
  · intro n hn hne
    rw [Finset.mem_Icc] at hn
    rw [sum_harmonic _ hN0, if_neg, mul_zero]
    rintro ⟨t, ht⟩
    have : t = 0 := by
      by_contra h0
      rcases lt_or_gt_of_ne h0 with h | h
      · have : (N : ℤ) * t ≤ -N := by nlinarith
        omega
      · have : (N : ℤ) ≤ N * t := by nlinarith
        omega
    subst this
    omega
  · intro hm
    exact absurd (Finset.mem_Icc.2 ⟨h1, h2⟩) hm

/-- **C145, exact values.**  Without errors of the values, and when `N` is a multiple of four, the components of all four combinations are
exactly those of the intensities of the crystal. -/
theorem C145_exact (h : DataContainer.init iter units true = .ok (c, w)) {M : ℕ} (hM : 8 ≤ M) (hN : 2 * M < N) (h4 : 4 ∣ N) (Y : Crystal)
    (hin : ∀ k v dt xs ys, (k, v) ∈ Dict.ofPairs iter → IsXY v dt xs ys → (dt = .float ∨ units = sDegrees) ∧
      ∃ y, (xs.zip ys).map (fun p => (rad units p.1, p.2)) = sampled N y)
    (hm : ∀ k v dt xs ys p q, LastFor (Dict.ofPairs iter) k v → IsXY v dt xs ys → pcOf k = combo p q →
      ∀ s ∈ xs.zip ys, s.2 = intensity Y 0 (rad units s.1) p q) :
    ∃ fdat, datToFdat cubicInterp c M = .ok fdat ∧ fdat.getM = M ∧ fdat.getKeys.Perm [kPP, kPS, kSP, kSS] ∧
      ∀ p q (m : ℤ), -(M : ℤ) ≤ m → m ≤ M → DRepresents fdat (combo p q) m (integralCoeff (fun x => (intensity Y 0 x p q : ℂ)) m) := by
  obtain ⟨n, hn⟩ := h4
  have hN1 : 1 ≤ N := by omega
  have hd : c.Reachable := ⟨iter, units, true, c, w, [], h, rfl⟩
  obtain ⟨hperm, _, _⟩ := C13_normal_to_oblique h (distinct_of_grid hN1 hin)
  have hgrid := completed_grid h (by omega : 1 ≤ n) hn hin
  obtain ⟨fdat, h4, _, h5, h6, h7⟩ := C137_grid hd (by omega : 4 ≤ N) M hgrid
  refine ⟨fdat, h4, h6, by rw [h5]; exact hperm, fun p q m hm1 hm2 => ?_⟩
  obtain ⟨pts, hX⟩ : ∃ pts, c.getPc (combo p q) sRadians = .ok pts := by
    have : combo p q ∈ c.data.keys := hperm.mem_iff.2 (combo_four p q)
    obtain ⟨pts, hp⟩ := Dict.mem_keys.1 this
    exact ⟨pts, by rw [getPc_radians]; exact get_of_mem (reachable_normalForm hd).1 hp⟩
  obtain ⟨y, rfl⟩ := hgrid _ _ hX
  obtain ⟨_, _, _, _, _, h8⟩ := crystal_points h hM hN Y (δ := 0) hin
    (fun k v dt xs ys p q hl hv hk s hs => by rw [hm k v dt xs ys p q hl hv hk s hs, sub_self, abs_zero]) hX
  obtain ⟨f, h9, _, h10⟩ := h7 _ y hX
  refine ⟨f, h9, ?_⟩
  rw [h6, ← dft_of_pattern hN (f := y) (a := integralCoeff (fun x => (intensity Y 0 x p q : ℂ))) (fun j hj => ?_) hm1 hm2]
  · exact h10 m ⟨hm1, hm2⟩
  · have := h8 (gridAngle N j, y (gridAngle N j)) (List.mem_map.2 ⟨j, List.mem_range.2 hj, rfl⟩)
    exact sub_eq_zero.1 (norm_le_zero_iff.1 this)

/-- **C145, fits.**  Fit a formula to such data, where the formula describes the crystal for the parameters `r₀`.  Then the patterns of all
parameters `r` that the cost function does not find worse than `r₀` differ from the intensities of the crystal, in all combinations of the
formula, nowhere by more than `2√(2M+1)` times the root of the sum, over the combinations, of the squares of
`14 (2π/N)⁴ Σ m⁴ |c_m| + 75 δ`. -/
theorem C145_fit (S : Sympy) (C : Compiler) {fform : FFormContainer} {F : Key → ℤ → Valuation → ℂ} {fdat : FDataContainer} {l : List Sym}
    (d : Disk) (h : DataContainer.init iter units true = .ok (c, w)) (hM : 8 ≤ fform.getM) (hN : 2 * fform.getM < N) (Y : Crystal) {δ : ℝ}
    (hin : ∀ k v dt xs ys, (k, v) ∈ Dict.ofPairs iter → IsXY v dt xs ys → (dt = .float ∨ units = sDegrees) ∧
      ∃ y, (xs.zip ys).map (fun p => (rad units p.1, p.2)) = sampled N y)
    (hm : ∀ k v dt xs ys p q, LastFor (Dict.ofPairs iter) k v → IsXY v dt xs ys → pcOf k = combo p q →
      ∀ s ∈ xs.zip ys, |s.2 - intensity Y 0 (rad units s.1) p q| ≤ δ)
    (hc : fform.Reachable S) (hF : FormulaIs fform F) (hk : ∀ k ∈ fform.getKeys, ∃ p q, k = combo p q) {r₀ : Sym → ℝ}
    (hr : ∀ p q m, F (combo p q) m (realVal r₀) = integralCoeff (fun x => (intensity Y 0 x p q : ℂ)) m)
    (hf : datToFdat cubicInterp c fform.getM = .ok fdat) (hq : ∀ k m z, DRepresents fdat k m z → MachineNumber z)
    {arguments : Option (List Sym)} (hl : ArgumentOrder S fform arguments l)
    (chunk : Bool) (hne : chunk = true → fform.getKeys ≠ []) (save : Option Key) :
    ∃ cost d', genCostFunc S C d fform fdat arguments chunk save = .ok (cost, d') ∧
      ∀ r, cost (l.map r) ≤ cost (l.map r₀) → ∀ p q, combo p q ∈ fform.getKeys → ∀ x,
        ‖pattern fform.getM (fun m => F (combo p q) m (realVal r)) x - (intensity Y 0 x p q : ℂ)‖ ≤
          2 * √(2 * fform.getM + 1) * √((fform.getKeys.map (fun k =>
            (14 * fourth fform.getM (fun m => F k m (realVal r₀)) * (2 * Real.pi / N) ^ 4 + 75 * δ) ^ 2)).sum) := by
  have hN1 : 1 ≤ N := by omega
  have hd : c.Reachable := ⟨iter, units, true, c, w, [], h, rfl⟩
  obtain ⟨hperm, _, _⟩ := C13_normal_to_oblique h (distinct_of_grid hN1 hin)
  have hr' : ∀ p q, (fun m => F (combo p q) m (realVal r₀)) = integralCoeff (fun x => (intensity Y 0 x p q : ℂ)) :=
    fun p q => funext (hr p q)
  obtain ⟨cost, d', h1, h2⟩ := C137_fit S C d hd hc hF
    (fun k hkm => by
      obtain ⟨p, q, rfl⟩ := hk k hkm
      exact hperm.mem_iff.2 (combo_four p q))
    (r₀ := r₀) (h := fun _ => 2 * Real.pi / N) (ρ := fun _ => 1) (δ := fun _ => δ)
    (fun X pts hX => by
      have hXm : X ∈ [kPP, kPS, kSP, kSS] := by
        rw [← hperm.mem_iff]
        rw [getPc_radians, Dict.get_ok_iff] at hX
        exact List.mem_map_of_mem (f := Prod.fst) (Dict.mem_of_get? hX)
      obtain ⟨p, q, rfl⟩ := four_combo hXm
      rw [hr']
      exact crystal_points h hM hN Y hin hm hX)
    hf hq hl chunk hne save
  refine ⟨cost, d', h1, fun r hr1 p q hpq x => ?_⟩
  have h3 := h2 r hr1 (combo p q) hpq x
  rw [hr', pattern_coeff hM (intensity_degree Y 0 p q) x] at h3
  simpa only [mul_one, one_pow] using h3

/-- What `load_data` gives to the constructor. -/
theorem files_read {float : Key → Option ℝ} {fs : CsvFiles} {names : Dict Key Key} {y : Key → ℝ → ℝ} (hwf : Dict.WF names)
    (hS : FilesSample float fs names units N y) : ∃ P : Key → List (ℝ × ℝ),
      (∀ k n, (k, n) ∈ names → (P n).map (fun p => (rad units p.1, p.2)) = sampled N (y k)) ∧
      (∀ n2o, loadData float fs names units n2o = (do
        let (c, _) ← DataContainer.init (names.map (fun it => ((.str it.1 : RawKey),
          (.arr2 .float [(P it.2).map Prod.fst, (P it.2).map Prod.snd] : RawVal ℝ)))) units n2o
        return c)) ∧
      Dict.ofPairs (names.map (fun it => ((.str it.1 : RawKey), (.arr2 .float [(P it.2).map Prod.fst, (P it.2).map Prod.snd] : RawVal ℝ)))) =
        names.map (fun it => ((.str it.1 : RawKey), (.arr2 .float [(P it.2).map Prod.fst, (P it.2).map Prod.snd] : RawVal ℝ))) := by
  classical
  let P : Key → List (ℝ × ℝ) := fun n => if h : ∃ pts, FileHolds float fs n pts then h.choose else []
  have hP : ∀ k n, (k, n) ∈ names → FileHolds float fs n (P n) ∧
      (P n).map (fun p => (rad units p.1, p.2)) = sampled N (y k) := by
    intro k n hkn
    obtain ⟨pts, h1, h2⟩ := hS k n hkn
    have hex : ∃ pts, FileHolds float fs n pts := ⟨pts, h1⟩
    have e : P n = hex.choose := dif_pos hex
    have h3 := hex.choose_spec
    have : hex.choose = pts := by
      have e1 := readCsv_of_holds h3
      have e2 := readCsv_of_holds h1
      rw [e1] at e2
      simp only [Except.ok.injEq, RawVal.arr2.injEq, List.cons.injEq, and_true, true_and] at e2
      calc hex.choose = (hex.choose.map Prod.fst).zip (hex.choose.map Prod.snd) := by rw [List.zip_map']; simp
        _ = (pts.map Prod.fst).zip (pts.map Prod.snd) := by rw [e2.1, e2.2]
        _ = pts := by rw [List.zip_map']; simp
    rw [e, this]
    exact ⟨h1, h2⟩
  refine ⟨P, fun k n hkn => (hP k n hkn).2, fun n2o => ?_, ?_⟩
  · have hm : Dict.mapValsM (readCsv float fs) names =
        .ok (names.mapVals (fun n => .arr2 .float [(P n).map Prod.fst, (P n).map Prod.snd])) :=
      Dict.mapValsM_of_forall (fun it hit => readCsv_of_holds (hP it.1 it.2 hit).1)
    unfold loadData
    rw [hm, ok_bind]
    have he : (names.mapVals (fun n => (RawVal.arr2 DType.float [(P n).map Prod.fst, (P n).map Prod.snd]
        : RawVal ℝ))).map (fun kv => ((.str kv.1 : RawKey), kv.2)) =
        names.map (fun it => ((.str it.1 : RawKey), (.arr2 .float [(P it.2).map Prod.fst, (P it.2).map Prod.snd] : RawVal ℝ))) := by
      simp [Dict.mapVals]
    rw [he]
  · exact Dict.ofPairs_of_nodup (FormContainer.str_map_nodup hwf (fun n => (.arr2 .float [(P n).map Prod.fst, (P n).map Prod.snd] : RawVal ℝ)))

/-- What `load_data` makes of such files. -/
theorem files_container {float : Key → Option ℝ} {fs : CsvFiles} {names : Dict Key Key} {y : Key → ℝ → ℝ}
    (hu : units = sRadians ∨ units = sDegrees) (hwf : Dict.WF names) (ho : ObliqueKeys (names.keys.map pcOf))
    (hS : FilesSample float fs names units N y) (hN : 1 ≤ N) :
    ∃ iter c w, DataContainer.init iter units true = .ok (c, w) ∧ loadData float fs names units true = .ok c ∧
      (∀ k v dt xs ys, (k, v) ∈ Dict.ofPairs iter → IsXY v dt xs ys → (dt = .float ∨ units = sDegrees) ∧
        ∃ y, (xs.zip ys).map (fun p => (rad units p.1, p.2)) = sampled N y) ∧
      (∀ k v dt xs ys, LastFor (Dict.ofPairs iter) k v → IsXY v dt xs ys → k ∈ names.keys ∧
        ∀ s ∈ xs.zip ys, ∃ j < N, rad units s.1 = gridAngle N j ∧ s.2 = y k (gridAngle N j)) ∧
      ((names.keys.map pcOf).Nodup → ∀ k ∈ names.keys, ∃ v dt xs ys, LastFor (Dict.ofPairs iter) k v ∧ IsXY v dt xs ys ∧
        ∀ j < N, y k (gridAngle N j) ∈ ys) ∧
      pcs (Dict.ofPairs iter) = names.keys.map pcOf := by
  obtain ⟨P, hP, hload, hof⟩ := files_read hwf hS
  set iter : List (RawKey × RawVal ℝ) :=
    names.map (fun it => ((.str it.1 : RawKey), (.arr2 .float [(P it.2).map Prod.fst, (P it.2).map Prod.snd] : RawVal ℝ))) with hiter
  have hitem : ∀ k v dt xs ys, (k, v) ∈ iter → IsXY v dt xs ys → dt = .float ∧ ∃ s n, k = .str s ∧ (s, n) ∈ names ∧ xs.zip ys = P n := by
    rintro k v dt xs ys hkv ⟨rest, rfl, _, _⟩
    obtain ⟨⟨s, n⟩, hsn, he⟩ := List.mem_map.1 hkv
    simp only [Prod.mk.injEq, RawVal.arr2.injEq, List.cons.injEq] at he
    obtain ⟨h1, h2, h3, h4, _⟩ := he
    refine ⟨h2.symm, s, n, h1.symm, hsn, ?_⟩
    rw [← h3, ← h4, List.zip_map']
    simp
  have hin : ∀ k v dt xs ys, (k, v) ∈ Dict.ofPairs iter → IsXY v dt xs ys → (dt = .float ∨ units = sDegrees) ∧
      ∃ y, (xs.zip ys).map (fun p => (rad units p.1, p.2)) = sampled N y := by
    intro k v dt xs ys hkv hv
    rw [hof] at hkv
    obtain ⟨h1, s, n, _, hsn, h2⟩ := hitem k v dt xs ys hkv hv
    exact ⟨.inl h1, y s, by rw [h2]; exact hP s n hsn⟩
  have hpcs : pcs iter = names.keys.map pcOf := by
    rw [hiter]
    unfold pcs Dict.keys
    rw [List.filterMap_map, List.map_map]
    exact congrFun (List.filterMap_eq_map' (f := pcOf ∘ Prod.fst)) names
  have hlast : ∀ k v, LastFor iter k v → (RawKey.str k, v) ∈ iter := by
    rintro k v ⟨pre, post, he, _⟩
    rw [he]; simp
  have hne : ∀ k v dt xs ys, (k, v) ∈ iter → IsXY v dt xs ys → xs ≠ [] := by
    rintro k v dt xs ys hkv hv rfl
    obtain ⟨_, s, n, _, hsn, h2⟩ := hitem k v dt _ ys hkv hv
    have h3 := hP s n hsn
    rw [← h2] at h3
    have := congrArg List.length h3
    simp [sampled] at this
    omega
  obtain ⟨c, w, h⟩ : ∃ c w, DataContainer.init iter units true = .ok (c, w) := by
    refine (C04_acceptance iter units true).1.2 ⟨hu, ?_, ?_⟩
    · intro k v hkv
      rw [hof] at hkv
      obtain ⟨⟨s, n⟩, hsn, he⟩ := List.mem_map.1 hkv
      simp only [Prod.mk.injEq] at he
      obtain ⟨rfl, rfl⟩ := he
      exact ⟨⟨_, rfl⟩, _, _, _, [], rfl, by simp, by decide⟩
    · rw [if_pos rfl, hof]
      refine ⟨by rw [hpcs]; exact ho, fun k v dt xs ys hl hv => hne _ v dt xs ys (hlast k v hl) hv⟩
  refine ⟨iter, c, w, h, by rw [hload, h]; rfl, hin, ?_, fun hnd k hk => ?_, by rw [hof]; exact hpcs⟩
  rotate_left
  · obtain ⟨n, hkn⟩ := Dict.mem_keys.1 hk
    obtain ⟨pre, post, he⟩ := List.append_of_mem hkn
    refine ⟨.arr2 .float [(P n).map Prod.fst, (P n).map Prod.snd], .float, _, _, ?_, ⟨[], rfl, by simp, by decide⟩, fun j hj => ?_⟩
    · rw [hof]
      refine ⟨pre.map (fun it => ((.str it.1 : RawKey), (.arr2 .float [(P it.2).map Prod.fst, (P it.2).map Prod.snd] : RawVal ℝ))),
        post.map (fun it => ((.str it.1 : RawKey), (.arr2 .float [(P it.2).map Prod.fst, (P it.2).map Prod.snd] : RawVal ℝ))), ?_, ?_⟩
      · rw [hiter, he, List.map_append, List.map_cons]
      · have hpost : pcs (post.map (fun it => ((.str it.1 : RawKey),
            (.arr2 .float [(P it.2).map Prod.fst, (P it.2).map Prod.snd] : RawVal ℝ)))) = (Dict.keys post).map pcOf := by
          unfold pcs Dict.keys
          rw [List.filterMap_map, List.map_map]
          exact congrFun (List.filterMap_eq_map' (f := pcOf ∘ Prod.fst)) post
        rw [hpost]
        unfold Dict.keys at hnd
        rw [he, List.map_append, List.map_append, List.map_cons, List.map_cons] at hnd
        exact (List.nodup_cons.1 (List.nodup_append.1 hnd).2.1).1
    · have h1 : (gridAngle N j, y k (gridAngle N j)) ∈ sampled N (y k) := List.mem_map.2 ⟨j, List.mem_range.2 hj, rfl⟩
      rw [← hP k n hkn] at h1
      obtain ⟨s, hs, h2⟩ := List.mem_map.1 h1
      exact List.mem_map.2 ⟨s, hs, (Prod.mk.inj h2).2⟩
  intro k v dt xs ys hl hv
  rw [hof] at hl
  obtain ⟨_, k', n, hkk, hsn, h5⟩ := hitem _ v dt xs ys (hlast k v hl) hv
  cases RawKey.str.inj hkk
  refine ⟨Dict.mem_keys_of_mem hsn, fun s hs => ?_⟩
  rw [h5] at hs
  have h6 : (rad units s.1, s.2) ∈ sampled N (y k) := by
    rw [← hP k n hsn]
    exact List.mem_map.2 ⟨s, hs, rfl⟩
  obtain ⟨j, hj, he⟩ := List.mem_map.1 h6
  simp only [Prod.mk.injEq] at he
  exact ⟨j, List.mem_range.1 hj, he.1.symm, he.2.symm⟩

/-- **C145, from files.**  Let the files hold, in degrees or radians, an accepted set of combinations of a crystal at normal incidence, at `N`
equally spaced angles and with an error of at most `δ` in each value.  Then `load_data_and_fourier_transform` with `normal_to_oblique` and
otherwise default options returns components of all four combinations, which are those of the intensities of the crystal with an error of
at most `14 (2π/N)⁴ Σ m⁴ |c_m| + 75 δ`. -/
theorem C145_files {float : Key → Option ℝ} {fs : CsvFiles} {names : Dict Key Key} {y : Key → ℝ → ℝ}
    (hu : units = sRadians ∨ units = sDegrees) (hwf : Dict.WF names) (ho : ObliqueKeys (names.keys.map pcOf))
    (hS : FilesSample float fs names units N y) {M : ℕ} (hM : 8 ≤ M) (hN : 2 * M < N) (Y : Crystal) {δ : ℝ}
    (hm : ∀ k ∈ names.keys, ∀ p q, pcOf k = combo p q → ∀ j < N, |y k (gridAngle N j) - intensity Y 0 (gridAngle N j) p q| ≤ δ) :
    ∃ dat fdat, loadDataAndFourierTransform float fs cubicInterp names units none M false 1 true = .ok (dat, fdat) ∧ fdat.getM = M ∧
      fdat.getKeys.Perm [kPP, kPS, kSP, kSS] ∧
      ∀ p q, ∃ z : ℤ → ℂ, (∀ m : ℤ, -(M : ℤ) ≤ m → m ≤ M → DRepresents fdat (combo p q) m (z m)) ∧
        √(∑ m ∈ Finset.Icc (-(M : ℤ)) M, ‖z m - integralCoeff (fun x => (intensity Y 0 x p q : ℂ)) m‖ ^ 2) ≤
          14 * fourth M (integralCoeff (fun x => (intensity Y 0 x p q : ℂ))) * (2 * Real.pi / N) ^ 4 + 75 * δ := by
  obtain ⟨iter, c, w, h, hl, hin, hp, _⟩ := files_container hu hwf ho hS (by omega)
  obtain ⟨fdat, h1, h2, h3, h4⟩ := C145_crystal h hM hN Y hin (δ := δ) (by
    intro k v dt xs ys p q hk hv hpq s hs
    obtain ⟨g1, g2⟩ := hp k v dt xs ys hk hv
    obtain ⟨j, hj, g3, g4⟩ := g2 s hs
    rw [g3, g4]
    exact hm k g1 p q hpq j hj)
  exact ⟨c, fdat, (C35_composition _ _ _ _ _ _ _ _ _ _ _).2 ⟨c, hl, by simp, h1⟩, h2, h3, h4⟩

/-- **C145, exactly, from files.**  When the files hold the intensities of the crystal without error and `N` is a multiple of four, the components
of all four combinations are exactly those of the crystal. -/
theorem C145_files_exact {float : Key → Option ℝ} {fs : CsvFiles} {names : Dict Key Key} {y : Key → ℝ → ℝ}
    (hu : units = sRadians ∨ units = sDegrees) (hwf : Dict.WF names) (ho : ObliqueKeys (names.keys.map pcOf))
    (hS : FilesSample float fs names units N y) {M : ℕ} (hM : 8 ≤ M) (hN : 2 * M < N) (h4 : 4 ∣ N) (Y : Crystal)
    (hm : ∀ k ∈ names.keys, ∀ p q, pcOf k = combo p q → ∀ j < N, y k (gridAngle N j) = intensity Y 0 (gridAngle N j) p q) :
    ∃ dat fdat, loadDataAndFourierTransform float fs cubicInterp names units none M false 1 true = .ok (dat, fdat) ∧ fdat.getM = M ∧
      fdat.getKeys.Perm [kPP, kPS, kSP, kSS] ∧
      ∀ p q (m : ℤ), -(M : ℤ) ≤ m → m ≤ M → DRepresents fdat (combo p q) m (integralCoeff (fun x => (intensity Y 0 x p q : ℂ)) m) := by
  obtain ⟨iter, c, w, h, hl, hin, hp, _⟩ := files_container hu hwf ho hS (by omega)
  obtain ⟨fdat, h1, h2, h3, h5⟩ := C145_exact h hM hN h4 Y hin (by
    intro k v dt xs ys p q hk hv hpq s hs
    obtain ⟨g1, g2⟩ := hp k v dt xs ys hk hv
    obtain ⟨j, hj, g3, g4⟩ := g2 s hs
    rw [g3, g4]
    exact hm k g1 p q hpq j hj)
  exact ⟨c, fdat, (C35_composition _ _ _ _ _ _ _ _ _ _ _).2 ⟨c, hl, by simp, h1⟩, h2, h3, h5⟩

/-- **C145, fits from files.**  Fit a formula to the Fourier components that `load_data_and_fourier_transform` returns for such files, where the
formula describes the crystal for the parameters `r₀`.  Then the patterns of all parameters `r` that the cost function does not find worse than
`r₀` differ from the intensities of the crystal, in all combinations of the formula, measured or not, by at most the bound of `C145_fit`. -/
theorem C145_files_fit (S : Sympy) (C : Compiler) {fform : FFormContainer} {F : Key → ℤ → Valuation → ℂ} {dat : DataContainer ℝ}
    {fdat : FDataContainer} {l : List Sym} (d : Disk) {float : Key → Option ℝ} {fs : CsvFiles} {names : Dict Key Key} {y : Key → ℝ → ℝ}
    (hu : units = sRadians ∨ units = sDegrees) (hwf : Dict.WF names) (ho : ObliqueKeys (names.keys.map pcOf))
    (hS : FilesSample float fs names units N y) (hM : 8 ≤ fform.getM) (hN : 2 * fform.getM < N) (Y : Crystal) {δ : ℝ}
    (hm : ∀ k ∈ names.keys, ∀ p q, pcOf k = combo p q → ∀ j < N, |y k (gridAngle N j) - intensity Y 0 (gridAngle N j) p q| ≤ δ)
    (hc : fform.Reachable S) (hF : FormulaIs fform F) (hk : ∀ k ∈ fform.getKeys, ∃ p q, k = combo p q) {r₀ : Sym → ℝ}
    (hr : ∀ p q m, F (combo p q) m (realVal r₀) = integralCoeff (fun x => (intensity Y 0 x p q : ℂ)) m)
    (hload : loadDataAndFourierTransform float fs cubicInterp names units none fform.getM false 1 true = .ok (dat, fdat))
    (hq : ∀ k m z, DRepresents fdat k m z → MachineNumber z)
    {arguments : Option (List Sym)} (hl : ArgumentOrder S fform arguments l)
    (chunk : Bool) (hne : chunk = true → fform.getKeys ≠ []) (save : Option Key) :
    ∃ cost d', genCostFunc S C d fform fdat arguments chunk save = .ok (cost, d') ∧
      ∀ r, cost (l.map r) ≤ cost (l.map r₀) → ∀ p q, combo p q ∈ fform.getKeys → ∀ x,
        ‖pattern fform.getM (fun m => F (combo p q) m (realVal r)) x - (intensity Y 0 x p q : ℂ)‖ ≤
          2 * √(2 * fform.getM + 1) * √((fform.getKeys.map (fun k =>
            (14 * fourth fform.getM (fun m => F k m (realVal r₀)) * (2 * Real.pi / N) ^ 4 + 75 * δ) ^ 2)).sum) := by
  obtain ⟨iter, c, w, h, hlo, hin, hp, _⟩ := files_container hu hwf ho hS (by omega)
  have hf : datToFdat cubicInterp c fform.getM = .ok fdat := by
    obtain ⟨c₁, g1, g2, g3⟩ := (C35_composition _ _ _ _ _ _ _ _ _ _ _).1 hload
    have : c₁ = c := Except.ok.inj (g1.symm.trans hlo)
    subst this
    simp at g2
    subst g2
    exact g3
  exact C145_fit S C d h hM hN Y hin (by
    intro k v dt xs ys p q hk hv hpq s hs
    obtain ⟨g1, g2⟩ := hp k v dt xs ys hk hv
    obtain ⟨j, hj, g3, g4⟩ := g2 s hs
    rw [g3, g4]
    exact hm k g1 p q hpq j hj) hc hF hk hr hf hq hl chunk hne save

end

/-! ### Concrete cases meeting the hypotheses -/

/-- The array of the intensities of a crystal at normal incidence, at `36` angles. -/
noncomputable def thirtySix (Y : Crystal) (p q : Pol) : RawVal ℝ :=
  .arr2 .float [(List.range 36).map (fun j => gridAngle 36 j), (List.range 36).map (fun j => intensity Y 0 (gridAngle 36 j) p q)]

/-- Two of the four combinations, in small letters. -/
noncomputable def twoGiven (Y : Crystal) : List (RawKey × RawVal ℝ) :=
  [(.str ['p', 'p'], thirtySix Y .P .P), (.str ['p', 's'], thirtySix Y .P .S)]

theorem twoGiven_items (Y : Crystal) : Dict.ofPairs (twoGiven Y) = twoGiven Y := by rfl

theorem twoGiven_xy {Y : Crystal} {k : RawKey} {v : RawVal ℝ} {dt : DType} {xs ys : List ℝ} (hkv : (k, v) ∈ twoGiven Y)
    (hv : IsXY v dt xs ys) : dt = .float ∧ ∃ p q, k = .str ((combo p q).map Char.toLower) ∧
      xs.zip ys = sampled 36 (fun x => intensity Y 0 x p q) := by
  obtain ⟨rest, rfl, _, _⟩ := hv
  simp only [twoGiven, thirtySix, List.mem_cons, Prod.mk.injEq, List.not_mem_nil, or_false, RawVal.arr2.injEq, List.cons.injEq] at hkv
  rcases hkv with ⟨rfl, rfl, rfl, rfl, _⟩ | ⟨rfl, rfl, rfl, rfl, _⟩
  · exact ⟨rfl, .P, .P, rfl, by rw [List.zip_map']; rfl⟩
  · exact ⟨rfl, .P, .S, rfl, by rw [List.zip_map']; rfl⟩

theorem rad_radians (x : ℝ) : rad sRadians x = x := by simp [rad, sRadians, sDegrees]

theorem twoGiven_grid (Y : Crystal) : ∀ k v dt xs ys, (k, v) ∈ Dict.ofPairs (twoGiven Y) → IsXY v dt xs ys →
    (dt = .float ∨ sRadians = sDegrees) ∧ ∃ y, (xs.zip ys).map (fun p => (rad sRadians p.1, p.2)) = sampled 36 y := by
  intro k v dt xs ys hkv hv
  rw [twoGiven_items] at hkv
  obtain ⟨h1, p, q, _, h2⟩ := twoGiven_xy hkv hv
  refine ⟨Or.inl h1, fun x => intensity Y 0 x p q, ?_⟩
  rw [h2]
  simp only [rad_radians, Prod.mk.eta, List.map_id']

theorem twoGiven_ok (Y : Crystal) : ∃ c w, DataContainer.init (twoGiven Y) sRadians true = .ok (c, w) := by
  refine (C04_acceptance (twoGiven Y) sRadians true).1.2 ⟨Or.inl rfl, ?_, ?_⟩
  · intro k v hkv
    rw [twoGiven_items] at hkv
    simp only [twoGiven, List.mem_cons, Prod.mk.injEq, List.not_mem_nil, or_false] at hkv
    rcases hkv with ⟨rfl, rfl⟩ | ⟨rfl, rfl⟩
    · exact ⟨⟨_, rfl⟩, _, _, _, [], rfl, by simp, by decide⟩
    · exact ⟨⟨_, rfl⟩, _, _, _, [], rfl, by simp, by decide⟩
  · rw [if_pos rfl, twoGiven_items]
    refine ⟨Or.inr ⟨kPP, kPS, Or.inl rfl, Or.inl rfl, ?_⟩, ?_⟩
    · intro x
      have : pcs (twoGiven Y) = [kPP, kPS] := rfl
      rw [this]; simp
    · rintro k v dt xs ys ⟨pre, post, he, _⟩ hv rfl
      obtain ⟨_, p, q, _, h2⟩ := twoGiven_xy (k := .str k) (v := v) (by rw [he]; simp) hv
      have := congrArg List.length h2
      simp [sampled] at this

/-- All four combinations of every crystal, from two that were measured at 36 angles, with the default `M = 16`. -/
example (Y : Crystal) : ∃ c w fdat, DataContainer.init (twoGiven Y) sRadians true = .ok (c, w) ∧ datToFdat cubicInterp c 16 = .ok fdat ∧
    ∀ p q, ∃ z : ℤ → ℂ, (∀ m : ℤ, -16 ≤ m → m ≤ 16 → DRepresents fdat (combo p q) m (z m)) ∧
      √(∑ m ∈ Finset.Icc (-16 : ℤ) 16, ‖z m - integralCoeff (fun x => (intensity Y 0 x p q : ℂ)) m‖ ^ 2) ≤
        14 * fourth 16 (integralCoeff (fun x => (intensity Y 0 x p q : ℂ))) * (2 * Real.pi / (36 : ℕ)) ^ 4 + 75 * 0 := by
  obtain ⟨c, w, h⟩ := twoGiven_ok Y
  obtain ⟨fdat, h1, _, _, h2⟩ := C145_crystal h (M := 16) (N := 36) (by omega) (by omega) Y (δ := 0) (twoGiven_grid Y)
    (by
      rintro k v dt xs ys p q ⟨pre, post, he, _⟩ hv hk s hs
      rw [twoGiven_items] at he
      obtain ⟨_, p', q', h3, h4⟩ := twoGiven_xy (k := .str k) (v := v) (by rw [he]; simp) hv
      have h5 : combo p q = combo p' q' := by
        rw [← hk, RawKey.str.inj h3]
        cases p' <;> cases q' <;> decide
      obtain ⟨rfl, rfl⟩ := combo_inj h5
      rw [h4] at hs
      obtain ⟨j, _, rfl⟩ := List.mem_map.1 hs
      rw [rad_radians, sub_self, abs_zero])
  exact ⟨c, w, fdat, h, h1, h2⟩

/-- Component `m` of `SS` is that of `PP` times `(-i)^m`. -/
example (Y : Crystal) : ∃ c w fdat, DataContainer.init (twoGiven Y) sRadians true = .ok (c, w) ∧ datToFdat cubicInterp c 16 = .ok fdat ∧
    DRepresents fdat kPP 3 (dft 36 (fun x => intensity Y 0 x .P .P) 3) ∧
    DRepresents fdat kSS 3 (dft 36 (fun x => intensity Y 0 x .P .P) 3 * (-Complex.I) ^ (3 : ℤ)) := by
  obtain ⟨c, w, h⟩ := twoGiven_ok Y
  obtain ⟨fdat, h1, _, _, h2, h3⟩ := C145_quarter h (q := 9) (N := 36) (by omega) rfl 16 (twoGiven_grid Y)
  have h4 : DRepresents fdat kPP 3 (dft 36 (fun x => intensity Y 0 x .P .P) 3) :=
    h2 ['p', 'p'] (thirtySix Y .P .P) .float _ _ (fun x => intensity Y 0 x .P .P)
      ⟨[], [(.str ['p', 's'], thirtySix Y .P .S)], by rw [twoGiven_items]; rfl, by
        have : pcs [(RawKey.str ['p', 's'], thirtySix Y .P .S)] = [kPS] := rfl
        rw [this]; decide⟩
      ⟨[], rfl, by simp, by decide⟩
      (by
        rw [List.zip_map']
        simp only [rad_radians, Prod.mk.eta, List.map_id']
        rfl) 3 (by omega) (by omega)
  refine ⟨c, w, fdat, h, h1, h4, ?_⟩
  obtain ⟨_, h5⟩ := h3 kSS (by decide) (by
    have : pcs (Dict.ofPairs (twoGiven Y)) = [kPP, kPS] := rfl
    rw [this]; decide)
  exact h5 3 _ h4

/-! A fit -/

namespace SixFold
open FitCases

/-- The crystal with the single element `xxx = 1`. -/
noncomputable def axial : Crystal := ⟨fun i j k => if i = 0 ∧ j = 0 ∧ k = 0 then 1 else 0, 0, 0⟩

/-- The components of `cos⁶`. -/
def parts : List ℚ :=
  [0, 0, 0, 0, 0, 0, 0, 0, 0, 0, 1 / 64, 0, 3 / 32, 0, 15 / 64, 0, 5 / 16, 0, 15 / 64, 0, 3 / 32, 0, 1 / 64, 0, 0, 0, 0, 0, 0, 0, 0, 0, 0]

theorem row_parts : Lookup.row 6 0 = parts.map (fun q => (q, 0)) := by decide +kernel

/-- The powers of the cosine and the sine in the intensities of the crystal. -/
def powers : Pol → Pol → ℕ × ℕ
  | .P, .P => (6, 0)
  | .P, .S => (4, 2)
  | .S, .P => (2, 4)
  | .S, .S => (0, 6)

theorem axial_intensity (x : ℝ) (p q : Pol) :
    (intensity axial 0 x p q : ℂ) = Complex.cos x ^ (powers p q).1 * Complex.sin x ^ (powers p q).2 := by
  have hc : (Complex.normSq (Complex.cos x) : ℂ) = Complex.cos x ^ 2 := by
    rw [← Complex.ofReal_cos, Complex.normSq_ofReal]
    push_cast
    ring
  have hs : (Complex.normSq (Complex.sin x) : ℂ) = Complex.sin x ^ 2 := by
    rw [← Complex.ofReal_sin, Complex.normSq_ofReal]
    push_cast
    ring
  have h4 : rot4 (rotZ x) 0 = 0 := by funext i j k l; simp [rot4]
  have h3 : rot3 (rotZ x) 0 = 0 := by funext i j k; simp [rot3]
  have h3' : rot3 (rotZ x) (fun i j k => if i = 0 ∧ j = 0 ∧ k = 0 then 1 else 0) = fun i j k => (rotZ x i 0 * rotZ x j 0 * rotZ x k 0 : ℂ) := by
    funext i j k
    simp [rot3, Fin.sum_univ_three]
  simp only [intensity, outIntensity, radiated, Crystal.turned, axial, h4, h3, h3']
  cases p <;> cases q <;>
    simp [perp, dot, source, quad, cross, quadGrad, kOut, kIn, fieldIn, Fin.sum_univ_three, powers, rotZ, hc, hs] <;> ring

theorem axial_coeff (p q : Pol) (m : ℤ) :
    integralCoeff (fun x => (intensity axial 0 x p q : ℂ)) m = Lookup.entry (powers p q).1 (powers p q).2 m := by
  simp only [axial_intensity]
  exact integralCoeff_table (by cases p <;> cases q <;> decide) m

theorem entry_machine (a b : ℕ) (m : ℤ) : MachineNumber (Lookup.entry a b m) := by
  unfold Lookup.entry
  split_ifs
  · rw [List.getD_eq_getElem?_getD, List.getElem?_map]
    cases (Lookup.row a b)[(m + 16).toNat]? with
    | none => exact ⟨0, 0, by simp⟩
    | some x => exact ⟨x.1, x.2, rfl⟩
  · exact ⟨0, 0, by simp⟩

/-- The formula `a cos⁶` for `PP`. -/
def sixth : FFormContainer := ⟨[(kPP, .obj (parts.map (fun q => .mul [.num q, .sym symA])))], 16⟩

/-- Its components, and those of the crystal for the other combinations. -/
noncomputable def sixthF : Key → ℤ → Valuation → ℂ := fun k m σ =>
  if k = kPP then σ symA * Lookup.entry 6 0 m else if k = kPS then Lookup.entry 4 2 m else if k = kSP then Lookup.entry 2 4 m else
    Lookup.entry 0 6 m

theorem sixth_reachable : sixth.Reachable Sympy.plain :=
  ⟨[(.str kPP, .objArr (parts.map (fun q => .sy (.mul [.num q, .sym symA]))))], 16, _, [], rfl, rfl⟩

theorem sixth_key {k : Key} (hk : k ∈ sixth.getKeys) : k = kPP := by
  simpa [sixth, FFormContainer.getKeys, Dict.keys] using hk

theorem sixthIs : FormulaIs sixth sixthF := by
  intro k hk m h1 h2
  cases sixth_key hk
  have h1' : -16 ≤ m := h1
  have h2' : m ≤ 16 := h2
  have hlt : (m + 16).toNat < parts.length := by
    show _ < 33
    omega
  refine ⟨_, .sy (.mul [.num parts[(m + 16).toNat], .sym symA]), rfl, ⟨⟨h1, h2⟩, ?_⟩, fun σ => ?_⟩
  · show (FArr.objs (.obj (parts.map (fun q => Expr.mul [.num q, .sym symA]))))[(m + 16).toNat]? = _
    simp only [FArr.objs, List.getElem?_map, List.getElem?_eq_getElem hlt, Option.map_some]
  · have he : Lookup.entry 6 0 m = (parts[(m + 16).toNat] : ℂ) := by
      unfold Lookup.entry
      rw [if_pos ⟨h1', h2'⟩, row_parts, List.map_map, List.getD_eq_getElem?_getD, List.getElem?_map, List.getElem?_eq_getElem hlt]
      simp [Lookup.gz]
    simp [objValue, sixthF, he, Expr.eval, Expr.evalProd, mul_comm]

theorem sixth_occurs {s : Sym} (h : FOccurs sixth s) : s = symA := by
  have hsym : Symbolic sixth := by
    rw [FFormContainer.symbolic_iff sixth_reachable.good]
    intro it hit
    simp only [sixth, List.mem_singleton] at hit
    subst hit; rfl
  obtain ⟨k, v, e, h1, h2, h3⟩ := FFormContainer.occurs_mem sixth_reachable.good
    ((FFormContainer.symbolic_iff sixth_reachable.good).1 hsym) h
  simp only [sixth, List.mem_singleton, Prod.mk.injEq, FArr.obj.injEq] at h1
  obtain ⟨_, rfl⟩ := h1
  obtain ⟨q, _, rfl⟩ := List.mem_map.1 h2
  simpa [Expr.free, Expr.freeL] using h3

/-- A fit of `a cos⁶` to the values of `PP` and `PS` of the crystal with `xxx = 1`, measured at 36 angles. -/
example (d : Disk) : ∃ c w fdat cost d', DataContainer.init (twoGiven axial) sRadians true = .ok (c, w) ∧
    datToFdat cubicInterp c 16 = .ok fdat ∧ genCostFunc Sympy.plain compiler d sixth fdat (some [symA]) false none = .ok (cost, d') ∧
    ∀ a : ℝ, cost [a] ≤ cost [1] → ∀ x, ‖pattern 16 (fun m => a * Lookup.entry 6 0 m) x - (intensity axial 0 x .P .P : ℂ)‖ ≤
      2 * √(2 * (16 : ℕ) + 1) * √([(14 * fourth 16 (fun m => 1 * Lookup.entry 6 0 m) * (2 * Real.pi / (36 : ℕ)) ^ 4 + 75 * 0) ^ 2].sum) := by
  obtain ⟨c, w, h⟩ := twoGiven_ok axial
  have hex : ∀ k v dt xs ys p q, LastFor (Dict.ofPairs (twoGiven axial)) k v → IsXY v dt xs ys → pcOf k = combo p q →
      ∀ s ∈ xs.zip ys, s.2 = intensity axial 0 (rad sRadians s.1) p q := by
    rintro k v dt xs ys p q ⟨pre, post, he, _⟩ hv hk s hs
    rw [twoGiven_items] at he
    obtain ⟨_, p', q', h3, h4⟩ := twoGiven_xy (k := .str k) (v := v) (by rw [he]; simp) hv
    have h5 : combo p q = combo p' q' := by
      rw [← hk, RawKey.str.inj h3]
      cases p' <;> cases q' <;> decide
    obtain ⟨rfl, rfl⟩ := combo_inj h5
    rw [h4] at hs
    obtain ⟨j, _, rfl⟩ := List.mem_map.1 hs
    rw [rad_radians]
  obtain ⟨fdat, h1, hM, hkeys, h2⟩ := C145_exact h (M := 16) (N := 36) (by omega) (by omega) (by decide) axial (twoGiven_grid axial) hex
  obtain ⟨cost, d', h3, h4⟩ := C145_fit Sympy.plain compiler (fform := sixth) (F := sixthF) (fdat := fdat) (l := [symA]) d h
    (show 8 ≤ 16 by omega) (N := 36) (show 2 * 16 < 36 by omega) axial (δ := 0) (twoGiven_grid axial)
    (fun k v dt xs ys p q hl hv hk s hs => by rw [hex k v dt xs ys p q hl hv hk s hs, sub_self, abs_zero])
    sixth_reachable sixthIs (fun k hk => ⟨.P, .P, sixth_key hk⟩) (r₀ := fun _ => 1)
    (fun p q m => by
      rw [axial_coeff]
      cases p <;> cases q <;> simp [sixthF, combo, Pol.char, kPP, kPS, kSP, powers, realVal])
    h1
    (by
      rintro k m z ⟨v, hv, hz⟩
      have hk : k ∈ [kPP, kPS, kSP, kSS] := by
        rw [← hkeys.mem_iff]
        exact Dict.mem_keys_of_mem (Dict.mem_of_get? (Dict.get_ok_iff.1 hv))
      obtain ⟨p, q, rfl⟩ := four_combo hk
      have hz1 := hz.1
      rw [hM] at hz1
      obtain ⟨v', hv', hz'⟩ := h2 p q m hz1.1 hz1.2
      rw [hv] at hv'
      cases hv'
      rw [Option.some.inj (hz.2.symm.trans hz'.2), axial_coeff]
      exact entry_machine _ _ _)
    (arguments := some [symA]) (.inl ⟨rfl, by decide, fun s hs => by rw [sixth_occurs hs]; simp⟩) false (by simp) none
  refine ⟨c, w, fdat, cost, d', h, h1, h3, fun a ha x => ?_⟩
  have h5 := h4 (fun _ => a) (by simpa using ha) .P .P (by simp [sixth, FFormContainer.getKeys, Dict.keys, combo, Pol.char, kPP]) x
  have e1 : ∀ b : ℝ, (fun m => sixthF (combo .P .P) m (realVal (fun _ => b))) = fun m => (b : ℂ) * Lookup.entry 6 0 m := by
    intro b
    funext m
    simp [sixthF, combo, Pol.char, kPP, realVal]
  rw [e1] at h5
  have e2 : sixth.getKeys = [combo .P .P] := rfl
  have e3 : sixth.getM = 16 := rfl
  rw [e2, e3] at h5
  simp only [List.map_cons, List.map_nil] at h5
  rw [e1] at h5
  simpa using h5

theorem axial_le (p q : Pol) (x : ℝ) : 0 ≤ intensity axial 0 x p q ∧ intensity axial 0 x p q ≤ 1 := by
  have h1 : intensity axial 0 x p q = Real.cos x ^ (powers p q).1 * Real.sin x ^ (powers p q).2 := by
    have := axial_intensity x p q
    rw [← Complex.ofReal_cos, ← Complex.ofReal_sin] at this
    exact_mod_cast this
  have hc := Real.cos_sq_add_sin_sq x
  have hcs : Real.cos x ^ 2 ≤ 1 := by nlinarith [sq_nonneg (Real.sin x)]
  have hss : Real.sin x ^ 2 ≤ 1 := by nlinarith [sq_nonneg (Real.cos x)]
  have key : ∀ a b : ℕ, 0 ≤ (Real.cos x ^ 2) ^ a * (Real.sin x ^ 2) ^ b ∧ (Real.cos x ^ 2) ^ a * (Real.sin x ^ 2) ^ b ≤ 1 := fun a b =>
    ⟨by positivity, mul_le_one₀ (pow_le_one₀ (sq_nonneg _) hcs) (by positivity) (pow_le_one₀ (sq_nonneg _) hss)⟩
  rw [h1]
  cases p <;> cases q
  · simpa [powers, ← pow_mul] using key 3 0
  · simpa [powers, ← pow_mul] using key 2 1
  · simpa [powers, ← pow_mul] using key 1 2
  · simpa [powers, ← pow_mul] using key 0 3

/-- Two files that hold the value `1 / 4` at 36 angles: a bad measurement of the crystal with `xxx = 1`. -/
example : ∃ dat fdat, loadDataAndFourierTransform unaryFloat unaryCsv cubicInterp [(['p', 'p'], ['f']), (['s', 'p', '1'], ['g'])] sDegrees none 16
      false 1 true = .ok (dat, fdat) ∧
    ∀ p q, ∃ z : ℤ → ℂ, (∀ m : ℤ, -16 ≤ m → m ≤ 16 → DRepresents fdat (combo p q) m (z m)) ∧
      √(∑ m ∈ Finset.Icc (-16 : ℤ) 16, ‖z m - Lookup.entry (powers p q).1 (powers p q).2 m‖ ^ 2) ≤
        14 * fourth 16 (Lookup.entry (powers p q).1 (powers p q).2) * (2 * Real.pi / (36 : ℕ)) ^ 4 + 75 * 1 := by
  obtain ⟨dat, fdat, h1, _, _, h2⟩ := C145_files (float := unaryFloat) (fs := unaryCsv) (units := sDegrees) (N := 36)
    (names := [(['p', 'p'], ['f']), (['s', 'p', '1'], ['g'])]) (.inr rfl) (by unfold Dict.WF; decide)
    (.inr ⟨kPP, kSP, .inl rfl, .inr rfl, fun x => by
      have : (Dict.keys [((['p', 'p'] : Key), (['f'] : Key)), (['s', 'p', '1'], ['g'])]).map pcOf = [kPP, kSP] := by decide
      rw [this]; simp⟩)
    (unary_samples_all _) (M := 16) (by omega) (by omega) axial (δ := 1)
    (fun k _ p q _ j _ => by
      obtain ⟨h3, h4⟩ := axial_le p q (gridAngle 36 j)
      rw [abs_le]
      constructor <;> linarith)
  refine ⟨dat, fdat, h1, fun p q => ?_⟩
  have := h2 p q
  rw [funext (axial_coeff p q)] at this
  exact this

end SixFold

end Shgpy
