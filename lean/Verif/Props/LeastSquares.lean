import Verif.Spec.LeastSquares
import Verif.Props.Simulated
import Mathlib.Analysis.InnerProductSpace.PiL2

/-!
# Fourier data of measurements (C89), and fits in Fourier space as least squares fits of the measured values (C90)
-/

set_option linter.unusedSectionVars false

namespace Shgpy
open Spec
open scoped ComplexConjugate

theorem fourierSum_interp {interp : Interp} {pts : List (ℝ × ℝ)} (hN : 2 ≤ pts.length) {f : ℝ → ℝ} (hi : interp pts = .ok f) (m : ℤ) :
    fourierSum interp pts m = .ok (dft pts.length f m) := by
  have := fourierSum_ok (interp := fun _ => .ok f) (g := f) hN rfl (fun _ _ => rfl) m
  rw [← this]
  unfold fourierSum
  rw [hi]
  simp [sampled]

theorem conj_dft (N : ℕ) (f : ℝ → ℝ) (m : ℤ) : conj (dft N f m) = dft N f (-m) := by
  unfold dft
  simp only [map_mul, map_sum, map_div₀, map_one, Complex.conj_natCast, Complex.conj_ofReal, ← Complex.exp_conj, map_neg,
    Complex.conj_I, map_intCast, Int.cast_neg]
  congr 1
  refine Finset.sum_congr rfl (fun j _ => ?_)
  congr 2
  ring

theorem dft_zero (N : ℕ) (f : ℝ → ℝ) : dft N f 0 = (gridMean N f : ℂ) := by
  unfold dft gridMean
  simp
  ring

theorem dft_eq (N : ℕ) (f : ℝ → ℝ) (m : ℤ) :
    dft N f m = (1 / (N : ℂ)) * ∑ j ∈ Finset.range N, (f (gridAngle N j) : ℂ) * harmonic (-m) (gridAngle N j) := by
  unfold dft harmonic
  congr 1
  refine Finset.sum_congr rfl (fun j _ => ?_)
  congr 2
  push_cast
  ring

theorem harmonic_mul_apply (m m' : ℤ) (x : ℝ) : harmonic m x * harmonic m' x = harmonic (m + m') x := by
  unfold harmonic
  rw [← Complex.exp_add]
  congr 1
  push_cast
  ring

theorem residual (N M : ℕ) (hN : 2 * M < N) (y : ℝ → ℝ) (z : ℤ → ℂ) :
    gridMean N (fun x => ‖(y x : ℂ) - pattern M z x‖ ^ 2) =
      ∑ m ∈ Finset.Icc (-(M : ℤ)) M, ‖z m - dft N y m‖ ^ 2 +
        (gridMean N (fun x => y x ^ 2) - ∑ m ∈ Finset.Icc (-(M : ℤ)) M, ‖dft N y m‖ ^ 2) := by
  have hN0 : N ≠ 0 := by omega
  have hNc : (N : ℂ) ≠ 0 := by exact_mod_cast hN0
  have sq : ∀ w : ℂ, ((‖w‖ ^ 2 : ℝ) : ℂ) = w * conj w := fun w => by rw [Complex.mul_conj']; push_cast; rfl
  have hyp : (1 / (N : ℂ)) * ∑ j ∈ Finset.range N, (y (gridAngle N j) : ℂ) * pattern M z (gridAngle N j) =
      ∑ m ∈ Finset.Icc (-(M : ℤ)) M, z m * conj (dft N y m) := by
    simp only [conj_dft]
    simp only [dft_eq, neg_neg, pattern, Finset.mul_sum]
    rw [Finset.sum_comm]
    refine Finset.sum_congr rfl (fun m _ => Finset.sum_congr rfl (fun j _ => ?_))
    ring
  have hpp : (1 / (N : ℂ)) * ∑ j ∈ Finset.range N, pattern M z (gridAngle N j) * conj (pattern M z (gridAngle N j)) =
      ∑ m ∈ Finset.Icc (-(M : ℤ)) M, z m * conj (z m) := by
    simp only [pattern, map_sum, map_mul, conj_harmonic, Finset.sum_mul_sum]
    rw [Finset.sum_comm, Finset.mul_sum]
    refine Finset.sum_congr rfl (fun m hm => ?_)
    rw [Finset.sum_comm, Finset.mul_sum]
    rw [Finset.sum_eq_single m]
    · have : ∀ j, z m * harmonic m (gridAngle N j) * (conj (z m) * harmonic (-m) (gridAngle N j)) = z m * conj (z m) := by
        intro j
        have := harmonic_mul_apply m (-m) (gridAngle N j)
        rw [add_neg_cancel] at this
        have h0 : harmonic 0 (gridAngle N j) = 1 := by simp [harmonic]
        rw [h0] at this
        linear_combination z m * conj (z m) * this
      simp only [this, Finset.sum_const, Finset.card_range, nsmul_eq_mul]
      field_simp
    · intro m' hm' hne
      have h1 : ∀ j, z m * harmonic m (gridAngle N j) * (conj (z m') * harmonic (-m') (gridAngle N j)) =
          z m * conj (z m') * harmonic (m - m') (gridAngle N j) := by
        intro j
        rw [sub_eq_add_neg, ← harmonic_mul_apply]
        ring
      simp only [h1, ← Finset.mul_sum]
      rw [sum_harmonic _ hN0, if_neg, mul_zero, mul_zero]
      intro hd
      rw [Finset.mem_Icc] at hm hm'
      have hlt : |m - m'| < (N : ℤ) := by rw [abs_lt]; omega
      have := Int.eq_zero_of_abs_lt_dvd hd hlt
      omega
    · intro h; exact absurd hm h
  have key : ((gridMean N (fun x => ‖(y x : ℂ) - pattern M z x‖ ^ 2) : ℝ) : ℂ) =
      ((∑ m ∈ Finset.Icc (-(M : ℤ)) M, ‖z m - dft N y m‖ ^ 2 +
        (gridMean N (fun x => y x ^ 2) - ∑ m ∈ Finset.Icc (-(M : ℤ)) M, ‖dft N y m‖ ^ 2) : ℝ) : ℂ) := by
    have hyp' := congrArg conj hyp
    simp only [map_mul, map_sum, map_div₀, map_one, Complex.conj_natCast, Complex.conj_ofReal, Complex.conj_conj] at hyp'
    have e1 : ((gridMean N (fun x => ‖(y x : ℂ) - pattern M z x‖ ^ 2) : ℝ) : ℂ) =
        (1 / (N : ℂ)) * ∑ j ∈ Finset.range N, (y (gridAngle N j) : ℂ) ^ 2 -
        (1 / (N : ℂ)) * ∑ j ∈ Finset.range N, (y (gridAngle N j) : ℂ) * pattern M z (gridAngle N j) -
        (1 / (N : ℂ)) * ∑ j ∈ Finset.range N, (y (gridAngle N j) : ℂ) * conj (pattern M z (gridAngle N j)) +
        (1 / (N : ℂ)) * ∑ j ∈ Finset.range N, pattern M z (gridAngle N j) * conj (pattern M z (gridAngle N j)) := by
      unfold gridMean
      rw [Complex.ofReal_div, Complex.ofReal_sum, Complex.ofReal_natCast, div_eq_inv_mul, ← one_div]
      simp only [Finset.mul_sum]
      rw [← Finset.sum_sub_distrib, ← Finset.sum_sub_distrib, ← Finset.sum_add_distrib]
      refine Finset.sum_congr rfl (fun j _ => ?_)
      rw [sq, map_sub, Complex.conj_ofReal]
      ring
    rw [e1, hyp, hyp', hpp, Complex.ofReal_add, Complex.ofReal_sub, Complex.ofReal_sum, Complex.ofReal_sum]
    simp only [sq, map_sub]
    have e2 : ((gridMean N (fun x => y x ^ 2) : ℝ) : ℂ) = (1 / (N : ℂ)) * ∑ j ∈ Finset.range N, (y (gridAngle N j) : ℂ) ^ 2 := by
      unfold gridMean
      push_cast
      ring
    rw [e2]
    have e3 : ∑ m ∈ Finset.Icc (-(M : ℤ)) M, (z m - dft N y m) * (conj (z m) - conj (dft N y m)) =
        ∑ m ∈ Finset.Icc (-(M : ℤ)) M, z m * conj (z m) - ∑ m ∈ Finset.Icc (-(M : ℤ)) M, z m * conj (dft N y m) -
        ∑ m ∈ Finset.Icc (-(M : ℤ)) M, conj (z m) * dft N y m + ∑ m ∈ Finset.Icc (-(M : ℤ)) M, dft N y m * conj (dft N y m) := by
      rw [← Finset.sum_sub_distrib, ← Finset.sum_sub_distrib, ← Finset.sum_add_distrib]
      refine Finset.sum_congr rfl (fun m _ => ?_)
      ring
    rw [e3]
    ring
  exact_mod_cast key

/-! ## C89: Fourier data of measurements -/

section
variable {interp : Interp} {dat : DataContainer ℝ}

/-- C89.  For data with any angles, `dat_to_fdat(dat, M)` gives the discrete Fourier transform of the interpolating function at
as many equally spaced angles as there are points. -/
theorem C89_transform (hd : dat.Reachable) (M : ℕ) {f : Key → ℝ → ℝ}
    (hi : ∀ k pts, dat.getPc k sRadians = .ok pts → 2 ≤ pts.length ∧ interp pts = .ok (f k)) :
    ∃ c, datToFdat interp dat M = .ok c ∧ c.Reachable ∧ c.getKeys = dat.getKeys ∧ c.getM = M ∧
      ∀ k pts, dat.getPc k sRadians = .ok pts → ∀ m : ℤ, -(M : ℤ) ≤ m → m ≤ M →
        DRepresents c k m (dft pts.length (f k) m) := by
  have hwf := (reachable_normalForm hd).1
  let g : List (ℝ × ℝ) → ℤ → ℂ := fun pts m => match interp pts with | .ok f => dft pts.length f m | .error _ => 0
  have hg : ∀ it ∈ dat.data, ∀ m ∈ freqs M, fourierSum interp it.2 m = .ok (g it.2 m) := by
    rintro ⟨k, pts⟩ hit m _
    obtain ⟨h1, h2⟩ := hi k pts (get_of_mem hwf hit)
    simp only [g, h2]
    exact fourierSum_interp h1 h2 m
  have hok := datToFdat_ok hwf hg
  have hinit := FDataContainer.init_items (d := dat.data.mapVals (fun pts => (freqs M).map (g pts))) (M := M)
    .complex64 (Or.inl rfl) (by simpa [Dict.WF] using hwf) (by
      rintro ⟨k, v⟩ hit
      obtain ⟨a, _, rfl⟩ := Dict.mem_mapVals.1 hit
      simp [length_freqs])
  refine ⟨_, hok, ⟨_, M, _, [], hinit, rfl⟩, by simp [FDataContainer.getKeys, DataContainer.getKeys], rfl, ?_⟩
  intro k pts hk m hm1 hm2
  have hk' := hk
  rw [getPc_radians, Dict.get_ok_iff] at hk'
  refine ⟨(freqs M).map (g pts), ?_, ⟨hm1, hm2⟩, ?_⟩
  · show Dict.get _ k = _
    rw [Dict.get_ok_iff, Dict.get?_mapVals, hk']
    rfl
  · show ((freqs M).map (g pts))[(m + M).toNat]? = _
    rw [List.getElem?_map, getElem?_freqs (by omega)]
    have hmm : (((m + M).toNat : ℕ) : ℤ) - M = m := by omega
    rw [hmm, Option.map_some]
    simp only [g, (hi k pts hk).2]

/-- C89.  The component of frequency `-m` is the complex conjugate of the one of frequency `m`; the component of frequency zero
is the mean of the interpolated values; no component is larger than a bound of their moduli. -/
theorem C89_real (hd : dat.Reachable) (M : ℕ) {f : Key → ℝ → ℝ}
    (hi : ∀ k pts, dat.getPc k sRadians = .ok pts → 2 ≤ pts.length ∧ interp pts = .ok (f k)) {c : FDataContainer}
    (hc : datToFdat interp dat M = .ok c) {k : Key} {pts : List (ℝ × ℝ)} (hk : dat.getPc k sRadians = .ok pts) :
    (∀ m z, DRepresents c k m z → DRepresents c k (-m) (conj z)) ∧ DRepresents c k 0 (gridMean pts.length (f k) : ℂ) ∧
    (∀ b, (∀ x, |f k x| ≤ b) → ∀ m z, DRepresents c k m z → ‖z‖ ≤ b) := by
  obtain ⟨c', h1, _, _, h2, h3⟩ := C89_transform hd M hi
  rw [hc] at h1; cases h1
  have huniq : ∀ m z, DRepresents c k m z → (-(M : ℤ) ≤ m ∧ m ≤ M) ∧ z = dft pts.length (f k) m := by
    rintro m z ⟨v, e1, e2⟩
    rw [h2] at e2
    obtain ⟨v', e3, e4⟩ := h3 k pts hk m e2.1.1 e2.1.2
    rw [e1] at e3; cases e3
    rw [h2] at e4
    exact ⟨e2.1, Option.some.inj (e2.2.symm.trans e4.2)⟩
  refine ⟨fun m z hz => ?_, ?_, fun b hb m z hz => ?_⟩
  · obtain ⟨hm, rfl⟩ := huniq m z hz
    rw [conj_dft]
    exact h3 k pts hk (-m) (by omega) (by omega)
  · rw [← dft_zero]
    exact h3 k pts hk 0 (by omega) (by omega)
  · obtain ⟨hm, rfl⟩ := huniq m z hz
    have hn : (0 : ℝ) < pts.length := by exact_mod_cast (by have := (hi k pts hk).1; omega : 0 < pts.length)
    rw [dft_eq, norm_mul, norm_div, norm_one, Complex.norm_natCast, one_div, inv_mul_le_iff₀ hn]
    refine (norm_sum_le _ _).trans ?_
    refine (Finset.sum_le_card_nsmul _ _ b (fun j _ => ?_)).trans ?_
    · rw [norm_mul, norm_harmonic, mul_one, Complex.norm_real]
      exact hb _
    · simp

/-- C89.  With more than `2M` points, the squares of the components add up to at most the mean of the squares of the interpolated
values. -/
theorem C89_energy (hd : dat.Reachable) (M : ℕ) {f : Key → ℝ → ℝ}
    (hi : ∀ k pts, dat.getPc k sRadians = .ok pts → 2 ≤ pts.length ∧ interp pts = .ok (f k)) {c : FDataContainer}
    (hc : datToFdat interp dat M = .ok c) {k : Key} {pts : List (ℝ × ℝ)} (hk : dat.getPc k sRadians = .ok pts)
    (hN : 2 * M < pts.length) {z : ℤ → ℂ} (hz : ∀ m : ℤ, -(M : ℤ) ≤ m → m ≤ M → DRepresents c k m (z m)) :
    ∑ m ∈ Finset.Icc (-(M : ℤ)) M, ‖z m‖ ^ 2 ≤ gridMean pts.length (fun x => f k x ^ 2) := by
  obtain ⟨c', h1, _, _, h2, h3⟩ := C89_transform hd M hi
  rw [hc] at h1; cases h1
  have hzz : ∀ m ∈ Finset.Icc (-(M : ℤ)) M, z m = dft pts.length (f k) m := by
    intro m hm
    rw [Finset.mem_Icc] at hm
    obtain ⟨v, e1, e2⟩ := hz m hm.1 hm.2
    obtain ⟨v', e3, e4⟩ := h3 k pts hk m hm.1 hm.2
    rw [e1] at e3; cases e3
    exact Option.some.inj (e2.2.symm.trans e4.2)
  have h := residual pts.length M hN (f k) z
  rw [Finset.sum_eq_zero (fun m hm => by rw [hzz m hm]; simp), zero_add] at h
  have hpos : 0 ≤ gridMean pts.length (fun x => ‖(f k x : ℂ) - pattern M z x‖ ^ 2) := by
    unfold gridMean; positivity
  rw [Finset.sum_congr rfl (fun m hm => by rw [hzz m hm])]
  linarith

end

/-! ## C90: the cost is the sum of squares, up to a constant -/

section
variable (S : Sympy) (C : Compiler) {fform : FFormContainer} {F : Key → ℤ → Valuation → ℂ} {interp : Interp} {dat : DataContainer ℝ}

theorem squares_misfit (keys : List Key) (M : ℕ) (F : Key → ℤ → Valuation → ℂ) {N : Key → ℕ} (f : Key → ℝ → ℝ)
    (hN : ∀ k ∈ keys, 2 * M < N k) :
    ∃ R, 0 ≤ R ∧ ∀ r, squares keys M F N f r = misfit keys M F (fun k m => dft (N k) (f k) m) r + R := by
  refine ⟨(keys.map (fun k => gridMean (N k) (fun x => f k x ^ 2) -
    ∑ m ∈ Finset.Icc (-(M : ℤ)) M, ‖dft (N k) (f k) m‖ ^ 2)).sum, ?_, ?_⟩
  · refine List.sum_nonneg ?_
    intro a ha
    obtain ⟨k, hkk, rfl⟩ := List.mem_map.1 ha
    have h := residual (N k) M (hN k hkk) (f k) (fun m => dft (N k) (f k) m)
    rw [Finset.sum_eq_zero (fun m _ => by simp), zero_add] at h
    rw [← h]
    unfold gridMean; positivity
  · intro r
    unfold squares misfit
    rw [← List.sum_map_add]
    congr 1
    refine List.map_congr_left (fun k hkk => ?_)
    exact residual (N k) M (hN k hkk) (f k) (fun m => F k m (realVal r))

/-- C90.  Fitting Fourier data is fitting the values at equally spaced angles by least squares: the cost function for
`dat_to_fdat(dat, M)` differs from the sum of the mean squares of the deviations of the pattern from the interpolated values by a
number that does not depend on the parameters, if there are more than `2M` points per combination. -/
theorem C90_least_squares (d : Disk) (hd : dat.Reachable) (hc : fform.Reachable S) (hF : FormulaIs fform F)
    (hk : ∀ k ∈ fform.getKeys, k ∈ dat.getKeys) {f : Key → ℝ → ℝ} {N : Key → ℕ}
    (hi : ∀ k pts, dat.getPc k sRadians = .ok pts → 2 ≤ pts.length ∧ interp pts = .ok (f k) ∧ pts.length = N k)
    (hN : ∀ k ∈ fform.getKeys, 2 * fform.getM < N k) {fdat : FDataContainer} (hf : datToFdat interp dat fform.getM = .ok fdat)
    (hq : ∀ k m z, DRepresents fdat k m z → MachineNumber z)
    {arguments : Option (List Sym)} {l : List Sym} (hl : ArgumentOrder S fform arguments l)
    (chunk : Bool) (hne : chunk = true → fform.getKeys ≠ []) (save : Option Key) :
    ∃ cost d' R, genCostFunc S C d fform fdat arguments chunk save = .ok (cost, d') ∧ 0 ≤ R ∧
      (∀ r, squares fform.getKeys fform.getM F N f r = cost (l.map r) + R) ∧
      ∀ r r', cost (l.map r) ≤ cost (l.map r') ↔
        squares fform.getKeys fform.getM F N f r ≤ squares fform.getKeys fform.getM F N f r' := by
  obtain ⟨c', h1, _, _, h2, h3⟩ := C89_transform hd fform.getM (fun k pts h => ⟨(hi k pts h).1, (hi k pts h).2.1⟩)
  rw [hf] at h1; cases h1
  have hwf := (reachable_normalForm hd).1
  have hD : DataIs fform fdat (fun k m => dft (N k) (f k) m) := by
    intro k hkk m hm1 hm2
    obtain ⟨pts, hp⟩ := Dict.mem_keys.1 (hk k hkk)
    have hp' : dat.getPc k sRadians = .ok pts := by
      rw [getPc_radians, Dict.get_ok_iff]; exact (Dict.get?_eq_some_iff hwf).2 hp
    have := h3 k pts hp' m hm1 hm2
    rw [(hi k pts hp').2.2] at this
    exact ⟨this, hq _ _ _ this⟩
  obtain ⟨cost, d', g1, g2⟩ := C57_cost S C d hc hl h2 hF hD chunk hne save
  obtain ⟨R, hR, hsq⟩ := squares_misfit fform.getKeys fform.getM F f hN
  have hsq' : ∀ r, squares fform.getKeys fform.getM F N f r = cost (l.map r) + R := fun r => by rw [g2, hsq]
  exact ⟨cost, d', R, g1, hR, hsq', fun r r' => by rw [hsq', hsq']; simp⟩

theorem sqrt_misfit (keys : List Key) (M : ℕ) (F : Key → ℤ → Valuation → ℂ) {D D' : Key → ℤ → ℂ} {ε : ℝ} (hε : 0 ≤ ε)
    (h : ∀ k ∈ keys, ∀ m : ℤ, -(M : ℤ) ≤ m → m ≤ M → ‖D k m - D' k m‖ ≤ ε) (r : Sym → ℝ) :
    |√(misfit keys M F D r) - √(misfit keys M F D' r)| ≤ ε * √(keys.length * (2 * M + 1)) := by
  let v : (Key → ℤ → ℂ) → EuclideanSpace ℂ (Fin keys.length × Finset.Icc (-(M : ℤ)) M) :=
    fun D => WithLp.toLp 2 (fun i => F keys[i.1] i.2 (realVal r) - D keys[i.1] i.2)
  have hv : ∀ D, √(misfit keys M F D r) = ‖v D‖ := by
    intro D
    rw [EuclideanSpace.norm_eq]
    congr 1
    unfold misfit
    simp only [v, Fintype.sum_prod_type]
    rw [← Fin.sum_univ_fun_getElem keys (fun k => ∑ m ∈ Finset.Icc (-(M : ℤ)) M, ‖F k m (realVal r) - D k m‖ ^ 2)]
    refine Finset.sum_congr rfl (fun i _ => ?_)
    exact (Finset.sum_coe_sort (Finset.Icc (-(M : ℤ)) M) (fun m => ‖F keys[i] m (realVal r) - D keys[i] m‖ ^ 2)).symm
  rw [hv, hv]
  refine (abs_norm_sub_norm_le _ _).trans ?_
  rw [EuclideanSpace.norm_eq]
  have hb : ∑ i, ‖(v D - v D') i‖ ^ 2 ≤ ε ^ 2 * (keys.length * (2 * M + 1)) := by
    calc ∑ i, ‖(v D - v D') i‖ ^ 2 ≤ ∑ _i : Fin keys.length × Finset.Icc (-(M : ℤ)) M, ε ^ 2 := by
          refine Finset.sum_le_sum (fun i _ => ?_)
          have hi := Finset.mem_Icc.1 i.2.2
          have := h keys[i.1] (List.getElem_mem _) i.2 hi.1 hi.2
          have e : (v D - v D') i = -(D keys[i.1] i.2 - D' keys[i.1] i.2) := by simp [v]
          rw [e, norm_neg]
          exact pow_le_pow_left₀ (norm_nonneg _) this 2
      _ = ε ^ 2 * (keys.length * (2 * M + 1)) := by
          rw [Finset.sum_const, Finset.card_univ, Fintype.card_prod, Fintype.card_fin, Fintype.card_coe, Int.card_Icc, nsmul_eq_mul]
          have : ((M : ℤ) + 1 - -(M : ℤ)).toNat = 2 * M + 1 := by omega
          rw [this]
          push_cast
          ring
  calc √(∑ i, ‖(v D - v D') i‖ ^ 2) ≤ √(ε ^ 2 * (keys.length * (2 * M + 1))) := Real.sqrt_le_sqrt hb
    _ = ε * √(keys.length * (2 * M + 1)) := by rw [Real.sqrt_mul (by positivity), Real.sqrt_sq hε]

/-- C90.  With rounding: if the components of the Fourier data that the fit gets are machine numbers within `ε` of the exact
ones, the root of the cost is within `ε √(n (2M + 1))`, for `n` combinations, of the root of the sum of squares less its
constant. -/
theorem C90_rounded (d : Disk) (hd : dat.Reachable) (hc : fform.Reachable S) (hF : FormulaIs fform F)
    (hk : ∀ k ∈ fform.getKeys, k ∈ dat.getKeys) {f : Key → ℝ → ℝ} {N : Key → ℕ}
    (hi : ∀ k pts, dat.getPc k sRadians = .ok pts → 2 ≤ pts.length ∧ interp pts = .ok (f k) ∧ pts.length = N k)
    (hN : ∀ k ∈ fform.getKeys, 2 * fform.getM < N k) {exact : FDataContainer} (hf : datToFdat interp dat fform.getM = .ok exact)
    {fdat : FDataContainer} (hM : fdat.getM = fform.getM) {D : Key → ℤ → ℂ} (hD : DataIs fform fdat D) {ε : ℝ} (hε : 0 ≤ ε)
    (hr : ∀ k ∈ fform.getKeys, ∀ m z, DRepresents exact k m z → ‖D k m - z‖ ≤ ε)
    {arguments : Option (List Sym)} {l : List Sym} (hl : ArgumentOrder S fform arguments l)
    (chunk : Bool) (hne : chunk = true → fform.getKeys ≠ []) (save : Option Key) :
    ∃ cost d' R, genCostFunc S C d fform fdat arguments chunk save = .ok (cost, d') ∧ 0 ≤ R ∧
      ∀ r, R ≤ squares fform.getKeys fform.getM F N f r ∧
        |√(cost (l.map r)) - √(squares fform.getKeys fform.getM F N f r - R)| ≤
          ε * √(fform.getKeys.length * (2 * fform.getM + 1)) := by
  obtain ⟨c', h1, _, _, _, h3⟩ := C89_transform hd fform.getM (fun k pts h => ⟨(hi k pts h).1, (hi k pts h).2.1⟩)
  rw [hf] at h1; cases h1
  have hwf := (reachable_normalForm hd).1
  have hclose : ∀ k ∈ fform.getKeys, ∀ m : ℤ, -(fform.getM : ℤ) ≤ m → m ≤ fform.getM → ‖D k m - dft (N k) (f k) m‖ ≤ ε := by
    intro k hkk m hm1 hm2
    obtain ⟨pts, hp⟩ := Dict.mem_keys.1 (hk k hkk)
    have hp' : dat.getPc k sRadians = .ok pts := by
      rw [getPc_radians, Dict.get_ok_iff]; exact (Dict.get?_eq_some_iff hwf).2 hp
    have := h3 k pts hp' m hm1 hm2
    rw [(hi k pts hp').2.2] at this
    exact hr k hkk m _ this
  obtain ⟨cost, d', g1, g2⟩ := C57_cost S C d hc hl hM hF hD chunk hne save
  obtain ⟨R, hR, hsq⟩ := squares_misfit fform.getKeys fform.getM F f hN
  refine ⟨cost, d', R, g1, hR, fun r => ⟨?_, ?_⟩⟩
  · rw [hsq]
    have := (C57_zero_iff fform.getKeys fform.getM F (fun k m => dft (N k) (f k) m) r).1
    linarith
  · rw [hsq, add_sub_cancel_right, g2]
    exact sqrt_misfit fform.getKeys fform.getM F hε hclose r

end

/-! ## A concrete case -/


theorem dft_pulse (m : ℤ) : dft 4 (fun x => if x = 0 then 1 else 0) m = 1 / 4 := by
  unfold dft
  rw [Finset.sum_eq_single 0]
  · simp [gridAngle]
  · intro j _ hj
    have : gridAngle 4 j ≠ 0 := by
      unfold gridAngle
      have := Real.pi_pos
      have : (0 : ℝ) < j := by exact_mod_cast Nat.pos_of_ne_zero hj
      positivity
    simp [this]
  · intro h; simp at h

/-- The interpolation for the example: the pulse itself. -/
noncomputable def pulseInterp : Interp := fun _ => .ok (fun x => if x = 0 then 1 else 0)

theorem pulse_interp : ∀ k pts, pulse.getPc k sRadians = .ok pts →
    2 ≤ pts.length ∧ pulseInterp pts = .ok (fun x => if x = 0 then 1 else 0) ∧ pts.length = 4 := by
  intro k pts hk
  rw [getPc_radians, Dict.get_ok_iff] at hk
  have := Dict.mem_of_get? hk
  simp only [pulse, List.mem_singleton, Prod.mk.injEq] at this
  rw [this.2]
  simp [sampled, pulseInterp]

/-- The hypotheses of `C89_transform` and `C90_least_squares` are met: four points, the formula `b, a, b` with three components. -/
example (d : Disk) : ∃ fdat cost d' R, datToFdat pulseInterp pulse FitCases.formula.getM = .ok fdat ∧
    genCostFunc Sympy.plain FitCases.compiler d FitCases.formula fdat none false none = .ok (cost, d') ∧ 0 ≤ R ∧
    ∀ r, squares FitCases.formula.getKeys 1 FitCases.F (fun _ => 4) (fun _ x => if x = 0 then 1 else 0) r =
      cost ([FitCases.symA, FitCases.symB].map r) + R := by
  obtain ⟨fdat, h1, h2, h3, h4, h5⟩ := C89_transform (interp := pulseInterp) (f := fun _ x => if x = 0 then 1 else 0)
    pulse_reachable FitCases.formula.getM (fun k pts h => ⟨(pulse_interp k pts h).1, (pulse_interp k pts h).2.1⟩)
  have hq : ∀ k m z, DRepresents fdat k m z → MachineNumber z := by
    rintro k m z ⟨v, e1, e2⟩
    have hk : k ∈ pulse.getKeys := by
      rw [← h3]; exact Dict.mem_keys_of_mem (Dict.mem_of_get? (Dict.get_ok_iff.1 e1))
    have hk' : k = kPP := by simpa [pulse, DataContainer.getKeys, Dict.keys] using hk
    subst hk'
    rw [h4] at e2
    obtain ⟨v', e3, e4⟩ := h5 kPP _ rfl m e2.1.1 e2.1.2
    rw [e1] at e3; cases e3
    rw [h4] at e4
    have := Option.some.inj (e2.2.symm.trans e4.2)
    rw [this]
    have h4' : (sampled 4 (fun x => if x = 0 then (1 : ℝ) else 0)).length = 4 := by simp [sampled]
    rw [h4', dft_pulse]
    exact ⟨1 / 4, 0, by push_cast; ring⟩
  obtain ⟨cost, d', R, g1, g2, g3, _⟩ := C90_least_squares Sympy.plain FitCases.compiler d pulse_reachable
    FitCases.formula_reachable FitCases.formulaIs (interp := pulseInterp) (f := fun _ x => if x = 0 then 1 else 0) (N := fun _ => 4)
    (by
      intro k hk
      have : k = kPP := by simpa [FitCases.formula, FFormContainer.getKeys, Dict.keys] using hk
      rw [this]; simp [pulse, DataContainer.getKeys, Dict.keys])
    pulse_interp (fun k _ => by decide) h1 hq (Or.inr ⟨rfl, FitCases.free_symbols⟩) false (by simp) none
  exact ⟨fdat, cost, d', R, h1, g1, g2, g3⟩

/-- The hypotheses of `C90_rounded` are met: data with the components 1, 2, 1, where the exact ones are all 1/4. -/
example (d : Disk) : ∃ cost d' R, genCostFunc Sympy.plain FitCases.compiler d FitCases.formula FitCases.data none false none = .ok (cost, d') ∧
    0 ≤ R ∧ ∀ r, R ≤ squares FitCases.formula.getKeys 1 FitCases.F (fun _ => 4) (fun _ x => if x = 0 then 1 else 0) r ∧
      |√(cost ([FitCases.symA, FitCases.symB].map r)) -
        √(squares FitCases.formula.getKeys 1 FitCases.F (fun _ => 4) (fun _ x => if x = 0 then 1 else 0) r - R)| ≤
          (7 / 4) * √(FitCases.formula.getKeys.length * (2 * (1 : ℕ) + 1)) := by
  obtain ⟨fdat, h1, h2, h3, h4, h5⟩ := C89_transform (interp := pulseInterp) (f := fun _ x => if x = 0 then 1 else 0)
    pulse_reachable FitCases.formula.getM (fun k pts h => ⟨(pulse_interp k pts h).1, (pulse_interp k pts h).2.1⟩)
  refine C90_rounded Sympy.plain FitCases.compiler d pulse_reachable
    FitCases.formula_reachable FitCases.formulaIs (interp := pulseInterp) (f := fun _ x => if x = 0 then 1 else 0) (N := fun _ => 4)
    (by
      intro k hk
      have : k = kPP := by simpa [FitCases.formula, FFormContainer.getKeys, Dict.keys] using hk
      rw [this]; simp [pulse, DataContainer.getKeys, Dict.keys])
    pulse_interp (fun k _ => by decide) h1 rfl FitCases.dataIs (by norm_num) ?_ (Or.inr ⟨rfl, FitCases.free_symbols⟩) false (by simp) none
  rintro k hk m z ⟨v, e1, e2⟩
  have hk' : k = kPP := by simpa [FitCases.formula, FFormContainer.getKeys, Dict.keys] using hk
  subst hk'
  rw [h4] at e2
  obtain ⟨v', e3, e4⟩ := h5 kPP _ rfl m e2.1.1 e2.1.2
  rw [e1] at e3; cases e3
  rw [h4] at e4
  have := Option.some.inj (e2.2.symm.trans e4.2)
  rw [this]
  have h4' : (sampled 4 (fun x => if x = 0 then (1 : ℝ) else 0)).length = 4 := by simp [sampled]
  rw [h4', dft_pulse]
  unfold FitCases.D
  split
  · rw [show (2 : ℂ) - 1 / 4 = ((7 / 4 : ℝ) : ℂ) by push_cast; norm_num, Complex.norm_real, Real.norm_of_nonneg (by norm_num)]
  · rw [show (1 : ℂ) - 1 / 4 = ((3 / 4 : ℝ) : ℂ) by push_cast; norm_num, Complex.norm_real, Real.norm_of_nonneg (by norm_num)]
    norm_num

end Shgpy
