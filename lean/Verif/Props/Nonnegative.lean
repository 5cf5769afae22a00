import Verif.Props.ModelExample

/-!
# C127: Fourier formulas are those of intensities
-/

namespace Shgpy
open Spec
open scoped ComplexConjugate

/-- The mean of a nonnegative pattern bounds its Fourier components. -/
theorem coeff_nonneg {f : ℝ → ℝ} (h0 : ∀ x, 0 ≤ f x) : ∃ a : ℝ, 0 ≤ a ∧ integralCoeff (fun x => (f x : ℂ)) 0 = (a : ℂ) ∧
    ∀ n, ‖integralCoeff (fun x => (f x : ℂ)) n‖ ≤ a := by
  have hpi : (0 : ℝ) ≤ 2 * Real.pi := by positivity
  refine ⟨1 / (2 * Real.pi) * ∫ x in (0 : ℝ)..(2 * Real.pi), f x, ?_, ?_, fun n => ?_⟩
  · exact mul_nonneg (by positivity) (intervalIntegral.integral_nonneg hpi (fun x _ => h0 x))
  · unfold integralCoeff
    push_cast
    congr 1
    rw [← intervalIntegral.integral_ofReal]
    congr 1
    funext x
    simp
  · unfold integralCoeff
    rw [norm_mul]
    have e1 : ‖(1 / (2 * (Real.pi : ℂ)))‖ = 1 / (2 * Real.pi) := by
      rw [norm_div, norm_one, norm_mul]
      simp [abs_of_pos Real.pi_pos]
    rw [e1]
    refine mul_le_mul_of_nonneg_left ((intervalIntegral.norm_integral_le_integral_norm hpi).trans (le_of_eq ?_)) (by positivity)
    congr 1
    funext x
    rw [norm_mul, Complex.norm_real, Real.norm_of_nonneg (h0 x)]
    have : ‖Complex.exp (-(Complex.I * (n * x)))‖ = 1 := by
      rw [show -(Complex.I * (n * x)) = ((-(n * x) : ℝ) : ℂ) * Complex.I by push_cast; ring]
      exact Complex.norm_exp_ofReal_mul_I _
    rw [this, mul_one]

/-- A nonnegative pattern exceeds its mean at most by the number of its harmonics. -/
theorem nonnegative_le {d : ℕ} {f : ℝ → ℝ} (h : TrigDegree d (fun x => (f x : ℂ))) {a : ℝ}
    (ha : ∀ n, ‖integralCoeff (fun x => (f x : ℂ)) n‖ ≤ a) (x : ℝ) : f x ≤ (2 * d + 1) * a := by
  have h1 := TrigDegree.series h x
  have h2 : ‖((f x : ℝ) : ℂ)‖ ≤ ∑ m ∈ Finset.Icc (-(d : ℤ)) d, a := by
    rw [h1]
    refine (norm_sum_le _ _).trans (Finset.sum_le_sum (fun m _ => ?_))
    rw [norm_mul]
    have : ‖harmonic m x‖ = 1 := by
      unfold harmonic
      rw [show Complex.I * (m * x) = ((m * x : ℝ) : ℂ) * Complex.I by push_cast; ring]
      exact Complex.norm_exp_ofReal_mul_I _
    rw [this, mul_one]
    exact ha m
  rw [Complex.norm_real, Finset.sum_const, Int.card_Icc, nsmul_eq_mul] at h2
  have h3 : ((((d : ℤ) + 1 - -(d : ℤ)).toNat : ℕ) : ℝ) = 2 * d + 1 := by
    have : ((d : ℤ) + 1 - -(d : ℤ)).toNat = 2 * d + 1 := by omega
    rw [this]; push_cast; ring
  rw [h3] at h2
  exact (le_abs_self _).trans h2

/-- The sum of the components up to a frequency that is high enough. -/
theorem pattern_series {d M : ℕ} (hd : d ≤ M) {f : ℝ → ℂ} (h : TrigDegree d f) (x : ℝ) :
    pattern M (integralCoeff f) x = f x := by
  rw [TrigDegree.series h x]
  unfold pattern
  symm
  refine Finset.sum_subset (Finset.Icc_subset_Icc (by omega) (by omega)) (fun m _ hm => ?_)
  rw [TrigDegree.coeff_zero h, zero_mul]
  rw [Finset.mem_Icc] at hm
  by_contra hc
  exact hm (abs_le.1 (not_lt.1 hc))

theorem intensity_nonneg (X : Crystal) (θ φ : ℝ) (p q : Pol) : 0 ≤ intensity X θ φ p q := by
  unfold intensity outIntensity
  cases q
  · exact add_nonneg (Complex.normSq_nonneg _) (Complex.normSq_nonneg _)
  · exact Complex.normSq_nonneg _

variable {S : Sympy} {ex : Rewriting} {R : Repr} {theta : Expr} {eee qee : Option (Nd Expr)} {c : FFormContainer}

/-- Fourier formulas hold expressions. -/
theorem fourierFormulas_symbolic (h : FourierFormulas S ex R theta eee qee c) : Symbolic c := by
  cases h with
  | easy hf hs hth hθ hc =>
    obtain ⟨g, _, hn, _⟩ := formToFform_symbols S (formgen_reachable S ex hf).wf hc
    exact (FFormContainer.symbolic_iff g).2 hn
  | hard hh =>
    cases hh with
    | num _ _ h => exact (loaded_symbolic h).2.2
    | symb _ _ h => exact (loaded_symbolic h).2.2

/-- **C127, components.**  The components of the Fourier formulas of a crystal, for all real values of the parameters: those of
opposite frequencies are conjugate to each other; that of frequency zero is real, not negative, and not smaller than the modulus of
any other; their sum is, at every angle, real, not negative, and at most 17 times (13 times without quadrupole) the component of
frequency zero. -/
theorem C127_components (hc : FourierFormulas S ex R theta eee qee c) (hv : ValidTensors eee none qee)
    (hphi : ¬ OccursInSome eee none qee phi) (p q : Pol) :
    ∃ f : ℤ → (Sym → ℝ) → ℂ, (∀ m, -16 ≤ m ∧ m ≤ 16 → RealComponent c (combo p q) m (f m)) ∧
      ∀ r, (∀ m, f (-m) r = conj (f m r)) ∧ (f 0 r).im = 0 ∧ 0 ≤ (f 0 r).re ∧ (∀ m, ‖f m r‖ ≤ (f 0 r).re) ∧
        ∀ x, (pattern 16 (fun m => f m r) x).im = 0 ∧ 0 ≤ (pattern 16 (fun m => f m r) x).re ∧
          (pattern 16 (fun m => f m r) x).re ≤ 17 * (f 0 r).re ∧
          (qee = none → (pattern 16 (fun m => f m r) x).re ≤ 13 * (f 0 r).re) := by
  obtain ⟨_, θ, β, _, h⟩ := fourier_components S ex R hc hv hphi
  refine ⟨_, fun m hm => h p q m hm, fun r => ?_⟩
  have hd : TrigDegree 8 (fun x => ((intensity (crystalOf eee none qee (realVal r)) (θ r) (x + β) p q : ℝ) : ℂ)) :=
    degree_shift (intensity_degree _ _ p q) β
  obtain ⟨a, h0, h1, h2⟩ := coeff_nonneg
    (f := fun x => intensity (crystalOf eee none qee (realVal r)) (θ r) (x + β) p q) (fun x => intensity_nonneg _ _ _ _ _)
  refine ⟨fun m => (coeff_conj hd m).symm, by rw [h1]; simp, by rw [h1]; simpa using h0, fun m => by rw [h1]; simpa using h2 m,
    fun x => ?_⟩
  rw [show (fun m => integralCoeff (fun x => ((intensity (crystalOf eee none qee (realVal r)) (θ r) (x + β) p q : ℝ) : ℂ)) m) =
    integralCoeff (fun x => ((intensity (crystalOf eee none qee (realVal r)) (θ r) (x + β) p q : ℝ) : ℂ)) from rfl,
    pattern_series (by norm_num) hd, h1]
  refine ⟨by simp, by simpa using intensity_nonneg _ _ _ _ _, ?_, fun hq => ?_⟩
  · have := nonnegative_le hd h2 x
    simp only [Complex.ofReal_re]
    norm_num at this ⊢
    exact this
  · subst hq
    have hd6 : TrigDegree 6 (fun x => ((intensity (crystalOf eee none none (realVal r)) (θ r) (x + β) p q : ℝ) : ℂ)) :=
      degree_shift (intensity_degree_dipole _ rfl _ p q) β
    have := nonnegative_le hd6 h2 x
    simp only [Complex.ofReal_re]
    norm_num at this ⊢
    exact this

theorem formula_value {F : Key → ℤ → Valuation → ℂ} (hF : FormulaIs c F) {k : Key} (hk : k ∈ c.getKeys) {m : ℤ}
    (hm : -(c.getM : ℤ) ≤ m ∧ m ≤ c.getM) {f : (Sym → ℝ) → ℂ} (h : RealComponent c k m f) (r : Sym → ℝ) : F k m (realVal r) = f r := by
  obtain ⟨a, o, h1, h2, h3⟩ := hF k hk m hm.1 hm.2
  obtain ⟨a', o', g1, g2, g3⟩ := h
  rw [h1] at g1; cases g1
  have := Option.some.inj (h2.2.symm.trans g2.2)
  rw [← h3, ← g3, this]

/-- **C127, curves.**  A curve drawn from the Fourier formulas of a crystal with `fform_to_dat` has no negative values. -/
theorem C127_curve (hc : FourierFormulas S ex R theta eee qee c) (hv : ValidTensors eee none qee)
    (hphi : ¬ OccursInSome eee none qee phi) {subs : Dict Sym Expr} {r : Sym → ℝ} (hs : Values c subs r) {n : ℕ} (h1 : 1 ≤ n) :
    ∃ dat, fformToDat S c subs n = .ok (dat, []) ∧ dat.getKeys = c.getKeys ∧ ∀ k ∈ c.getKeys, ∃ pts,
      dat.getPc k sRadians = .ok pts ∧ pts.length = n ∧ ∀ pt ∈ pts, 0 ≤ pt.2 := by
  have hr := fourierFormulas_reachable S ex R hc
  obtain ⟨hk, hM, _⟩ := fourier_components_angle S ex R hc hv hphi
  obtain ⟨F, hF⟩ := formulaIs_exists S hr
  obtain ⟨dat, d1, d2, d3⟩ := C103_curve S hr (fourierFormulas_symbolic hc) hM hF hs h1
  refine ⟨dat, d1, d2, fun k hkk => ⟨_, d3 k hkk, by simp [sampled], ?_⟩⟩
  obtain ⟨p, q, rfl⟩ : ∃ p q, k = combo p q := by
    rw [hk] at hkk
    simp only [List.mem_cons, List.not_mem_nil, or_false] at hkk
    rcases hkk with h | h | h | h <;> exact ⟨_, _, h⟩
  obtain ⟨f, f1, f2⟩ := C127_components hc hv hphi p q
  intro pt hpt
  unfold sampled at hpt
  obtain ⟨j, _, rfl⟩ := List.mem_map.1 hpt
  have hp : ∀ x, pattern 16 (fun m => F (combo p q) m (realVal r)) x = pattern 16 (fun m => f m r) x := by
    intro x
    unfold pattern
    refine Finset.sum_congr rfl (fun m hm => ?_)
    rw [Finset.mem_Icc] at hm
    dsimp only
    rw [formula_value hF hkk (by rw [hM]; exact hm) (f1 m (by simpa using hm))]
  simp only [hp]
  exact ((f2 r).2.2.2.2 _).2.1

/-- **C127, sampling.**  Data simulated with `fform_to_dat`, with at least 33 points, and transformed as measured data are, have the
same Fourier components as the data that `fform_to_fdat` gives directly. -/
theorem C127_sampled (hc : FourierFormulas S ex R theta eee qee c) (hv : ValidTensors eee none qee)
    (hphi : ¬ OccursInSome eee none qee phi) {subs : Dict Sym Expr} {r : Sym → ℝ} (hs : Values c subs r) {N : ℕ} (hN : 33 ≤ N)
    {interp : Interp}
    (hi : ∀ dat w, fformToDat S c subs N = .ok (dat, w) → ∀ k pts, dat.getPc k sRadians = .ok pts → Reproduces interp pts) :
    ∃ dat fdat fdat', fformToDat S c subs N = .ok (dat, []) ∧ datToFdat interp dat 16 = .ok fdat ∧ fformToFdat S c subs = .ok fdat' ∧
      fdat.getKeys = fdat'.getKeys ∧ ∀ k, fdat.getPc k = fdat'.getPc k := by
  have hr := fourierFormulas_reachable S ex R hc
  obtain ⟨hk, hM, _⟩ := fourier_components_angle S ex R hc hv hphi
  obtain ⟨F, hF⟩ := formulaIs_exists S hr
  have hM' : (c.getM : ℤ) = 16 := by rw [hM]; rfl
  obtain ⟨fd, h1, hcr, hck, h3, h2⟩ := C29_values S hr (fourierFormulas_symbolic hc) hM hs.numeric hs.covers
  obtain ⟨dat, k1, k2, k3⟩ := C20_inverse_sampling hcr (N := N) (by omega)
  have hfd : fformToDat S c subs N = .ok (dat, []) := by
    unfold fformToDat
    rw [h1]
    exact k1
  obtain ⟨dat', fdat, a1, a2, a3, a4⟩ := C21_real_round_trip hcr (N := N) (interp := interp) (by omega) (by rw [h3]; omega)
    (fun k v hkv => hi dat [] hfd k _ (k3 k v hkv)) (fun k v m z z' hkv hz hz' => by
      have hkk : k ∈ c.getKeys := by rw [← hck]; exact Dict.mem_keys_of_mem (Dict.mem_of_get? (Dict.get_ok_iff.1 hkv))
      rw [h3] at hz hz'
      have hm := hz.1
      obtain ⟨v1, e1, e2⟩ := h2 _ hs.agrees k m _ (hF k hkk m (by omega) (by omega))
      obtain ⟨v2, e3, e4⟩ := h2 _ hs.agrees k (-m) _ (hF k hkk (-m) (by omega) (by omega))
      rw [hkv] at e1 e3; cases e1; cases e3
      rw [Option.some.inj (hz.2.symm.trans e2.2), Option.some.inj (hz'.2.symm.trans e4.2)]
      obtain ⟨p, q, rfl⟩ : ∃ p q, k = combo p q := by
        rw [hk] at hkk
        simp only [List.mem_cons, List.not_mem_nil, or_false] at hkk
        rcases hkk with h | h | h | h <;> exact ⟨_, _, h⟩
      obtain ⟨f, f1, f2⟩ := C127_components hc hv hphi p q
      rw [formula_value hF hkk ⟨by omega, by omega⟩ (f1 m (by omega)), formula_value hF hkk ⟨by omega, by omega⟩ (f1 (-m) (by omega))]
      exact (f2 r).1 m)
  rw [a1] at k1; cases k1
  exact ⟨dat, fdat, fd, hfd, by rw [h3] at a2; exact a2, h1, a3, a4⟩

/-- For every Fourier formula there are dictionaries with values of its parameters; here all are 3. -/
theorem threes (h : FourierFormulas S ex R theta eee qee c) : ∃ subs, Values c subs (fun _ => 3) := by
  obtain ⟨l, _, _, _, hl⟩ := (C31_fform_free_symbols S (fourierFormulas_reachable S ex R h)).1 (fourierFormulas_symbolic h)
  have hget : ∀ s v, Dict.get (l.map (fun s => (s, Expr.num 3))) s = .ok v → v = .num 3 := by
    intro s v hv
    have := Dict.mem_of_get? (Dict.get_ok_iff.1 hv)
    obtain ⟨_, _, e⟩ := List.mem_map.1 this
    cases e; rfl
  refine ⟨l.map (fun s => (s, .num 3)), ⟨?_, fun s hs => ?_, fun s v hv => ?_⟩⟩
  · intro p hp
    obtain ⟨s, _, rfl⟩ := List.mem_map.1 hp
    rfl
  · rw [Dict.mem_keys]
    exact ⟨.num 3, List.mem_map.2 ⟨s, (hl s).2 hs, rfl⟩⟩
  · rw [hget s v hv]
    simp [realVal, Expr.eval]

/-- The hypotheses of the theorems are met, in both ways, by tensors from the tables. -/
example : ∃ tD tQ easy hard subs subs', ValidTensors (some tD) none (some tQ) ∧ ¬ OccursInSome (some tD) none (some tQ) phi ∧
    FourierFormulas expandingSympy expanding exRepr (.num (1 / 2)) (some tD) (some tQ) easy ∧ Values easy subs (fun _ => 3) ∧
    FourierFormulas expandingSympy expanding exRepr (.num (1 / 2)) (some tD) (some tQ) hard ∧ Values hard subs' (fun _ => 3) := by
  obtain ⟨tD, tQ, _, _, h⟩ := sample_fourfold expandingSympy
  obtain ⟨hv, hphi, _⟩ := tabulated_facts h (by simp)
  have hs := C67_expanding (theta := .num (1 / 2)) hv hphi (by simp [Expr.free])
  obtain ⟨easy, ⟨form, hf, he⟩, _⟩ := C67_easy_way expandingSympy expanding hv hphi (by simp [Expr.free])
    (θ := fun _ => ((1 / 2 : ℚ) : ℝ)) (fun r => by simp [Expr.eval]) hs
  obtain ⟨nfs', fs', g1, g2, _, hard, g3, _⟩ :=
    C52_components expandingSympy exRepr (fun _ => none) (fun _ => none) ['f'] ['s'] (1 / 2) hv
  have h1 : FourierFormulas expandingSympy expanding exRepr (.num (1 / 2)) _ _ easy :=
    .easy hf (hs form hf) (by simp [Expr.free]) (fun r => ⟨((1 / 2 : ℚ) : ℝ), by simp [Expr.eval]⟩) he
  have h2 : FourierFormulas expandingSympy expanding exRepr (.num (1 / 2)) _ _ hard := .hard (.num g1 g2 g3)
  obtain ⟨s1, hs1⟩ := threes h1
  obtain ⟨s2, hs2⟩ := threes h2
  exact ⟨_, _, easy, hard, s1, s2, hv, hphi, h1, hs1, h2, hs2⟩

/-- An interpolation that passes through the samples. -/
example (dat : DataContainer ℝ) {N : ℕ} (hN : 1 ≤ N) (h : ∀ k pts, dat.getPc k sRadians = .ok pts → ∃ y, pts = sampled N y) :
    ∀ k pts, dat.getPc k sRadians = .ok pts → Reproduces lookupInterp pts := by
  intro k pts hp
  obtain ⟨y, rfl⟩ := h k pts hp
  exact lookupInterp_reproduces (sampled_nodup (by omega) y)

end Shgpy
