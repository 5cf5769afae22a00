import Verif.Proofs.Selection

/-!
# Properties of patterns of crystals from the tables: C82
-/

set_option linter.unusedSectionVars false
set_option linter.unusedSimpArgs false

namespace Shgpy
open Spec
open scoped ComplexConjugate

theorem coeff_conj {d : ℕ} {f : ℝ → ℝ} (h : TrigDegree d (fun x => (f x : ℂ))) (n : ℤ) :
    conj (integralCoeff (fun x => (f x : ℂ)) n) = integralCoeff (fun x => (f x : ℂ)) (-n) := by
  have h1 : ∀ x, (f (-x) : ℂ) = ∑ m ∈ Finset.Icc (-(d : ℤ)) d, conj (integralCoeff (fun x => (f x : ℂ)) m) * harmonic m x := by
    intro x
    have := TrigDegree.series h (-x)
    rw [← Complex.conj_ofReal, this, map_sum]
    refine Finset.sum_congr rfl (fun m _ => ?_)
    rw [map_mul]
    congr 1
    unfold harmonic
    rw [← Complex.exp_conj]
    congr 1
    simp
  have h2 := coeff_of_series (f := fun x => (f (-x) : ℂ)) h1 n
  have h3 := coeff_neg h n
  rw [h3] at h2
  rw [h2]
  split_ifs with hn
  · rfl
  · rw [TrigDegree.coeff_zero h, map_zero]
    rw [Finset.mem_Icc] at hn
    by_contra hc
    exact hn (abs_le.1 (not_lt.1 hc))

theorem coeff_even {d : ℕ} {f : ℝ → ℝ} (h : TrigDegree d (fun x => (f x : ℂ))) (he : ∀ x, f (-x) = f x) (n : ℤ) :
    integralCoeff (fun x => (f x : ℂ)) n = ((integralCoeff (fun x => (f x : ℂ)) n).re : ℂ) ∧
      integralCoeff (fun x => (f x : ℂ)) (-n) = ((integralCoeff (fun x => (f x : ℂ)) n).re : ℂ) := by
  have h1 := coeff_neg h n
  simp only [he] at h1
  have h2 : ((integralCoeff (fun x => (f x : ℂ)) n).re : ℂ) = integralCoeff (fun x => (f x : ℂ)) n := by
    refine Complex.conj_eq_iff_re.1 ?_
    rw [coeff_conj h, ← h1]
  exact ⟨h2.symm, by rw [← h1, h2]⟩

theorem degree_shift {d : ℕ} {f : ℝ → ℂ} (h : TrigDegree d f) (β : ℝ) : TrigDegree d (fun x => f (x + β)) := by
  obtain ⟨c, hc⟩ := h
  refine ⟨fun n => c n * harmonic n β, fun x => ?_⟩
  dsimp only
  rw [hc]
  refine Finset.sum_congr rfl (fun n _ => ?_)
  rw [harmonic_shift]
  ring

theorem intensity_period (X : Crystal) (θ φ : ℝ) (p q : Pol) : intensity X θ (φ + 2 * Real.pi) p q = intensity X θ φ p q := by
  have : rotZ (φ + 2 * Real.pi) = rotZ φ := by
    funext i j
    fin_cases i <;> fin_cases j <;> simp [rotZ]
  simp only [intensity, radiated, Crystal.turned, this]

section
variable (S : Sympy) (ex : Rewriting) (R : Repr)

/-! ## C82: formulas -/

/-- C82, rotations.  If the rotation by `α` about the surface normal belongs to the point groups of the tabulated tensors,
`formgen` accepts them and the formulas are unchanged when `phi` is increased by `α`. -/
theorem C82_rotation {theta : Expr} {α : ℝ} {eee qee : Option (Nd Expr)} (h : Tabulated S (PG.rotZ α) eee qee)
    (hg : ¬ (eee = none ∧ qee = none)) (hth : phi ∉ theta.free) :
    ∃ c, formgen S ex theta eee none qee = .ok c ∧ ∀ (r : Sym → ℝ) (θ : ℝ), theta.eval (realVal r) = (θ : ℂ) →
      ∀ p q, Related c c r (withPhi r (r phi + α)) p q p q (· = ·) := by
  obtain ⟨hv, hphi, hinv⟩ := tabulated_facts h hg
  obtain ⟨c, hc, _⟩ := formgen_ok S ex (theta := theta) hv
  refine ⟨c, hc, fun r θ hθ p q => C45_periodic S ex hv hphi hth hc r θ α hθ ?_ p q⟩
  rw [← transformed_rotZ]
  exact hinv _

/-- The intensities of a crystal (without magnetic dipole) with a mirror plane that contains the normal. -/
theorem intensity_mirror_plane {X : Crystal} (hm : X.mee = 0) {β : ℝ}
    (hinv : transformedCrystal (opM (PG.rotZ β * PG.mirrorY)) X = X) (θ φ : ℝ) (p q : Pol) :
    intensity X θ φ p q = intensity X θ (-φ - β) p q := by
  have hop : opM (PG.rotZ β * PG.mirrorY) = mulM (rotZ β) (opM PG.mirrorY) := by
    rw [← opM_rotZ]
    funext i j
    simp [opM, mulM, Matrix.mul_apply]
  have h1 : transformedCrystal (opM (PG.rotZ β * PG.mirrorY)) X = (transformedCrystal (opM PG.mirrorY) X).turned β := by
    simp only [transformedCrystal, Crystal.turned, rot3_comp, rot4_comp, hop]
  conv_lhs => rw [← hinv, h1, intensity_turned, intensity_mirrored _ hm]
  congr 1
  ring

/-- C82, mirrors.  The same for a mirror plane that contains the normal: the operation `rotZ β * mirrorY` is the reflection at the
plane that contains `z` and makes the angle `β/2` with the `x` axis; the formulas are unchanged when `phi` is replaced by
`-phi - β`. -/
theorem C82_mirror {theta : Expr} {β : ℝ} {eee qee : Option (Nd Expr)} (h : Tabulated S (PG.rotZ β * PG.mirrorY) eee qee)
    (hg : ¬ (eee = none ∧ qee = none)) (hth : phi ∉ theta.free) :
    ∃ c, formgen S ex theta eee none qee = .ok c ∧ ∀ (r : Sym → ℝ) (θ : ℝ), theta.eval (realVal r) = (θ : ℂ) →
      ∀ p q, Related c c r (withPhi r (-(r phi) - β)) p q p q (· = ·) := by
  obtain ⟨hv, hphi, hinv⟩ := tabulated_facts h hg
  obtain ⟨c, hc, hd⟩ := formgen_ok S ex (theta := theta) hv
  refine ⟨c, hc, fun r θ hθ p q => ?_⟩
  obtain ⟨e, he, hval⟩ := hd.2 p q
  refine ⟨e, e, he, he, ?_⟩
  rw [hval r θ hθ, hval (withPhi r (-(r phi) - β)) θ (by rw [eval_withPhi hth, hθ]), crystalOf_withPhi hv.shapes hphi,
    intensity_mirror_plane rfl (hinv _)]
  simp [withPhi]

/-- C82, inversion.  A tabulated dipole tensor of a point group with inversion gives formulas that are zero. -/
theorem C82_inversion {theta : Expr} {t : Nd Expr} (h : Tabulated S PG.inversion (some t) none) :
    ∃ c, formgen S ex theta (some t) none none = .ok c ∧ ∀ (r : Sym → ℝ) (θ : ℝ), theta.eval (realVal r) = (θ : ℂ) →
      ∀ p q, ∃ e, c.getPc (combo p q) = .ok e ∧ e.eval (realVal r) = 0 := by
  obtain ⟨hv, hphi, hinv⟩ := tabulated_facts h (by simp)
  obtain ⟨c, hc, hd⟩ := formgen_ok S ex (theta := theta) hv
  refine ⟨c, hc, fun r θ hθ p q => ?_⟩
  obtain ⟨e, he, hval⟩ := hd.2 p q
  refine ⟨e, he, ?_⟩
  rw [hval r θ hθ]
  have h1 := congrArg Crystal.eee (hinv (realVal r))
  have hop : opM PG.inversion = fun i j => if i = j then -1 else 0 := by
    funext i j
    fin_cases i <;> fin_cases j <;> simp [opM, PG.inversion]
  have h2 : (crystalOf (some t) none none (realVal r)).eee = 0 := by
    funext i j k
    have h3 := congrFun (congrFun (congrFun h1 i) j) k
    simp only [transformedCrystal, hop, rot3, ite_mul, mul_ite, zero_mul, mul_zero, Finset.sum_ite_eq, Finset.mem_univ,
      if_true] at h3
    show _ = (0 : ℂ)
    linear_combination (-1 / 2 : ℂ) * h3
  have hX : crystalOf (some t) none none (realVal r) = Crystal.scaled 0 (crystalOf (some t) none none (realVal r)) := by
    refine Crystal.ext ?_ ?_ ?_
    · rw [h2]; funext i j k; simp [Crystal.scaled]
    · funext i j k; simp [Crystal.scaled, crystalOf]
    · funext i j k l; simp [Crystal.scaled, crystalOf]
  rw [hX, intensity_scaled]
  simp

/-! ## C82: Fourier components -/

/-- The Fourier formulas of the crystal: by `form_to_fform(formgen(...))`, when the formulas have a shape that the table of Fourier
transforms covers, or by the functions of `fformgen`. -/
inductive FourierFormulas (theta : Expr) : Option (Nd Expr) → Option (Nd Expr) → FFormContainer → Prop
  | easy {eee qee : Option (Nd Expr)} {form : FormContainer} {c : FFormContainer} :
      formgen S ex theta eee none qee = .ok form → (∀ k e, form.getPc k = .ok e → Supported e) → phi ∉ theta.free →
      (∀ r : Sym → ℝ, ∃ θ : ℝ, theta.eval (realVal r) = (θ : ℂ)) → formToFform S form 16 = .ok c → FourierFormulas theta eee qee c
  | hard {chiD chiQ : Nd Expr} {c : FFormContainer} : HardWay S R chiD chiQ c theta →
      FourierFormulas theta (some chiD) (some chiQ) c

theorem fourier_components {theta : Expr} {eee qee : Option (Nd Expr)} {c : FFormContainer}
    (h : FourierFormulas S ex R theta eee qee c) (hv : ValidTensors eee none qee) (hphi : ¬ OccursInSome eee none qee phi) :
    c.getM = 16 ∧ ∃ (θ : (Sym → ℝ) → ℝ) (β : ℝ), (β = 0 ∨ β = Real.pi) ∧ ∀ p q m, -16 ≤ m ∧ m ≤ 16 →
      RealComponent c (combo p q) m (fun r => integralCoeff (fun x =>
        (intensity (crystalOf eee none qee (realVal r)) (θ r) (x + β) p q : ℂ)) m) := by
  cases h with
  | easy hf hs hth hθ hc =>
    obtain ⟨form', hf', hd⟩ := formgen_ok S ex (theta := theta) hv
    rw [hf] at hf'; cases hf'
    obtain ⟨c', h1, h2, h3, h4⟩ := formToFform_supported S (formgen_reachable S ex hf) hs le_rfl
    rw [hc] at h1; cases h1
    choose θ hθ using hθ
    refine ⟨h3, θ, 0, .inl rfl, fun p q m hm => ?_⟩
    obtain ⟨e, he, hval⟩ := hd.2 p q
    obtain ⟨a, o, ha, ho, hv'⟩ := h4 _ e he m hm
    refine ⟨a, o, ha, ho, fun r => ?_⟩
    rw [hv']
    dsimp only
    congr 1
    funext x
    rw [ofAngle_real, hval (withPhi r x) (θ r) (by rw [eval_withPhi hth, hθ]), crystalOf_withPhi hv.shapes hphi]
    simp [withPhi]
  | hard hh =>
    obtain ⟨_, θ, _, _, h2, h3⟩ := hard_components S R hv hh
    exact ⟨h2, θ, Real.pi, .inr rfl, h3⟩

/-- The Fourier components of the intensity of a crystal with an `n`-fold axis along the normal. -/
theorem selection_core {X : Crystal} {n : ℕ} (hn : 0 < n) (hX : X.turned (2 * Real.pi / n) = X) (θ β : ℝ) (p q : Pol) {m : ℤ}
    (hnm : ¬ (n : ℤ) ∣ m) : integralCoeff (fun x => (intensity X θ (x + β) p q : ℂ)) m = 0 := by
  have hdeg := intensity_degree X θ p q
  have h0 := coeff_shift hdeg β m
  rw [h0]
  have h1 := coeff_shift hdeg (2 * Real.pi / n) m
  have h2 : (fun x : ℝ => (intensity X θ (x + 2 * Real.pi / n) p q : ℂ)) = fun x => (intensity X θ x p q : ℂ) := by
    funext x
    rw [← intensity_turned, hX]
  rw [h2] at h1
  have h3 : (harmonic m (2 * Real.pi / n) - 1) * integralCoeff (fun x => (intensity X θ x p q : ℂ)) m = 0 := by
    linear_combination -h1
  rcases mul_eq_zero.1 h3 with h4 | h4
  · exact absurd ((harmonic_root hn m).1 (by linear_combination h4)) hnm
  · rw [h4, mul_zero]

/-- C82, selection rule.  With an `n`-fold axis along the surface normal, the components of the Fourier formulas whose frequency
is not a multiple of `n` are zero. -/
theorem C82_selection {theta : Expr} {n : ℕ} (hn : 0 < n) {eee qee : Option (Nd Expr)} {c : FFormContainer}
    (h : Tabulated S (PG.rotZ (2 * Real.pi / n)) eee qee) (hg : ¬ (eee = none ∧ qee = none))
    (hc : FourierFormulas S ex R theta eee qee c) :
    c.getM = 16 ∧ ∀ p q m, -16 ≤ m ∧ m ≤ 16 → ¬ (n : ℤ) ∣ m → RealComponent c (combo p q) m (fun _ => 0) := by
  obtain ⟨hv, hphi, hinv⟩ := tabulated_facts h hg
  obtain ⟨hM, θ, β, _, hcomp⟩ := fourier_components S ex R hc hv hphi
  refine ⟨hM, fun p q m hm hnm => ?_⟩
  obtain ⟨a, o, ha, ho, hval⟩ := hcomp p q m hm
  refine ⟨a, o, ha, ho, fun r => ?_⟩
  rw [hval]
  exact selection_core hn (by rw [← transformed_rotZ]; exact hinv _) _ _ _ _ hnm

/-- C82, mirror perpendicular to `y`.  With the mirror plane `xz` the components of the Fourier formulas are real, and the
components `m` and `-m` are equal. -/
theorem C82_even {theta : Expr} {eee qee : Option (Nd Expr)} {c : FFormContainer}
    (h : Tabulated S PG.mirrorY eee qee) (hg : ¬ (eee = none ∧ qee = none)) (hc : FourierFormulas S ex R theta eee qee c) :
    c.getM = 16 ∧ ∀ p q m, -16 ≤ m ∧ m ≤ 16 → ∃ f : (Sym → ℝ) → ℝ,
      RealComponent c (combo p q) m (fun r => (f r : ℂ)) ∧ RealComponent c (combo p q) (-m) (fun r => (f r : ℂ)) := by
  obtain ⟨hv, hphi, hinv⟩ := tabulated_facts h hg
  obtain ⟨hM, θ, β, hβ, hcomp⟩ := fourier_components S ex R hc hv hphi
  refine ⟨hM, fun p q m hm => ?_⟩
  have hrot : PG.rotZ 0 * PG.mirrorY = PG.mirrorY := by
    have : PG.rotZ 0 = 1 := by
      ext i j
      fin_cases i <;> fin_cases j <;> simp [PG.rotZ]
    rw [this, one_mul]
  have hsym : ∀ (r : Sym → ℝ) (x : ℝ), intensity (crystalOf eee none qee (realVal r)) (θ r) (-x + β) p q =
      intensity (crystalOf eee none qee (realVal r)) (θ r) (x + β) p q := by
    intro r x
    rw [intensity_mirror_plane (β := 0) rfl (by rw [hrot]; exact hinv _)]
    rcases hβ with rfl | rfl
    · congr 1; ring
    · rw [← intensity_period]
      congr 1
      ring
  have key := fun r => coeff_even (f := fun x => intensity (crystalOf eee none qee (realVal r)) (θ r) (x + β) p q)
    (degree_shift (intensity_degree (crystalOf eee none qee (realVal r)) (θ r) p q) β) (hsym r) m
  refine ⟨fun r => (integralCoeff (fun x => (intensity (crystalOf eee none qee (realVal r)) (θ r) (x + β) p q : ℂ)) m).re, ?_, ?_⟩
  · obtain ⟨a, o, ha, ho, hval⟩ := hcomp p q m hm
    exact ⟨a, o, ha, ho, fun r => (hval r).trans (key r).1⟩
  · obtain ⟨a, o, ha, ho, hval⟩ := hcomp p q (-m) (by omega)
    exact ⟨a, o, ha, ho, fun r => (hval r).trans (key r).2⟩

end

/-! ### The hypotheses can be met -/

theorem mem_generated {gens : List PG.SymOp} {A : PG.SymOp} (h : A ∈ gens) : A ∈ PG.generated gens :=
  Submonoid.subset_closure h

/-- The dipole tensor `C_4v`, with complex parameters, and the quadrupole tensor `O_h`, with real parameters, have a fourfold axis
along z. -/
theorem sample_fourfold (S : Sympy) : ∃ tD tQ, Dict.get (dipole S) ['C', '_', '4', 'v'] = .ok tD ∧
    Dict.get (quadrupole S) ['O', '_', 'h'] = .ok tQ ∧
    Tabulated S (PG.rotZ (2 * Real.pi / (4 : ℕ))) (some (makeTensorComplex S ['r'] ['i'] [] [] tD)) (some (makeTensorReal S tQ)) := by
  have hD : ((['C', '_', '4', 'v'] : Key), [PG.fourfoldZ, PG.mirrorX]) ∈ PG.pointGroups := by simp [PG.pointGroups]
  have hQ : ((['O', '_', 'h'] : Key), [PG.fourfoldZ, PG.threefoldDiagonal, PG.inversion]) ∈ PG.quadrupoleGroups := by
    simp [PG.quadrupoleGroups, PG.pointGroups]
  obtain ⟨tD, h1, _⟩ := (C55_dipole S).2 _ _ hD
  obtain ⟨tQ, h2, _⟩ := (C55_quadrupole S).2.1 _ _ hQ
  have hrot : PG.rotZ (2 * Real.pi / (4 : ℕ)) = PG.fourfoldZ := by simp [PG.fourfoldZ]
  refine ⟨tD, tQ, h1, h2, ⟨?_, ?_⟩⟩
  · rintro t ⟨⟩
    exact ⟨tD, _, .entry (.dipole hD h1), .complex _ _ _ _, by rw [hrot]; exact mem_generated (by simp)⟩
  · rintro t ⟨⟩
    exact ⟨tQ, _, .entry (.quadrupole hQ h2), .real, by rw [hrot]; exact mem_generated (by simp)⟩

/-- Both ways to Fourier formulas are open for them. -/
example : ∃ tD tQ easy hard, Tabulated expandingSympy (PG.rotZ (2 * Real.pi / (4 : ℕ))) (some tD) (some tQ) ∧
    FourierFormulas expandingSympy expanding exRepr (.num (1 / 2)) (some tD) (some tQ) easy ∧
    FourierFormulas expandingSympy expanding exRepr (.num (1 / 2)) (some tD) (some tQ) hard := by
  obtain ⟨tD, tQ, _, _, h⟩ := sample_fourfold expandingSympy
  obtain ⟨hv, hphi, _⟩ := tabulated_facts h (by simp)
  have hs := C67_expanding (theta := .num (1 / 2)) hv hphi (by simp [Expr.free])
  obtain ⟨easy, ⟨form, hf, he⟩, _⟩ := C67_easy_way expandingSympy expanding hv hphi (by simp [Expr.free])
    (θ := fun _ => ((1 / 2 : ℚ) : ℝ)) (fun r => by simp [Expr.eval]) hs
  obtain ⟨nfs', fs', g1, g2, _, hard, g3, _⟩ :=
    C52_components expandingSympy exRepr (fun _ => none) (fun _ => none) ['f'] ['s'] (1 / 2) hv
  exact ⟨_, _, easy, hard, h, .easy hf (hs form hf) (by simp [Expr.free]) (fun r => ⟨((1 / 2 : ℚ) : ℝ), by simp [Expr.eval]⟩) he,
    .hard (.num g1 g2 g3)⟩

/-- Groups with a mirror perpendicular to y: `C_1h` and `C_2v`; and `mirrorX` is of the form that `C82_mirror` asks for. -/
example (S : Sympy) : ∃ t, Dict.get (surface S) ['C', '_', '2', 'v'] = .ok t ∧ Tabulated S PG.mirrorY (some (makeTensorReal S t)) none ∧
    Tabulated S (PG.rotZ Real.pi * PG.mirrorY) (some (makeTensorReal S t)) none := by
  have hD : ((['C', '_', '2', 'v'] : Key), [PG.mirrorX, PG.mirrorY]) ∈ PG.pointGroups := by simp [PG.pointGroups]
  obtain ⟨t, h1, _⟩ := (C55_surface S).2 _ _ hD
  have hx : PG.rotZ Real.pi * PG.mirrorY = PG.mirrorX := by
    ext i j
    fin_cases i <;> fin_cases j <;> simp [PG.rotZ, PG.mirrorY, PG.mirrorX, Matrix.mul_apply, Fin.sum_univ_three]
  refine ⟨t, h1, ⟨?_, by simp⟩, ⟨?_, by simp⟩⟩
  · rintro t' ⟨⟩
    exact ⟨t, _, .entry (.surface hD h1), .real, mem_generated (by simp)⟩
  · rintro t' ⟨⟩
    exact ⟨t, _, .entry (.surface hD h1), .real, by rw [hx]; exact mem_generated (by simp)⟩

/-- A group with inversion. -/
example (S : Sympy) : ∃ t, Dict.get (dipole S) ['D', '_', '6', 'h'] = .ok t ∧
    Tabulated S PG.inversion (some (makeTensorComplex S ['r'] ['i'] [] [] t)) none := by
  have hD : ((['D', '_', '6', 'h'] : Key), [PG.sixfoldZ, PG.twofoldX, PG.inversion]) ∈ PG.pointGroups := by simp [PG.pointGroups]
  obtain ⟨t, h1, _⟩ := (C55_dipole S).2 _ _ hD
  refine ⟨t, h1, ⟨?_, by simp⟩⟩
  rintro t' ⟨⟩
  exact ⟨t, _, .entry (.dipole hD h1), .complex _ _ _ _, mem_generated (by simp)⟩

end Shgpy
