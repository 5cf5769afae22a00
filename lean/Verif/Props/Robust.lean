import Verif.Spec.Robust
import Verif.Proofs.Robust
import Verif.Props.Face

/-!
# C107: small errors in tensors and matrices
-/

namespace Shgpy
open Spec PG Expr

set_option linter.unusedSectionVars false

section
variable (S : Sympy) (ex : Rewriting) (Rp : Repr)

/-- **C107, size.**  The intensities are not negative and not larger than the square of the size of the tensors. -/
theorem C107_size {theta : Expr} {eee mee qee : Option (Nd Expr)} (hv : ValidTensors eee mee qee) {c : FormContainer}
    (hc : formgen S ex theta eee mee qee = .ok c) (p q : Pol) :
    ∃ e, c.getPc (combo p q) = .ok e ∧ ∀ (r : Sym → ℝ) (θ : ℝ), theta.eval (realVal r) = (θ : ℂ) →
      ∃ x : ℝ, e.eval (realVal r) = (x : ℂ) ∧ 0 ≤ x ∧ x ≤ (crystalOf eee mee qee (realVal r)).size ^ 2 := by
  obtain ⟨c', h1, h2⟩ := formgen_ok S ex (theta := theta) hv
  rw [hc] at h1; cases h1
  obtain ⟨e, he, hval⟩ := h2.2 p q
  refine ⟨e, he, fun r θ hθ => ⟨_, hval r θ hθ, ?_, intensity_le _ _ _ _ _⟩⟩
  unfold intensity
  cases q <;> simp [outIntensity] <;> first | exact Complex.normSq_nonneg _ | exact add_nonneg (Complex.normSq_nonneg _) (Complex.normSq_nonneg _)

/-- **C107, tensors.**  For two sets of tensors (or two sets of parameters), at the same azimuth and angle of incidence, the values of the
formulas differ by at most the size of the difference of the tensors times the sum of their sizes. -/
theorem C107_tensors {theta theta' : Expr} {eee mee qee eee' mee' qee' : Option (Nd Expr)} (hv : ValidTensors eee mee qee)
    (hv' : ValidTensors eee' mee' qee') {c c' : FormContainer} (hc : formgen S ex theta eee mee qee = .ok c)
    (hc' : formgen S ex theta' eee' mee' qee' = .ok c') (r r' : Sym → ℝ) (θ : ℝ) (hθ : theta.eval (realVal r) = (θ : ℂ))
    (hθ' : theta'.eval (realVal r') = (θ : ℂ)) (hphi : r phi = r' phi) (p q : Pol) :
    Related c c' r r' p q p q (fun a b => ‖a - b‖ ≤
      ((crystalOf eee mee qee (realVal r)).minus (crystalOf eee' mee' qee' (realVal r'))).size *
        ((crystalOf eee mee qee (realVal r)).size + (crystalOf eee' mee' qee' (realVal r')).size)) := by
  obtain ⟨_, h1, h2⟩ := formgen_ok S ex (theta := theta) hv
  obtain ⟨_, h1', h2'⟩ := formgen_ok S ex (theta := theta') hv'
  rw [hc] at h1; cases h1
  rw [hc'] at h1'; cases h1'
  obtain ⟨e, he, hval⟩ := h2.2 p q
  obtain ⟨e', he', hval'⟩ := h2'.2 p q
  refine ⟨e, e', he, he', ?_⟩
  beta_reduce
  rw [hval r θ hθ, hval' r' θ hθ', hphi, ← Complex.ofReal_sub, Complex.norm_real, Real.norm_eq_abs]
  exact intensity_near _ _ _ _ _ _

/-! ## Rounded matrices -/

theorem transformGiven_all {eee mee qee : Option (Nd Expr)} (hv : ValidTensors eee mee qee) (hphi : ¬ OccursInSome eee mee qee phi)
    {A : Nd Expr} (hA : IsMatrix 3 3 A) (hAr : ∀ s, OccursIn A s → s.isReal = some true ∧ s ≠ phi) :
    ∃ eee' mee' qee', transformGiven S A eee = .ok eee' ∧ transformGiven S A mee = .ok mee' ∧ transformGiven S A qee = .ok qee' ∧
      (mee = none → mee' = none) ∧ ValidTensors eee' mee' qee' ∧ ¬ OccursInSome eee' mee' qee' phi ∧ ∀ σ R, HasValue A σ R →
        crystalOf eee' mee' qee' σ = transformedCrystal (opM R) (crystalOf eee mee qee σ) := by
  obtain ⟨eee', a1, a2, a3, a4, a5⟩ := transformGiven3 S hA hv.eee3
  obtain ⟨mee', b1, b2, b3, b4, b5⟩ := transformGiven3 S hA hv.mee3
  obtain ⟨qee', d1, d2, d3, d4, d5⟩ := transformGiven4 S hA hv.qee4
  have hs : ∀ t, eee' = some t ∨ mee' = some t ∨ qee' = some t → ∀ s, OccursIn t s → s.isReal = some true ∧ s ≠ phi := by
    rintro t (h | h | h) s hs
    · rcases a4 t s h hs with ⟨u, hu, hus⟩ | h
      · exact ⟨hv.real u (Or.inl hu) s hus, fun e => hphi ⟨u, Or.inl hu, e ▸ hus⟩⟩
      · exact hAr s h
    · rcases b4 t s h hs with ⟨u, hu, hus⟩ | h
      · exact ⟨hv.real u (Or.inr (Or.inl hu)) s hus, fun e => hphi ⟨u, Or.inr (Or.inl hu), e ▸ hus⟩⟩
      · exact hAr s h
    · rcases d4 t s h hs with ⟨u, hu, hus⟩ | h
      · exact ⟨hv.real u (Or.inr (Or.inr hu)) s hus, fun e => hphi ⟨u, Or.inr (Or.inr hu), e ▸ hus⟩⟩
      · exact hAr s h
  refine ⟨eee', mee', qee', a1, b1, d1, b2.2, ⟨a3, b3, d3, ?_, fun t ht s h => (hs t ht s h).1⟩, ?_, fun σ R hR => ?_⟩
  · rintro ⟨h1, h2, h3⟩
    exact hv.some_given ⟨a2.1 h1, b2.1 h2, d2.1 h3⟩
  · rintro ⟨t, ht, h⟩
    exact (hs t ht _ h).2 rfl
  · have hm : (fun i a : Fin 3 => (A.get [i.val, a.val]).eval σ) = opM R := by
      funext i a; exact hR i a
    have h1 := a5 σ
    have h2 := b5 σ
    have h3 := d5 σ
    rw [hm] at h1 h2 h3
    exact Crystal.ext h1 h2 h3

theorem near_transformed {M Q : SymOp} (hQ : Orthogonal Q) {ε : ℝ} (hM : ∀ i j, |M i j - Q i j| ≤ ε) (hε : ε ≤ 1 / 24) (X : Crystal)
    (θ φ : ℝ) (p q : Pol) :
    |intensity (transformedCrystal (opM M) X) θ φ p q - intensity (transformedCrystal (opM Q) X) θ φ p q| ≤ 40 * ε * X.size ^ 2 := by
  have h0 : 0 ≤ ε := (abs_nonneg _).trans (hM 0 0)
  have hB := bounded_orthogonal hQ
  have hD : Bounded (fun i j => ((M i j - Q i j : ℝ) : ℂ)) (3 * ε) := by
    refine bounded_small h0 fun i j => ?_
    rw [Complex.norm_real]
    exact hM i j
  have e : opM M = opM Q + fun i j => ((M i j - Q i j : ℝ) : ℂ) := by
    funext i j
    simp [opM]
  have z : Bounded (0 : Fin 3 → Fin 3 → ℂ) 0 := by
    refine ⟨le_rfl, fun v => ?_⟩
    simp [app, size1]
  obtain ⟨x1, y1⟩ := size_rot3 hB hD X.eee
  obtain ⟨x2, y2⟩ := size_rot3 hB hD X.mee
  obtain ⟨x3, y3⟩ := size_rot4 hB hD X.qee
  have w1 := (size_rot3 hB z X.eee).1
  have w2 := (size_rot3 hB z X.mee).1
  have w3 := (size_rot4 hB z X.qee).1
  rw [add_zero] at w1 w2 w3
  have n1 := size3_nonneg X.eee
  have n2 := size3_nonneg X.mee
  have n3 := size4_nonneg X.qee
  have hx : 1 ≤ 1 + 3 * ε := by linarith
  have h34 : (1 + 3 * ε) ^ 3 ≤ (1 + 3 * ε) ^ 4 := pow_le_pow_right₀ hx (by norm_num)
  have hF : (transformedCrystal (opM M) X).size ≤ (1 + 3 * ε) ^ 4 * X.size := by
    rw [e]
    simp only [Crystal.size, transformedCrystal]
    have := mul_le_mul_of_nonneg_right h34 n1
    have := mul_le_mul_of_nonneg_right h34 n2
    linarith
  have hG : (transformedCrystal (opM Q) X).size ≤ X.size := by
    simp only [Crystal.size, transformedCrystal]
    norm_num at w1 w2 w3
    linarith
  have hH : ((transformedCrystal (opM M) X).minus (transformedCrystal (opM Q) X)).size ≤ ((1 + 3 * ε) ^ 4 - 1) * X.size := by
    rw [e]
    simp only [Crystal.size, transformedCrystal, Crystal.minus]
    have := mul_le_mul_of_nonneg_right h34 n1
    have := mul_le_mul_of_nonneg_right h34 n2
    linarith
  have hN := X.size_nonneg
  refine (intensity_near _ _ _ _ _ _).trans ?_
  have h1 : (1 : ℝ) ≤ (1 + 3 * ε) ^ 4 := one_le_pow₀ hx
  calc _ ≤ ((1 + 3 * ε) ^ 4 - 1) * X.size * ((1 + 3 * ε) ^ 4 * X.size + X.size) :=
        mul_le_mul hH (add_le_add hF hG) (add_nonneg (Crystal.size_nonneg _) (Crystal.size_nonneg _))
          (mul_nonneg (by linarith) hN)
    _ = ((1 + 3 * ε) ^ 8 - 1) * X.size ^ 2 := by ring
    _ ≤ 40 * ε * X.size ^ 2 := by
        refine mul_le_mul_of_nonneg_right ?_ (sq_nonneg _)
        have s1 : (1 + 3 * ε) ^ 2 ≤ 1 + 51 / 8 * ε := by nlinarith
        have s2 : (1 + 3 * ε) ^ 4 ≤ 1 + 15 * ε := by
          have : ((1 + 3 * ε) ^ 2) ^ 2 ≤ (1 + 51 / 8 * ε) ^ 2 := pow_le_pow_left₀ (by positivity) s1 2
          nlinarith
        have s3 : (1 + 3 * ε) ^ 8 ≤ 1 + 40 * ε := by
          have : ((1 + 3 * ε) ^ 4) ^ 2 ≤ (1 + 15 * ε) ^ 2 := pow_le_pow_left₀ (by positivity) s2 2
          nlinarith
        linarith

/-- **C107, matrices.**  If the tensors are transformed by a matrix `M` whose entries differ by at most `ε` from those of an orthogonal
matrix `Q`, the intensities differ from those for `Q` by at most `40 ε` times the square of the size of the tensors. -/
theorem C107_matrix {theta : Expr} {eee mee qee : Option (Nd Expr)} (hv : ValidTensors eee mee qee) (hphi : ¬ OccursInSome eee mee qee phi)
    {A A' : Nd Expr} (hA : IsMatrix 3 3 A) (hA' : IsMatrix 3 3 A')
    (hAr : ∀ s, OccursIn A s ∨ OccursIn A' s → s.isReal = some true ∧ s ≠ phi) :
    ∃ e1 m1 q1 c1 e2 m2 q2 c2, transformGiven S A eee = .ok e1 ∧ transformGiven S A mee = .ok m1 ∧ transformGiven S A qee = .ok q1 ∧
      formgen S ex theta e1 m1 q1 = .ok c1 ∧ transformGiven S A' eee = .ok e2 ∧ transformGiven S A' mee = .ok m2 ∧
      transformGiven S A' qee = .ok q2 ∧ formgen S ex theta e2 m2 q2 = .ok c2 ∧
      ∀ (r : Sym → ℝ) (θ ε : ℝ) (M Q : SymOp), theta.eval (realVal r) = (θ : ℂ) → HasValue A (realVal r) M → HasValue A' (realVal r) Q →
        Orthogonal Q → (∀ i j, |M i j - Q i j| ≤ ε) → ε ≤ 1 / 24 →
        ∀ p q, Related c1 c2 r r p q p q (fun a b => ‖a - b‖ ≤ 40 * ε * (crystalOf eee mee qee (realVal r)).size ^ 2) := by
  obtain ⟨e1, m1, q1, a1, a2, a3, -, a4, -, a5⟩ := transformGiven_all S hv hphi hA (fun s hs => hAr s (.inl hs))
  obtain ⟨e2, m2, q2, b1, b2, b3, -, b4, -, b5⟩ := transformGiven_all S hv hphi hA' (fun s hs => hAr s (.inr hs))
  obtain ⟨c1, a6, a7⟩ := formgen_ok S ex (theta := theta) a4
  obtain ⟨c2, b6, b7⟩ := formgen_ok S ex (theta := theta) b4
  refine ⟨e1, m1, q1, c1, e2, m2, q2, c2, a1, a2, a3, a6, b1, b2, b3, b6, fun r θ ε M Q hθ hM hQ hO hd hε p q => ?_⟩
  obtain ⟨e, he, hval⟩ := a7.2 p q
  obtain ⟨e', he', hval'⟩ := b7.2 p q
  refine ⟨e, e', he, he', ?_⟩
  beta_reduce
  rw [hval r θ hθ, hval' r θ hθ, a5 _ M hM, b5 _ Q hQ, ← Complex.ofReal_sub, Complex.norm_real, Real.norm_eq_abs]
  exact near_transformed hO hd hε _ _ _ _ _

theorem rotation_rounded (rnd : ℝ → ℝ) {v w : Vec} {accuracy : ℝ} {Q : Mat} {b : Bool}
    (h : rotationFromTwoVectors id v w accuracy = .ok (Q, b)) : rotationFromTwoVectors rnd v w accuracy = .ok (Q.map rnd, b) := by
  unfold rotationFromTwoVectors at h ⊢
  split_ifs at h ⊢
  obtain ⟨r, h1, h2⟩ := bind_ok h
  rw [h1, ok_bind]
  cases h2
  rfl

theorem continuous_intensity (X : Crystal) (θ β : ℝ) (p q : Pol) : Continuous (fun x => (intensity X θ (x + β) p q : ℂ)) := by
  obtain ⟨c, hc⟩ := intensity_degree X θ p q
  have : (fun x => (intensity X θ (x + β) p q : ℂ)) = fun x => ∑ n ∈ Finset.Icc (-((8 : ℕ) : ℤ)) (8 : ℕ), c n * harmonic n (x + β) := by
    funext x
    exact hc (x + β)
  rw [this]
  refine continuous_finset_sum _ fun n _ => continuous_const.mul ?_
  unfold harmonic
  fun_prop

theorem coeff_near {X Y : Crystal} {θ β B : ℝ} {p q : Pol} (h : ∀ φ, |intensity X θ φ p q - intensity Y θ φ p q| ≤ B) (m : ℤ)
    (hY : integralCoeff (fun x => (intensity Y θ (x + β) p q : ℂ)) m = 0) :
    ‖integralCoeff (fun x => (intensity X θ (x + β) p q : ℂ)) m‖ ≤ B := by
  have e : integralCoeff (fun x => (intensity X θ (x + β) p q : ℂ)) m =
      integralCoeff (fun x => ((intensity X θ (x + β) p q - intensity Y θ (x + β) p q : ℝ) : ℂ)) m := by
    have e1 : (fun x => (intensity X θ (x + β) p q : ℂ)) = fun x => ((intensity X θ (x + β) p q - intensity Y θ (x + β) p q : ℝ) : ℂ) +
        (intensity Y θ (x + β) p q : ℂ) := by
      funext x; push_cast; ring
    have c1 := (continuous_intensity X θ β p q).sub (continuous_intensity Y θ β p q)
    have e2 := integralCoeff_add (fun x => ((intensity X θ (x + β) p q - intensity Y θ (x + β) p q : ℝ) : ℂ))
      (fun x => (intensity Y θ (x + β) p q : ℂ)) (by
        simp only [Complex.ofReal_sub]
        exact c1) (continuous_intensity Y θ β p q) m
    rw [← e1, hY, add_zero] at e2
    exact e2
  rw [e]
  have hpi : 0 < 2 * Real.pi := by positivity
  have hint : ‖∫ x in (0 : ℝ)..(2 * Real.pi), ((intensity X θ (x + β) p q - intensity Y θ (x + β) p q : ℝ) : ℂ) *
      Complex.exp (-(Complex.I * (m * x)))‖ ≤ B * |2 * Real.pi - 0| := by
    refine intervalIntegral.norm_integral_le_of_norm_le_const fun x _ => ?_
    rw [norm_mul, Complex.norm_real, Complex.norm_exp]
    simpa using h (x + β)
  unfold integralCoeff
  rw [norm_mul]
  have h1 : ‖(1 / (2 * (Real.pi : ℂ)))‖ = 1 / (2 * Real.pi) := by
    simp [abs_of_pos Real.pi_pos]
  rw [h1, one_div, inv_mul_le_iff₀ hpi]
  rw [sub_zero, abs_of_pos hpi] at hint
  linarith

/-- **C107, faces.**  Tensors of the tables whose point groups contain the rotation by `360/n` degrees about `v`, turned by the rounded
matrix of `rotation_matrix_from_two_vectors(v, [0, 0, 1])` (every entry changed by at most `ε`): when `phi` is increased by `360/n`
degrees, the formulas change by at most `80 ε` times the square of the size of the tensors, and the components of the Fourier formulas
whose frequency is not a multiple of `n` are at most half as large. -/
theorem C107_axis {theta : Expr} {n : ℕ} (hn : 0 < n) {v : Vec} (hv : v ≠ 0) {B : SymOp} (hB : RotatesAbout B v (2 * Real.pi / n))
    {eee qee : Option (Nd Expr)} (ht : Tabulated S B eee qee) (hg : ¬ (eee = none ∧ qee = none)) {accuracy : ℝ} (hacc : 0 < accuracy)
    {ε : ℝ} (rnd : Rounding ε) (hε : ε ≤ 1 / 24)
    {A : Nd Expr} (hA : IsMatrix 3 3 A) (hAr : ∀ s, OccursIn A s → s.isReal = some true ∧ s ≠ phi) :
    ∃ M eee' qee', rotationFromTwoVectors rnd.run v normal accuracy = .ok (M, false) ∧
      transformGiven S A eee = .ok eee' ∧ transformGiven S A qee = .ok qee' ∧
      (phi ∉ theta.free → ∃ c, formgen S ex theta eee' none qee' = .ok c ∧
        ∀ (r : Sym → ℝ) (θ : ℝ), theta.eval (realVal r) = (θ : ℂ) → HasValue A (realVal r) M →
          ∀ p q, Related c c r (withPhi r (r phi + 2 * Real.pi / n)) p q p q
            (fun a b => ‖a - b‖ ≤ 80 * ε * (crystalOf eee none qee (realVal r)).size ^ 2)) ∧
      ∀ c, FourierFormulas S ex Rp theta eee' qee' c → c.getM = 16 ∧ ∀ p q m, -16 ≤ m ∧ m ≤ 16 → ¬ (n : ℤ) ∣ m →
        ∃ f, RealComponent c (combo p q) m f ∧ ∀ r : Sym → ℝ, HasValue A (realVal r) M →
          ‖f r‖ ≤ 40 * ε * (crystalOf eee none qee (realVal r)).size ^ 2 := by
  obtain ⟨Q, m1, m2, m3, -⟩ := C106_matrix hv hacc
  obtain ⟨hval0, hphi0, hinv0⟩ := tabulated_facts ht hg
  obtain ⟨eee', mee', qee', t1, -, t3, hm, hval, hphi, hX⟩ := transformGiven_all S hval0 hphi0 hA hAr
  rw [hm rfl] at hval hphi hX
  have hY : ∀ σ, (transformedCrystal (opM Q) (crystalOf eee none qee σ)).turned (2 * Real.pi / n) =
      transformedCrystal (opM Q) (crystalOf eee none qee σ) := by
    intro σ
    have key : ∀ C : SymOp, Q * B * Q.transpose = C → transformedCrystal (opM C) (transformedCrystal (opM Q) (crystalOf eee none qee σ)) =
        transformedCrystal (opM Q) (crystalOf eee none qee σ) := by
      intro C hC
      have k : C * Q = Q * B := by
        rw [← hC, Matrix.mul_assoc, mul_eq_one_comm.1 m2, Matrix.mul_one]
      have hi := hinv0 σ
      refine Crystal.ext ?_ ?_ ?_
      · show rot3 (opM C) (rot3 (opM Q) _) = rot3 (opM Q) _
        have : rot3 (opM B) (crystalOf eee none qee σ).eee = _ := congrArg Crystal.eee hi
        rw [rot3_comp, opM_mul, k, ← opM_mul, ← rot3_comp, this]
      · show rot3 (opM C) (rot3 (opM Q) _) = rot3 (opM Q) _
        have : rot3 (opM B) (crystalOf eee none qee σ).mee = _ := congrArg Crystal.mee hi
        rw [rot3_comp, opM_mul, k, ← opM_mul, ← rot3_comp, this]
      · show rot4 (opM C) (rot4 (opM Q) _) = rot4 (opM Q) _
        have : rot4 (opM B) (crystalOf eee none qee σ).qee = _ := congrArg Crystal.qee hi
        rw [rot4_comp, opM_mul, k, ← opM_mul, ← rot4_comp, this]
    rcases m3 B _ hB with h | ⟨-, h⟩
    · rw [← transformed_rotZ]
      exact key _ h
    · refine turned_back ?_
      rw [← transformed_rotZ]
      exact key _ h
  have hnear : ∀ r : Sym → ℝ, HasValue A (realVal r) (Q.map rnd.run) → ∀ θ φ p q,
      |intensity (crystalOf eee' none qee' (realVal r)) θ φ p q -
        intensity (transformedCrystal (opM Q) (crystalOf eee none qee (realVal r))) θ φ p q| ≤
          40 * ε * (crystalOf eee none qee (realVal r)).size ^ 2 := by
    intro r hr θ φ p q
    rw [hX _ _ hr]
    exact near_transformed m2 (fun i j => rnd.err _) hε _ _ _ _ _
  refine ⟨Q.map rnd.run, eee', qee', rotation_rounded _ m1, t1, t3, fun hth => ?_, fun c hc => ?_⟩
  · obtain ⟨c, hc, hd⟩ := formgen_ok S ex (theta := theta) hval
    refine ⟨c, hc, fun r θ hθ hσ p q => ?_⟩
    obtain ⟨e, he, hv'⟩ := hd.2 p q
    refine ⟨e, e, he, he, ?_⟩
    beta_reduce
    rw [hv' r θ hθ, hv' (withPhi r (r phi + 2 * Real.pi / n)) θ (by rw [eval_withPhi hth, hθ]), crystalOf_withPhi hval.shapes hphi,
      ← Complex.ofReal_sub, Complex.norm_real, Real.norm_eq_abs, show withPhi r (r phi + 2 * Real.pi / n) phi = r phi + 2 * Real.pi / n by
        simp [withPhi]]
    have h1 := hnear r hσ θ (r phi) p q
    have h2 := hnear r hσ θ (r phi + 2 * Real.pi / n) p q
    rw [← intensity_turned (transformedCrystal (opM Q) (crystalOf eee none qee (realVal r))), hY, abs_sub_comm] at h2
    have h3 := abs_sub_le (intensity (crystalOf eee' none qee' (realVal r)) θ (r phi) p q)
      (intensity (transformedCrystal (opM Q) (crystalOf eee none qee (realVal r))) θ (r phi) p q)
      (intensity (crystalOf eee' none qee' (realVal r)) θ (r phi + 2 * Real.pi / n) p q)
    linarith
  · obtain ⟨hM, θ, β, _, hcomp⟩ := fourier_components S ex Rp hc hval hphi
    refine ⟨hM, fun p q m hm hnm => ⟨_, hcomp p q m hm, fun r hσ => ?_⟩⟩
    exact coeff_near (fun φ => hnear r hσ _ φ p q) m (selection_core hn (hY _) _ _ _ _ hnm)

end

/-! ## Examples -/

/-- Rounding to two digits. -/
noncomputable def twoDigits : Rounding (1 / 200) where
  run x := (round (100 * x) : ℝ) / 100
  err x := by
    have := abs_sub_round (100 * x)
    rw [abs_sub_comm] at this
    have e : (round (100 * x) : ℝ) / 100 - x = ((round (100 * x) : ℝ) - 100 * x) / 100 := by ring
    rw [e, abs_div, abs_of_pos (by norm_num : (0 : ℝ) < 100)]
    linarith
  int n := by
    have : (100 * (n : ℝ)) = ((100 * n : ℤ) : ℝ) := by push_cast; ring
    rw [this, round_intCast]
    push_cast
    ring

/-- GaAs (`T_d`), cut perpendicular to (1, 1, 1), with a matrix rounded to two digits: the pattern is unchanged by 120 degrees up to
`80/200` of the square of the size of the tensor. -/
example (S : Sympy) (ex : Rewriting) (Rp : Repr) : ∃ M t eee' qee' c,
    rotationFromTwoVectors twoDigits.run ![1, 1, 1] normal (1 / 10) = .ok (M, false) ∧
    Dict.get (dipole S) ['T', '_', 'd'] = .ok t ∧ transformGiven S freeMatrix (some (makeTensorReal S t)) = .ok eee' ∧
    transformGiven S freeMatrix none = .ok qee' ∧ formgen S ex (.num (1 / 2)) eee' none qee' = .ok c ∧
    ∃ r : Sym → ℝ, HasValue freeMatrix (realVal r) M ∧ ∀ p q,
      Related c c r (withPhi r (r phi + 2 * Real.pi / (3 : ℕ))) p q p q
        (fun a b => ‖a - b‖ ≤ 80 * (1 / 200) * (crystalOf (some (makeTensorReal S t)) none none (realVal r)).size ^ 2) := by
  have hD : ((['T', '_', 'd'] : Key), [PG.rotoinversion4, PG.threefoldDiagonal]) ∈ PG.pointGroups := by simp [PG.pointGroups]
  obtain ⟨t, h1, _⟩ := (C55_dipole S).2 _ _ hD
  have hT : Tabulated S PG.threefoldDiagonal (some (makeTensorReal S t)) none := by
    refine ⟨?_, by simp⟩
    rintro t' ⟨⟩
    exact ⟨t, _, .entry (.dipole hD h1), .real, mem_generated (by simp)⟩
  have hth : phi ∉ (Expr.num (1 / 2)).free := by simp [Expr.free]
  obtain ⟨M, eee', qee', a1, a2, a3, a4, -⟩ := C107_axis S ex Rp (theta := .num (1 / 2)) (by norm_num) diagonal_ne threefoldDiagonal_rotates
    hT (by simp) (accuracy := 1 / 10) (by norm_num) twoDigits (by norm_num) (A := freeMatrix) rfl freeMatrix_real
  obtain ⟨c, a5, a6⟩ := a4 hth
  have hθ : ∀ r : Sym → ℝ, (Expr.num (1 / 2)).eval (realVal r) = ((1 / 2 : ℝ) : ℂ) := by intro r; simp [Expr.eval]
  exact ⟨M, t, eee', qee', c, a1, h1, a2, a3, a5, _, matrixValues_value M, fun p q => a6 _ _ (hθ _) (matrixValues_value M) p q⟩

end Shgpy
