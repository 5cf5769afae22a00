import Verif.Spec.Incidence
import Verif.Spec.Orientation
import Verif.Props.Selection

/-!
# C126: reversing the angle of incidence
-/

namespace Shgpy
open Spec

set_option linter.unusedSimpArgs false

/-- The crystal with the signs of the axes changed; `d` is the additional sign for the magnetic dipole. -/
noncomputable def signed (s : Fin 3 → ℂ) (d : ℂ) (X : Crystal) : Crystal :=
  ⟨fun i j k => s i * s j * s k * X.eee i j k, fun i j k => d * (s i * s j * s k * X.mee i j k),
    fun i j k l => s i * s j * s k * s l * X.qee i j k l⟩

theorem quad_signed {s : Fin 3 → ℂ} (hs : ∀ i, s i * s i = 1) {ε : ℂ} (hε : ε * ε = 1) (t : T3) (E : CVec) (i : Fin 3) :
    quad (fun i j k => s i * s j * s k * t i j k) (fun j => ε * (s j * E j)) i = s i * quad t E i := by
  simp only [quad, Finset.mul_sum]
  refine Finset.sum_congr rfl (fun j _ => Finset.sum_congr rfl (fun k _ => ?_))
  calc _ = s i * (t i j k * E j * E k) * (s j * s j) * (s k * s k) * (ε * ε) := by ring
    _ = _ := by rw [hs, hs, hε]; ring

theorem quadGrad_signed {s : Fin 3 → ℂ} (hs : ∀ i, s i * s i = 1) {ε : ℂ} (hε : ε * ε = 1) (t : T4) (k E : CVec) (i : Fin 3) :
    quadGrad (fun i j a b => s i * s j * s a * s b * t i j a b) (fun j => s j * k j) (fun j => ε * (s j * E j)) i =
      s i * quadGrad t k E i := by
  simp only [quadGrad, Finset.mul_sum]
  refine Finset.sum_congr rfl (fun j _ => Finset.sum_congr rfl (fun a _ => Finset.sum_congr rfl (fun b _ => ?_)))
  calc _ = s i * (t i j a b * k j * E a * E b) * (s j * s j) * (s a * s a) * (s b * s b) * (ε * ε) := by ring
    _ = _ := by rw [hs, hs, hs, hε]; ring

theorem cross_signed {s : Fin 3 → ℂ} (hs : ∀ i, s i * s i = 1) {d : ℂ} (hd : d = s 0 * s 1 * s 2) (k v : CVec) (i : Fin 3) :
    cross (fun j => s j * k j) (fun j => d * (s j * v j)) i = s i * cross k v i := by
  subst hd
  have h0 := hs 0
  have h1 := hs 1
  have h2 := hs 2
  fin_cases i
  · simp only [cross, Fin.zero_eta, Matrix.cons_val_zero]
    calc _ = s 0 * (k 1 * v 2 - k 2 * v 1) * (s 1 * s 1) * (s 2 * s 2) := by ring
      _ = _ := by rw [h1, h2]; ring
  · simp only [cross, Fin.mk_one, Matrix.cons_val_one, Matrix.cons_val_zero]
    calc _ = s 1 * (k 2 * v 0 - k 0 * v 2) * (s 0 * s 0) * (s 2 * s 2) := by ring
      _ = _ := by rw [h0, h2]; ring
  · simp only [cross, Fin.reduceFinMk, Matrix.cons_val]
    calc _ = s 2 * (k 0 * v 1 - k 1 * v 0) * (s 0 * s 0) * (s 1 * s 1) := by ring
      _ = _ := by rw [h0, h1]; ring

theorem quad_mul (d : ℂ) (t : T3) (E : CVec) : quad (fun i j k => d * t i j k) E = fun i => d * quad t E i := quad_smul d t E

/-- The intensities of a crystal with changed signs, in a geometry with the same changes. -/
theorem out_signed {s : Fin 3 → ℂ} (hs : ∀ i, s i * s i = 1) {d : ℂ} (hd : d = s 0 * s 1 * s 2) (Y : Crystal) {θ θ' : ℝ} {p : Pol} {ε : ℂ}
    (hε : ε * ε = 1) (hi : kIn θ' = fun j => s j * kIn θ j) (ho : kOut θ' = fun j => s j * kOut θ j)
    (hE : fieldIn θ' p = fun j => ε * (s j * fieldIn θ p j)) (q : Pol) :
    outIntensity (perp (kOut θ') (source (signed s d Y) (kIn θ') (fieldIn θ' p))) q =
      outIntensity (perp (kOut θ) (source Y (kIn θ) (fieldIn θ p))) q := by
  have h1 : ∀ i, source (signed s d Y) (kIn θ') (fieldIn θ' p) i = s i * source Y (kIn θ) (fieldIn θ p) i := by
    intro i
    rw [hi, hE]
    simp only [source, signed]
    rw [quad_signed hs hε, quadGrad_signed hs hε, quad_mul]
    have : (fun i => d * quad (fun i j k => s i * s j * s k * Y.mee i j k) (fun j => ε * (s j * fieldIn θ p j)) i) =
        fun i => d * (s i * quad Y.mee (fieldIn θ p) i) := by
      funext i
      rw [quad_signed hs hε]
    rw [this, cross_signed hs hd]
    ring
  have h2 : dot (kOut θ') (source (signed s d Y) (kIn θ') (fieldIn θ' p)) = dot (kOut θ) (source Y (kIn θ) (fieldIn θ p)) := by
    simp only [dot, h1, ho]
    refine Finset.sum_congr rfl (fun i _ => ?_)
    calc _ = kOut θ i * source Y (kIn θ) (fieldIn θ p) i * (s i * s i) := by ring
      _ = _ := by rw [hs, mul_one]
  have h3 : ∀ i, perp (kOut θ') (source (signed s d Y) (kIn θ') (fieldIn θ' p)) i =
      s i * perp (kOut θ) (source Y (kIn θ) (fieldIn θ p)) i := by
    intro i
    simp only [perp]
    rw [h2, h1, ho]
    ring
  have h4 : ∀ i, Complex.normSq (s i) = 1 := by
    intro i
    have h := congrArg Complex.normSq (hs i)
    rw [Complex.normSq_mul, Complex.normSq_one] at h
    nlinarith [Complex.normSq_nonneg (s i)]
  cases q <;> simp only [outIntensity, h3, Complex.normSq_mul, h4, one_mul]

/-- The signs of the half turn about the normal. -/
def signHalf (i : Fin 3) : ℂ := if i = 2 then 1 else -1

theorem rotZ_add_pi (φ : ℝ) (i a : Fin 3) : rotZ (φ + Real.pi) i a = signHalf i * rotZ φ i a := by
  fin_cases i <;> fin_cases a <;> simp [rotZ, signHalf]

theorem turned_add_pi (X : Crystal) (φ : ℝ) : X.turned (φ + Real.pi) = signed signHalf 1 (X.turned φ) := by
  refine Crystal.ext ?_ ?_ ?_
  · funext i j k
    simp only [Crystal.turned, signed, rot3, rotZ_add_pi, Finset.mul_sum]
    exact Finset.sum_congr rfl (fun a _ => Finset.sum_congr rfl (fun b _ => Finset.sum_congr rfl (fun c _ => by ring)))
  · funext i j k
    simp only [Crystal.turned, signed, rot3, rotZ_add_pi, Finset.mul_sum, one_mul]
    exact Finset.sum_congr rfl (fun a _ => Finset.sum_congr rfl (fun b _ => Finset.sum_congr rfl (fun c _ => by ring)))
  · funext i j k l
    simp only [Crystal.turned, signed, rot4, rotZ_add_pi, Finset.mul_sum]
    exact Finset.sum_congr rfl (fun a _ => Finset.sum_congr rfl (fun b _ => Finset.sum_congr rfl (fun c _ =>
      Finset.sum_congr rfl (fun e _ => by ring))))

/-- Reversing the angle of incidence turns the pattern by half a turn. -/
theorem intensity_neg (X : Crystal) (θ φ : ℝ) (p q : Pol) : intensity X (-θ) φ p q = intensity X θ (φ + Real.pi) p q := by
  have hs : ∀ i, signHalf i * signHalf i = 1 := by intro i; unfold signHalf; split_ifs <;> norm_num
  have hd : (1 : ℂ) = signHalf 0 * signHalf 1 * signHalf 2 := by simp [signHalf]
  unfold intensity radiated
  rw [turned_add_pi]
  have h := out_signed hs hd (X.turned φ) (θ := -θ) (θ' := θ) (p := p) (ε := -1) (by norm_num)
    (by funext j; fin_cases j <;> simp [kIn, signHalf]) (by funext j; fin_cases j <;> simp [kOut, signHalf])
    (by cases p <;> funext j <;> fin_cases j <;> simp [fieldIn, signHalf]) q
  exact h.symm

theorem rotZ_signZ (φ : ℝ) (i a : Fin 3) : rotZ φ i a * signZ a = signZ i * rotZ φ i a := by
  fin_cases i <;> fin_cases a <;> simp [rotZ, signZ]

theorem turned_mirroredZ (X : Crystal) (φ : ℝ) : X.mirroredZ.turned φ = signed signZ (-1) (X.turned φ) := by
  refine Crystal.ext ?_ ?_ ?_
  · funext i j k
    simp only [Crystal.turned, Crystal.mirroredZ, signed, rot3, Finset.mul_sum]
    refine Finset.sum_congr rfl (fun a _ => Finset.sum_congr rfl (fun b _ => Finset.sum_congr rfl (fun c _ => ?_)))
    calc _ = (rotZ φ i a * signZ a) * (rotZ φ j b * signZ b) * (rotZ φ k c * signZ c) * X.eee a b c := by ring
      _ = _ := by rw [rotZ_signZ, rotZ_signZ, rotZ_signZ]; ring
  · funext i j k
    simp only [Crystal.turned, Crystal.mirroredZ, signed, rot3, Finset.mul_sum]
    refine Finset.sum_congr rfl (fun a _ => Finset.sum_congr rfl (fun b _ => Finset.sum_congr rfl (fun c _ => ?_)))
    calc _ = -((rotZ φ i a * signZ a) * (rotZ φ j b * signZ b) * (rotZ φ k c * signZ c) * X.mee a b c) := by ring
      _ = _ := by rw [rotZ_signZ, rotZ_signZ, rotZ_signZ]; ring
  · funext i j k l
    simp only [Crystal.turned, Crystal.mirroredZ, signed, rot4, Finset.mul_sum]
    refine Finset.sum_congr rfl (fun a _ => Finset.sum_congr rfl (fun b _ => Finset.sum_congr rfl (fun c _ =>
      Finset.sum_congr rfl (fun e _ => ?_))))
    calc _ = (rotZ φ i a * signZ a) * (rotZ φ j b * signZ b) * (rotZ φ k c * signZ c) * (rotZ φ l e * signZ e) * X.qee a b c e := by
          ring
      _ = _ := by rw [rotZ_signZ, rotZ_signZ, rotZ_signZ, rotZ_signZ]; ring

/-- Light from the other side of the surface sees the mirror image of the crystal. -/
theorem intensity_other_side (X : Crystal) (θ φ : ℝ) (p q : Pol) :
    intensity X.mirroredZ (Real.pi - θ) φ p q = intensity X θ φ p q := by
  have hs : ∀ i, signZ i * signZ i = 1 := by intro i; unfold signZ; split_ifs <;> norm_num
  have hd : (-1 : ℂ) = signZ 0 * signZ 1 * signZ 2 := by simp [signZ]
  unfold intensity radiated
  rw [turned_mirroredZ]
  cases p with
  | P =>
    exact out_signed hs hd (X.turned φ) (ε := -1) (by norm_num)
      (by funext j; fin_cases j <;> simp [kIn, signZ, Complex.cos_pi_sub, Complex.sin_pi_sub])
      (by funext j; fin_cases j <;> simp [kOut, signZ, Complex.cos_pi_sub, Complex.sin_pi_sub])
      (by funext j; fin_cases j <;> simp [fieldIn, signZ, Complex.cos_pi_sub, Complex.sin_pi_sub]) q
  | S =>
    exact out_signed hs hd (X.turned φ) (ε := 1) (by norm_num)
      (by funext j; fin_cases j <;> simp [kIn, signZ, Complex.cos_pi_sub, Complex.sin_pi_sub])
      (by funext j; fin_cases j <;> simp [kOut, signZ, Complex.cos_pi_sub, Complex.sin_pi_sub])
      (by funext j; fin_cases j <;> simp [fieldIn, signZ]) q

section
variable (S : Sympy) (ex : Rewriting) (R : Repr)

/-- **C126, reversed angle.**  At the opposite angle of incidence the formulas of `formgen` have the values that the formulas at the
original angle have half a turn further. -/
theorem C126_reversed {theta theta' : Expr} {eee mee qee : Option (Nd Expr)} (hv : ValidTensors eee mee qee)
    (hphi : ¬ OccursInSome eee mee qee phi) (hth : phi ∉ theta.free) {c c' : FormContainer}
    (hc : formgen S ex theta eee mee qee = .ok c) (hc' : formgen S ex theta' eee mee qee = .ok c') (r : Sym → ℝ) (θ : ℝ)
    (hθ : theta.eval (realVal r) = (θ : ℂ)) (hθ' : theta'.eval (realVal r) = ((-θ : ℝ) : ℂ)) (p q : Pol) :
    Related c' c r (withPhi r (r phi + Real.pi)) p q p q (· = ·) := by
  obtain ⟨_, h1, h2⟩ := formgen_ok S ex (theta := theta) hv
  rw [hc] at h1; cases h1
  obtain ⟨_, h1', h2'⟩ := formgen_ok S ex (theta := theta') hv
  rw [hc'] at h1'; cases h1'
  obtain ⟨e, he, hval⟩ := h2.2 p q
  obtain ⟨e', he', hval'⟩ := h2'.2 p q
  refine ⟨e', e, he', he, ?_⟩
  rw [hval' r _ hθ', hval (withPhi r (r phi + Real.pi)) θ (by rw [eval_withPhi hth, hθ]), crystalOf_withPhi hv.shapes hphi,
    intensity_neg]
  simp [withPhi]

/-- **C126, the other side.**  Wherever one set of tensors has the values of the mirror image of the crystal of the other set, the
formulas of the one at the angle `π - θ` have the values of the formulas of the other at the angle `θ`. -/
theorem C126_other_side {theta theta' : Expr} {eee mee qee eee' mee' qee' : Option (Nd Expr)} (hv : ValidTensors eee mee qee)
    (hv' : ValidTensors eee' mee' qee') {c c' : FormContainer} (hc : formgen S ex theta eee mee qee = .ok c)
    (hc' : formgen S ex theta' eee' mee' qee' = .ok c') (r : Sym → ℝ) (θ : ℝ) (hθ : theta.eval (realVal r) = (θ : ℂ))
    (hθ' : theta'.eval (realVal r) = ((Real.pi - θ : ℝ) : ℂ))
    (hX : crystalOf eee' mee' qee' (realVal r) = (crystalOf eee mee qee (realVal r)).mirroredZ) (p q : Pol) :
    Related c' c r r p q p q (· = ·) := by
  obtain ⟨_, h1, h2⟩ := formgen_ok S ex (theta := theta) hv
  rw [hc] at h1; cases h1
  obtain ⟨_, h1', h2'⟩ := formgen_ok S ex (theta := theta') hv'
  rw [hc'] at h1'; cases h1'
  obtain ⟨e, he, hval⟩ := h2.2 p q
  obtain ⟨e', he', hval'⟩ := h2'.2 p q
  refine ⟨e', e, he', he, ?_⟩
  rw [hval' r _ hθ', hval r θ hθ, hX, intensity_other_side]

theorem opM_mirrorZ (i j : Fin 3) : opM PG.mirrorZ i j = if i = j then signZ i else 0 := by
  fin_cases i <;> fin_cases j <;> simp [opM, PG.mirrorZ, signZ]

theorem transformed_mirrorZ {X : Crystal} (hm : X.mee = 0) : transformedCrystal (opM PG.mirrorZ) X = X.mirroredZ := by
  refine Crystal.ext ?_ ?_ ?_
  · funext i j k
    simp only [transformedCrystal, rot3, Crystal.mirroredZ, opM_mirrorZ, ite_mul, mul_ite, zero_mul, mul_zero, Finset.sum_ite_eq,
      Finset.mem_univ, if_true]
  · funext i j k
    simp only [transformedCrystal, rot3, Crystal.mirroredZ, hm]
    simp
  · funext i j k l
    simp only [transformedCrystal, rot4, Crystal.mirroredZ, opM_mirrorZ, ite_mul, mul_ite, zero_mul, mul_zero, Finset.sum_ite_eq,
      Finset.mem_univ, if_true]

/-- **C126, mirror plane parallel to the surface.**  Crystals taken from the tables with such a mirror plane look the same from both
sides. -/
theorem C126_both_sides {theta theta' : Expr} {eee qee : Option (Nd Expr)} (h : Tabulated S PG.mirrorZ eee qee)
    (hg : ¬ (eee = none ∧ qee = none)) :
    ∃ c c', formgen S ex theta eee none qee = .ok c ∧ formgen S ex theta' eee none qee = .ok c' ∧
      ∀ (r : Sym → ℝ) (θ : ℝ), theta.eval (realVal r) = (θ : ℂ) → theta'.eval (realVal r) = ((Real.pi - θ : ℝ) : ℂ) →
        ∀ p q, Related c' c r r p q p q (· = ·) := by
  obtain ⟨hv, hphi, hinv⟩ := tabulated_facts h hg
  obtain ⟨c, hc, _⟩ := formgen_ok S ex (theta := theta) hv
  obtain ⟨c', hc', _⟩ := formgen_ok S ex (theta := theta') hv
  refine ⟨c, c', hc, hc', fun r θ hθ hθ' p q => C126_other_side S ex hv hv hc hc' r θ hθ hθ' ?_ p q⟩
  rw [← transformed_mirrorZ (X := crystalOf eee none qee (realVal r)) rfl, hinv]

/-- **C126, the other side, with `transform`.**  The crystal is turned over by `transform` with the reflection at `z = 0`; the
magnetic tensor, being axial, by `transform` with the opposite matrix. -/
theorem C126_transform {theta theta' : Expr} {eee mee qee : Option (Nd Expr)} (hv : ValidTensors eee mee qee) {A B : Nd Expr}
    (hA : IsMatrix 3 3 A) (hB : IsMatrix 3 3 B) (hr : ∀ s, OccursIn A s ∨ OccursIn B s → s.isReal = some true) :
    ∃ c eee' mee' qee' c', formgen S ex theta eee mee qee = .ok c ∧
      transformGiven S A eee = .ok eee' ∧ transformGiven S B mee = .ok mee' ∧ transformGiven S A qee = .ok qee' ∧
      formgen S ex theta' eee' mee' qee' = .ok c' ∧
      ∀ (r : Sym → ℝ) (θ : ℝ), theta.eval (realVal r) = (θ : ℂ) → theta'.eval (realVal r) = ((Real.pi - θ : ℝ) : ℂ) →
        HasValue A (realVal r) PG.mirrorZ → HasValue B (realVal r) (-PG.mirrorZ) →
        ∀ p q, Related c' c r r p q p q (· = ·) := by
  obtain ⟨c, hc, hd⟩ := formgen_ok S ex (theta := theta) hv
  obtain ⟨eee', a1, a2, a3, a4, a5⟩ := transformGiven3 S hA hv.eee3
  obtain ⟨mee', b1, b2, b3, b4, b5⟩ := transformGiven3 S hB hv.mee3
  obtain ⟨qee', d1, d2, d3, d4, d5⟩ := transformGiven4 S hA hv.qee4
  have hv' : ValidTensors eee' mee' qee' := by
    refine ⟨a3, b3, d3, ?_, ?_⟩
    · rintro ⟨h1, h2, h3⟩
      exact hv.some_given ⟨a2.1 h1, b2.1 h2, d2.1 h3⟩
    · rintro t (h | h | h) s hs
      · rcases a4 t s h hs with ⟨u, hu, hus⟩ | h
        · exact hv.real u (Or.inl hu) s hus
        · exact hr s (Or.inl h)
      · rcases b4 t s h hs with ⟨u, hu, hus⟩ | h
        · exact hv.real u (Or.inr (Or.inl hu)) s hus
        · exact hr s (Or.inr h)
      · rcases d4 t s h hs with ⟨u, hu, hus⟩ | h
        · exact hv.real u (Or.inr (Or.inr hu)) s hus
        · exact hr s (Or.inl h)
  obtain ⟨c', hc', hd'⟩ := formgen_ok S ex (theta := theta') hv'
  refine ⟨c, eee', mee', qee', c', hc, a1, b1, d1, hc', fun r θ hθ hθ' vA vB p q =>
    C126_other_side S ex hv hv' hc hc' r θ hθ hθ' ?_ p q⟩
  have hmA : (fun i a : Fin 3 => (A.get [i.val, a.val]).eval (realVal r)) = fun i a => if i = a then signZ i else 0 := by
    funext i a
    rw [vA i a]
    exact opM_mirrorZ i a
  have hmB : (fun i a : Fin 3 => (B.get [i.val, a.val]).eval (realVal r)) = fun i a => if i = a then -signZ i else 0 := by
    funext i a
    rw [vB i a]
    have := opM_mirrorZ i a
    simp only [opM] at this
    simp only [Matrix.neg_apply, Complex.ofReal_neg, this]
    split <;> simp
  have h1 := a5 (realVal r)
  have h2 := b5 (realVal r)
  have h3 := d5 (realVal r)
  rw [hmA] at h1 h3
  rw [hmB] at h2
  refine Crystal.ext (h1.trans ?_) (h2.trans ?_) (h3.trans ?_)
  · funext i j k
    simp only [rot3, Crystal.mirroredZ, crystalOf, ite_mul, mul_ite, zero_mul, mul_zero, Finset.sum_ite_eq, Finset.mem_univ, if_true]
  · funext i j k
    simp only [rot3, Crystal.mirroredZ, crystalOf, ite_mul, mul_ite, zero_mul, mul_zero, Finset.sum_ite_eq, Finset.mem_univ, if_true]
    ring
  · funext i j k l
    simp only [rot4, Crystal.mirroredZ, crystalOf, ite_mul, mul_ite, zero_mul, mul_zero, Finset.sum_ite_eq, Finset.mem_univ, if_true]

/-- **C126, both generators.**  `form_to_fform(formgen(-theta, ...))` and the file of `fformgen` for `theta` hold the same Fourier
formulas, component by component. -/
theorem C126_generators {theta theta' : Expr} {chiD chiQ : Nd Expr} (hv : ValidTensors (some chiD) none (some chiQ))
    (hphi : ¬ OccursInSome (some chiD) none (some chiQ) phi) (hth' : phi ∉ theta'.free)
    (hneg : ∀ r : Sym → ℝ, theta'.eval (realVal r) = -theta.eval (realVal r)) (hs : SupportedForms S ex theta' chiD chiQ)
    {easy hard : FFormContainer} (he : EasyWay S ex theta' chiD chiQ easy) (hh : HardWay S R chiD chiQ hard theta) :
    easy.getKeys = hard.getKeys ∧ easy.getM = hard.getM ∧
    ∀ p q m, -16 ≤ m ∧ m ≤ 16 → ∃ f, RealComponent easy (combo p q) m f ∧ RealComponent hard (combo p q) m f := by
  obtain ⟨hth, θ, hθ, k1, m1, h1⟩ := hard_components S R hv hh
  obtain ⟨c, hc, k2, m2, h2⟩ := easy_components S ex hv hphi hth' (θ := fun r => -θ r)
    (fun r => by rw [hneg, hθ]; push_cast; rfl) hs
  obtain ⟨form, e1, e2⟩ := he
  obtain ⟨form', e3, e4⟩ := hc
  rw [e1] at e3; cases e3
  rw [e2] at e4; cases e4
  refine ⟨by rw [k1, k2], by rw [m1, m2], fun p q m hm => ⟨_, h2 p q m hm, ?_⟩⟩
  obtain ⟨a, o, ha, ho, hv'⟩ := h1 p q m hm
  refine ⟨a, o, ha, ho, fun r => ?_⟩
  rw [hv']
  simp only [intensity_neg]

/-- **C126, files.**  The files of `fformgen` for opposite angles of incidence differ by the sign of the odd components. -/
theorem C126_files {theta theta' : Expr} {chiD chiQ : Nd Expr} (hv : ValidTensors (some chiD) none (some chiQ))
    (hneg : ∀ r : Sym → ℝ, theta'.eval (realVal r) = -theta.eval (realVal r)) {c c' : FFormContainer}
    (hc : HardWay S R chiD chiQ c theta) (hc' : HardWay S R chiD chiQ c' theta') :
    c.getKeys = c'.getKeys ∧ c.getM = c'.getM ∧
    ∀ p q m, -16 ≤ m ∧ m ≤ 16 → ∃ f, RealComponent c (combo p q) m f ∧ RealComponent c' (combo p q) m (fun r => (-1) ^ m * f r) := by
  obtain ⟨_, θ, hθ, k1, m1, h1⟩ := hard_components S R hv hc
  obtain ⟨_, θ', hθ', k2, m2, h2⟩ := hard_components S R hv hc'
  have ht : ∀ r, θ' r = -θ r := by
    intro r
    have := hneg r
    rw [hθ, hθ'] at this
    exact_mod_cast this
  refine ⟨by rw [k1, k2], by rw [m1, m2], fun p q m hm => ⟨_, h1 p q m hm, ?_⟩⟩
  obtain ⟨a, o, ha, ho, hv'⟩ := h2 p q m hm
  refine ⟨a, o, ha, ho, fun r => ?_⟩
  rw [hv']
  simp only [ht, intensity_neg]
  exact coeff_half_turn (degree_shift (intensity_degree (crystalOf (some chiD) none (some chiQ) (realVal r)) (θ r) p q) Real.pi) m

end

/-- The hypotheses can be met: the sample tensors at the angles `1/2` and `-1/2`, in both ways. -/
example : ∃ easy hard, SupportedForms expandingSympy expanding (.num (-1 / 2)) sampleTensor sampleQuadrupole ∧
    EasyWay expandingSympy expanding (.num (-1 / 2)) sampleTensor sampleQuadrupole easy ∧
    HardWay expandingSympy exRepr sampleTensor sampleQuadrupole hard (.num (1 / 2)) ∧
    ∀ r : Sym → ℝ, (Expr.num (-1 / 2)).eval (realVal r) = -(Expr.num (1 / 2)).eval (realVal r) := by
  have hs := C67_expanding (theta := .num (-1 / 2)) sample_valid' sample_no_phi' (by simp [Expr.free])
  obtain ⟨easy, he, _⟩ := C67_easy_way expandingSympy expanding sample_valid' sample_no_phi' (by simp [Expr.free])
    (θ := fun _ => ((-1 / 2 : ℚ) : ℝ)) (fun r => by simp [Expr.eval]) hs
  obtain ⟨nfs', fs', g1, g2, _, hard, g3, _⟩ :=
    C52_components expandingSympy exRepr (fun _ => none) (fun _ => none) ['f'] ['s'] (1 / 2) sample_valid'
  exact ⟨easy, hard, hs, he, .num g1 g2 g3, fun r => by simp [Expr.eval]; norm_num⟩

/-- The dipole tensor of a group with the mirror plane `z = 0`. -/
example (S : Sympy) : ∃ t, Dict.get (dipole S) ['C', '_', '3', 'h'] = .ok t ∧
    Tabulated S PG.mirrorZ (some (makeTensorReal S t)) none := by
  have hD : ((['C', '_', '3', 'h'] : Key), [PG.threefoldZ, PG.mirrorZ]) ∈ PG.pointGroups := by simp [PG.pointGroups]
  obtain ⟨t, h1, _⟩ := (C55_dipole S).2 _ _ hD
  refine ⟨t, h1, ⟨?_, by simp⟩⟩
  rintro t' ⟨⟩
  exact ⟨t, _, .entry (.dipole hD h1), .real, mem_generated (by simp)⟩

/-- A matrix with entries only on the diagonal. -/
def diagonalMatrix (a b c : ℚ) : Nd Expr :=
  ⟨[3, 3], fun idx => .num (if idx.getD 0 0 = idx.getD 1 0 then [a, b, c].getD (idx.getD 0 0) 0 else 0)⟩

/-- The matrices of `C126_transform` exist. -/
example : (IsMatrix 3 3 (diagonalMatrix 1 1 (-1)) ∧ ∀ s, ¬ OccursIn (diagonalMatrix 1 1 (-1)) s) ∧
    (IsMatrix 3 3 (diagonalMatrix (-1) (-1) 1) ∧ ∀ s, ¬ OccursIn (diagonalMatrix (-1) (-1) 1) s) ∧ ∀ r : Sym → ℝ,
    HasValue (diagonalMatrix 1 1 (-1)) (realVal r) PG.mirrorZ ∧ HasValue (diagonalMatrix (-1) (-1) 1) (realVal r) (-PG.mirrorZ) := by
  refine ⟨⟨rfl, ?_⟩, ⟨rfl, ?_⟩, fun r => ⟨?_, ?_⟩⟩
  · rintro s ⟨idx, _, hs⟩
    simp [diagonalMatrix, Expr.free] at hs
  · rintro s ⟨idx, _, hs⟩
    simp [diagonalMatrix, Expr.free] at hs
  · intro i j
    fin_cases i <;> fin_cases j <;> simp [diagonalMatrix, Expr.eval, PG.mirrorZ]
  · intro i j
    fin_cases i <;> fin_cases j <;> simp [diagonalMatrix, Expr.eval, PG.mirrorZ]

end Shgpy
