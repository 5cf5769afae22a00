import Verif.Spec.Seen
import Verif.Props.Formgen

/-!
# Lemmas on the tensor elements that a measurement sees
-/

namespace Shgpy
open Spec
open Complex (I)

/-- A vector in the axes of the crystal. -/
noncomputable def inCrystal (φ : ℝ) (v : CVec) : CVec := fun a => ∑ i, rotZ φ i a * v i

/-- The direction of the output polarization. -/
noncomputable def outDir (θ : ℝ) : Pol → CVec
  | .P => ![(Real.cos θ : ℂ), 0, (Real.sin θ : ℂ)]
  | .S => ![0, 1, 0]

/-- The direction in which a magnetic moment is seen. -/
noncomputable def momentDir (θ : ℝ) : Pol → CVec
  | .P => ![0, -(Real.cos (2 * θ) : ℂ), 0]
  | .S => ![(Real.cos θ : ℂ), 0, -(Real.sin θ : ℂ)]

/-- The amplitude of the radiated field. -/
noncomputable def amplitude (X : Crystal) (w m κ u : CVec) : ℂ :=
  ∑ a, ∑ b, ∑ c, X.eee a b c * (w a * u b * u c) + ∑ a, ∑ b, ∑ c, X.mee a b c * (m a * u b * u c) +
    I * ∑ a, ∑ b, ∑ c, ∑ d, X.qee a b c d * (w a * κ b * u c * u d)

theorem sum_push3 (F : Fin 3 → Fin 3 → Fin 3 → Fin 3 → ℂ) : ∑ k, ∑ a, ∑ b, ∑ c, F k a b c = ∑ a, ∑ b, ∑ c, ∑ k, F k a b c := by
  rw [Finset.sum_comm]
  refine Finset.sum_congr rfl (fun a _ => ?_)
  rw [Finset.sum_comm]
  refine Finset.sum_congr rfl (fun b _ => ?_)
  rw [Finset.sum_comm]

theorem sum_push4 (F : Fin 3 → Fin 3 → Fin 3 → Fin 3 → Fin 3 → ℂ) :
    ∑ k, ∑ a, ∑ b, ∑ c, ∑ d, F k a b c d = ∑ a, ∑ b, ∑ c, ∑ d, ∑ k, F k a b c d := by
  rw [Finset.sum_comm]
  exact Finset.sum_congr rfl (fun a _ => sum_push3 _)

theorem quad_rot (R : Fin 3 → Fin 3 → ℂ) (t : T3) (E : CVec) (i : Fin 3) : quad (rot3 R t) E i =
    ∑ a, ∑ b, ∑ c, t a b c * (R i a * (∑ j, R j b * E j) * (∑ k, R k c * E k)) := by
  simp only [quad, rot3, Finset.sum_mul]
  refine ((Finset.sum_congr rfl (fun j _ => sum_push3 _)).trans (sum_push3 _)).trans ?_
  refine Finset.sum_congr rfl (fun a _ => Finset.sum_congr rfl (fun b _ => Finset.sum_congr rfl (fun c _ => ?_)))
  calc _ = ∑ j, ∑ k, (t a b c * R i a) * ((R j b * E j) * (R k c * E k)) :=
        Finset.sum_congr rfl (fun j _ => Finset.sum_congr rfl (fun k _ => by ring))
    _ = (t a b c * R i a) * ((∑ j, R j b * E j) * (∑ k, R k c * E k)) := by simp only [← Finset.mul_sum, ← Finset.sum_mul]
    _ = t a b c * (R i a * (∑ j, R j b * E j) * (∑ k, R k c * E k)) := by ring

theorem quadGrad_rot (R : Fin 3 → Fin 3 → ℂ) (t : T4) (k E : CVec) (i : Fin 3) : quadGrad (rot4 R t) k E i =
    ∑ a, ∑ b, ∑ c, ∑ d, t a b c d * (R i a * (∑ j, R j b * k j) * (∑ j, R j c * E j) * (∑ j, R j d * E j)) := by
  have h : quadGrad (rot4 R t) k E i =
      ∑ j, ∑ x, ∑ y, ∑ a, ∑ b, ∑ c, ∑ d, (t a b c d * R i a) * ((R j b * k j) * ((R x c * E x) * (R y d * E y))) := by
    simp only [quadGrad, rot4, Finset.sum_mul]
    refine Finset.sum_congr rfl (fun j _ => Finset.sum_congr rfl (fun x _ => Finset.sum_congr rfl (fun y _ =>
      Finset.sum_congr rfl (fun a _ => Finset.sum_congr rfl (fun b _ => Finset.sum_congr rfl (fun c _ =>
        Finset.sum_congr rfl (fun d _ => by ring)))))))
  rw [h]
  refine ((Finset.sum_congr rfl (fun j _ => (Finset.sum_congr rfl (fun x _ => sum_push4 _)).trans (sum_push4 _))).trans
    (sum_push4 _)).trans ?_
  refine Finset.sum_congr rfl (fun a _ => Finset.sum_congr rfl (fun b _ => Finset.sum_congr rfl (fun c _ =>
    Finset.sum_congr rfl (fun d _ => ?_))))
  simp only [← Finset.mul_sum, ← Finset.sum_mul]
  ring

/-- Several components at once. -/
theorem dir_quad (R : Fin 3 → Fin 3 → ℂ) (t : T3) (E w : CVec) : ∑ i, w i * quad (rot3 R t) E i =
    ∑ a, ∑ b, ∑ c, t a b c * ((∑ i, R i a * w i) * (∑ j, R j b * E j) * (∑ k, R k c * E k)) := by
  simp only [quad_rot]
  simp only [Fin.sum_univ_three]
  ring

theorem dir_quadGrad (R : Fin 3 → Fin 3 → ℂ) (t : T4) (k E w : CVec) : ∑ i, w i * quadGrad (rot4 R t) k E i =
    ∑ a, ∑ b, ∑ c, ∑ d, t a b c d * ((∑ i, R i a * w i) * (∑ j, R j b * k j) * (∑ j, R j c * E j) * (∑ j, R j d * E j)) := by
  simp only [quadGrad_rot]
  generalize hκ : (fun b => ∑ j, R j b * k j) = κ
  have h1 : ∀ b, ∑ j, R j b * k j = κ b := fun b => congrFun hκ b
  generalize hu : (fun b => ∑ j, R j b * E j) = u
  have h2 : ∀ b, ∑ j, R j b * E j = u b := fun b => congrFun hu b
  simp only [h1, h2, Finset.mul_sum, Finset.sum_mul]
  rw [sum_push4]
  refine Finset.sum_congr rfl (fun a _ => Finset.sum_congr rfl (fun b _ => Finset.sum_congr rfl (fun c _ =>
    Finset.sum_congr rfl (fun d _ => ?_))))
  simp only [Fin.sum_univ_three]
  ring

theorem moment_dir (θ : ℝ) (q : Pol) (M : CVec) : ∑ i, outDir θ q i * cross (kIn θ) M i = ∑ i, momentDir θ q i * M i := by
  cases q
  · simp [outDir, momentDir, cross, kIn, Fin.sum_univ_three, Complex.cos_two_mul]
    linear_combination (M 1) * Complex.sin_sq_add_cos_sq (θ : ℂ)
  · simp [outDir, momentDir, cross, kIn, Fin.sum_univ_three]
    ring

theorem source_amplitude (X : Crystal) (θ φ : ℝ) (E : CVec) (q : Pol) :
    ∑ i, outDir θ q i * source (X.turned φ) (kIn θ) E i =
      amplitude X (inCrystal φ (outDir θ q)) (inCrystal φ (momentDir θ q)) (inCrystal φ (kIn θ)) (inCrystal φ E) := by
  have h1 := dir_quad (rotZ φ) X.eee E (outDir θ q)
  have h2 := (moment_dir θ q (quad (rot3 (rotZ φ) X.mee) E)).trans (dir_quad (rotZ φ) X.mee E (momentDir θ q))
  have h3 := dir_quadGrad (rotZ φ) X.qee (kIn θ) E (outDir θ q)
  unfold amplitude inCrystal
  rw [← h1, ← h2, ← h3]
  simp only [source, Crystal.turned, Fin.sum_univ_three]
  ring

/-- The intensity is the square of the modulus of an amplitude, in the axes of the crystal. -/
theorem intensity_amplitude (X : Crystal) (θ φ : ℝ) (p q : Pol) : intensity X θ φ p q = Complex.normSq
    (amplitude X (inCrystal φ (outDir θ q)) (inCrystal φ (momentDir θ q)) (inCrystal φ (kIn θ)) (inCrystal φ (fieldIn θ p))) := by
  rw [← source_amplitude]
  cases q with
  | S =>
    simp only [intensity, outIntensity, radiated, perp]
    simp [kOut, outDir, Fin.sum_univ_three]
  | P =>
    rw [C44_p_component]
    congr 1
    simp only [radiated, perp, kOut, outDir, Fin.sum_univ_three]
    simp
    ring

theorem inCrystal_apply (φ : ℝ) (v : CVec) : inCrystal φ v =
    ![(Real.cos φ : ℂ) * v 0 + Real.sin φ * v 1, -(Real.sin φ : ℂ) * v 0 + Real.cos φ * v 1, v 2] := by
  funext a
  fin_cases a <;> simp [inCrystal, rotZ, Fin.sum_univ_three]

/-- An axis along which the vector has no component for any azimuth. -/
theorem inCrystal_eq_zero {φ : ℝ} {v : CVec} {a : Fin 3} (h : a = 2 → v 2 = 0) (h' : a ≠ 2 → v 0 = 0 ∧ v 1 = 0) :
    inCrystal φ v a = 0 := by
  rw [inCrystal_apply]
  fin_cases a
  · simp [h' (by decide)]
  · simp [h' (by decide)]
  · simpa using h rfl

theorem inCrystal_field {θ φ : ℝ} {p : Pol} {a : Fin 3} (h : ¬ OfField θ p a) : inCrystal φ (fieldIn θ p) a = 0 := by
  cases p with
  | S =>
    have : a = 2 := by simpa [OfField] using h
    refine inCrystal_eq_zero (fun _ => by simp [fieldIn]) (fun h2 => absurd this h2)
  | P =>
    simp only [OfField, not_and_or, Classical.not_imp, not_not] at h
    refine inCrystal_eq_zero (fun h2 => ?_) (fun h2 => ?_)
    · rcases h with ⟨_, h⟩ | ⟨h, _⟩
      · simp [fieldIn, h]
      · exact absurd h2 h
    · rcases h with ⟨h, _⟩ | ⟨_, h⟩
      · exact absurd h h2
      · simp [fieldIn, h]

theorem inCrystal_out {θ φ : ℝ} {p : Pol} {a : Fin 3} (h : ¬ OfField θ p a) : inCrystal φ (outDir θ p) a = 0 := by
  cases p with
  | S =>
    have : a = 2 := by simpa [OfField] using h
    refine inCrystal_eq_zero (fun _ => by simp [outDir]) (fun h2 => absurd this h2)
  | P =>
    simp only [OfField, not_and_or, Classical.not_imp, not_not] at h
    refine inCrystal_eq_zero (fun h2 => ?_) (fun h2 => ?_)
    · rcases h with ⟨_, h⟩ | ⟨h, _⟩
      · simp [outDir, h]
      · exact absurd h2 h
    · rcases h with ⟨h, _⟩ | ⟨_, h⟩
      · exact absurd h h2
      · simp [outDir, h]

theorem inCrystal_wave {θ φ : ℝ} {a : Fin 3} (h : ¬ OfWave θ a) : inCrystal φ (kIn θ) a = 0 := by
  simp only [OfWave, not_and_or, Classical.not_imp, not_not] at h
  refine inCrystal_eq_zero (fun h2 => ?_) (fun h2 => ?_)
  · rcases h with ⟨_, h⟩ | ⟨h, _⟩
    · simp [kIn, h]
    · exact absurd h2 h
  · rcases h with ⟨h, _⟩ | ⟨_, h⟩
    · exact absurd h h2
    · simp [kIn, h]

theorem inCrystal_moment {θ φ : ℝ} {p : Pol} {a : Fin 3} (h : ¬ OfMoment θ p a) : inCrystal φ (momentDir θ p) a = 0 := by
  cases p with
  | P =>
    simp only [OfMoment, not_and_or, not_not] at h
    refine inCrystal_eq_zero (fun _ => by simp [momentDir]) (fun h2 => ?_)
    rcases h with h | h
    · exact absurd h h2
    · simp only [momentDir, h]; simp
  | S =>
    simp only [OfMoment, not_and_or, Classical.not_imp, not_not] at h
    refine inCrystal_eq_zero (fun h2 => ?_) (fun h2 => ?_)
    · rcases h with ⟨_, h⟩ | ⟨h, _⟩
      · simp [momentDir, h]
      · exact absurd h2 h
    · rcases h with ⟨h, _⟩ | ⟨_, h⟩
      · exact absurd h h2
      · simp [momentDir, h]

/-- At 45 degrees of azimuth every component that is seen differs from zero. -/
theorem inCrystal_ne_zero {v : CVec} {a : Fin 3} (h : a = 2 → v 2 ≠ 0) (h' : a ≠ 2 → v 0 = 0 ∧ v 1 ≠ 0 ∨ v 0 ≠ 0 ∧ v 1 = 0) :
    inCrystal (Real.pi / 4) v a ≠ 0 := by
  have hs : (((√2 : ℝ) : ℂ)) ≠ 0 := by exact_mod_cast (by positivity : (√2 : ℝ) ≠ 0)
  rw [inCrystal_apply, Real.cos_pi_div_four, Real.sin_pi_div_four]
  fin_cases a
  · rcases h' (by decide) with ⟨h1, h2⟩ | ⟨h1, h2⟩ <;> simp [h1, h2]
  · rcases h' (by decide) with ⟨h1, h2⟩ | ⟨h1, h2⟩ <;> simp [h1, h2]
  · simpa using h rfl

theorem cast_ne {x : ℝ} (h : x ≠ 0) : (x : ℂ) ≠ 0 := by exact_mod_cast h

theorem field_ne_zero {θ : ℝ} {p : Pol} {a : Fin 3} (h : OfField θ p a) : inCrystal (Real.pi / 4) (fieldIn θ p) a ≠ 0 := by
  cases p with
  | S => exact inCrystal_ne_zero (fun h2 => absurd h2 h) (fun _ => .inl (by simp [fieldIn]))
  | P => exact inCrystal_ne_zero (fun h2 => by simpa [fieldIn] using cast_ne (h.1 h2))
          (fun h2 => .inr (by simpa [fieldIn] using cast_ne (h.2 h2)))

theorem out_ne_zero {θ : ℝ} {p : Pol} {a : Fin 3} (h : OfField θ p a) : inCrystal (Real.pi / 4) (outDir θ p) a ≠ 0 := by
  cases p with
  | S => exact inCrystal_ne_zero (fun h2 => absurd h2 h) (fun _ => .inl (by simp [outDir]))
  | P => exact inCrystal_ne_zero (fun h2 => by simpa [outDir] using cast_ne (h.1 h2))
          (fun h2 => .inr (by simpa [outDir] using cast_ne (h.2 h2)))

theorem wave_ne_zero {θ : ℝ} {a : Fin 3} (h : OfWave θ a) : inCrystal (Real.pi / 4) (kIn θ) a ≠ 0 :=
  inCrystal_ne_zero (fun h2 => by simpa [kIn] using cast_ne (h.1 h2)) (fun h2 => .inr (by simpa [kIn] using cast_ne (h.2 h2)))

theorem moment_ne_zero {θ : ℝ} {p : Pol} {a : Fin 3} (h : OfMoment θ p a) : inCrystal (Real.pi / 4) (momentDir θ p) a ≠ 0 := by
  cases p with
  | P => exact inCrystal_ne_zero (fun h2 => absurd h2 h.1) (fun _ => .inl (by
          have := cast_ne h.2
          simpa only [momentDir, Matrix.cons_val_zero, Matrix.cons_val_one, true_and, ne_eq, neg_eq_zero] using this))
  | S => exact inCrystal_ne_zero (fun h2 => by simpa [momentDir] using cast_ne (h.1 h2))
          (fun h2 => .inr (by simpa [momentDir] using cast_ne (h.2 h2)))

/-- The amplitude depends on the elements that are seen. -/
theorem amplitude_congr {X Y : Crystal} {w m κ u : CVec}
    (h1 : ∀ i j k, w i ≠ 0 → u j ≠ 0 → u k ≠ 0 → X.eee i j k = Y.eee i j k)
    (h2 : ∀ i j k, m i ≠ 0 → u j ≠ 0 → u k ≠ 0 → X.mee i j k = Y.mee i j k)
    (h3 : ∀ i j k l, w i ≠ 0 → κ j ≠ 0 → u k ≠ 0 → u l ≠ 0 → X.qee i j k l = Y.qee i j k l) :
    amplitude X w m κ u = amplitude Y w m κ u := by
  unfold amplitude
  congr 1
  · congr 1
    · refine Finset.sum_congr rfl (fun a _ => Finset.sum_congr rfl (fun b _ => Finset.sum_congr rfl (fun c _ => ?_)))
      by_cases g : w a * u b * u c = 0
      · rw [g, mul_zero, mul_zero]
      · obtain ⟨⟨g1, g2⟩, g3⟩ := by simpa only [mul_eq_zero, not_or] using g
        rw [h1 a b c g1 g2 g3]
    · refine Finset.sum_congr rfl (fun a _ => Finset.sum_congr rfl (fun b _ => Finset.sum_congr rfl (fun c _ => ?_)))
      by_cases g : m a * u b * u c = 0
      · rw [g, mul_zero, mul_zero]
      · obtain ⟨⟨g1, g2⟩, g3⟩ := by simpa only [mul_eq_zero, not_or] using g
        rw [h2 a b c g1 g2 g3]
  · congr 1
    refine Finset.sum_congr rfl (fun a _ => Finset.sum_congr rfl (fun b _ => Finset.sum_congr rfl (fun c _ =>
      Finset.sum_congr rfl (fun d _ => ?_))))
    by_cases g : w a * κ b * u c * u d = 0
    · rw [g, mul_zero, mul_zero]
    · obtain ⟨⟨⟨g1, g2⟩, g3⟩, g4⟩ := by simpa only [mul_eq_zero, not_or] using g
      rw [h3 a b c d g1 g2 g3 g4]

theorem intensity_seen {θ : ℝ} {p q : Pol} {X Y : Crystal} (h : SameSeen θ p q X Y) (φ : ℝ) :
    intensity X θ φ p q = intensity Y θ φ p q := by
  rw [← intensity_symmetrized X, ← intensity_symmetrized Y, intensity_amplitude, intensity_amplitude]
  congr 1
  have hf : ∀ a, inCrystal φ (fieldIn θ p) a ≠ 0 → OfField θ p a := fun a ha => by_contra fun hn => ha (inCrystal_field hn)
  have ho : ∀ a, inCrystal φ (outDir θ q) a ≠ 0 → OfField θ q a := fun a ha => by_contra fun hn => ha (inCrystal_out hn)
  have hw : ∀ a, inCrystal φ (kIn θ) a ≠ 0 → OfWave θ a := fun a ha => by_contra fun hn => ha (inCrystal_wave hn)
  have hm : ∀ a, inCrystal φ (momentDir θ q) a ≠ 0 → OfMoment θ q a := fun a ha => by_contra fun hn => ha (inCrystal_moment hn)
  exact amplitude_congr (fun i j k a b c => h.eee i j k (ho _ a) (hf _ b) (hf _ c))
    (fun i j k a b c => h.mee i j k (hm _ a) (hf _ b) (hf _ c))
    (fun i j k l a b c d => h.qee i j k l (ho _ a) (hw _ b) (hf _ c) (hf _ d))

theorem amplitude_onlyEee (i j k : Fin 3) (w m κ u : CVec) : amplitude (onlyEee i j k) w m κ u = w i * u j * u k := by
  have : ∀ a b c, (onlyEee i j k).eee a b c * (w a * u b * u c) =
      if a = i then if b = j then if c = k then w a * u b * u c else 0 else 0 else 0 := by
    intro a b c
    by_cases h1 : a = i <;> by_cases h2 : b = j <;> by_cases h3 : c = k <;> simp [onlyEee, h1, h2, h3]
  simp only [amplitude, this]
  simp [onlyEee]

theorem amplitude_onlyMee (i j k : Fin 3) (w m κ u : CVec) : amplitude (onlyMee i j k) w m κ u = m i * u j * u k := by
  have : ∀ a b c, (onlyMee i j k).mee a b c * (m a * u b * u c) =
      if a = i then if b = j then if c = k then m a * u b * u c else 0 else 0 else 0 := by
    intro a b c
    by_cases h1 : a = i <;> by_cases h2 : b = j <;> by_cases h3 : c = k <;> simp [onlyMee, h1, h2, h3]
  simp only [amplitude, this]
  simp [onlyMee]

theorem amplitude_onlyQee (i j k l : Fin 3) (w m κ u : CVec) :
    amplitude (onlyQee i j k l) w m κ u = I * (w i * κ j * u k * u l) := by
  have : ∀ a b c d, (onlyQee i j k l).qee a b c d * (w a * κ b * u c * u d) =
      if a = i then if b = j then if c = k then if d = l then w a * κ b * u c * u d else 0 else 0 else 0 else 0 := by
    intro a b c d
    by_cases h1 : a = i <;> by_cases h2 : b = j <;> by_cases h3 : c = k <;> by_cases h4 : d = l <;>
      simp [onlyQee, h1, h2, h3, h4]
  simp only [amplitude, this]
  simp [onlyQee]

end Shgpy
