import Verif.Proofs.Intensity
import Verif.Proofs.Integral
import Mathlib.LinearAlgebra.Span.Basic
import Mathlib.Algebra.Algebra.Operations

/-!
# Lemmas: the harmonic content of the intensities
-/

namespace Shgpy
open Spec
open scoped ComplexConjugate

set_option linter.unusedSectionVars false
set_option linter.unusedSimpArgs false

/-- The functions `e^{inx}`, `|n| ≤ d`, and their linear combinations. -/
noncomputable def H (d : ℕ) : Submodule ℂ (ℝ → ℂ) := Submodule.span ℂ {f | ∃ n : ℤ, |n| ≤ d ∧ f = harmonic n}

theorem harmonic_mem {d : ℕ} {n : ℤ} (h : |n| ≤ d) : harmonic n ∈ H d := Submodule.subset_span ⟨n, h, rfl⟩

theorem harmonic_mul (n m : ℤ) : harmonic n * harmonic m = harmonic (n + m) := by
  funext x
  simp only [harmonic, Pi.mul_apply]
  rw [← Complex.exp_add]
  congr 1
  push_cast
  ring

theorem H_mul {d e : ℕ} {f g : ℝ → ℂ} (hf : f ∈ H d) (hg : g ∈ H e) : f * g ∈ H (d + e) := by
  have h1 : f * g ∈ H d * H e := Submodule.mul_mem_mul hf hg
  rw [H, H, Submodule.span_mul_span] at h1
  refine Submodule.span_mono ?_ h1
  rintro _ ⟨_, ⟨n, hn, rfl⟩, _, ⟨m, hm, rfl⟩, rfl⟩
  exact ⟨n + m, (abs_add_le n m).trans (by push_cast; exact add_le_add hn hm), harmonic_mul n m⟩

theorem H_mono {d e : ℕ} (h : d ≤ e) : H d ≤ H e :=
  Submodule.span_mono (fun _ ⟨n, hn, hf⟩ => ⟨n, hn.trans (by exact_mod_cast h), hf⟩)

theorem H_const (c : ℂ) (d : ℕ) : (fun _ : ℝ => c) ∈ H d := by
  have h0 : (fun _ : ℝ => c) = c • harmonic 0 := by
    funext x
    simp [harmonic]
  rw [h0]
  exact Submodule.smul_mem _ _ (harmonic_mem (by simp))

theorem H_conj {d : ℕ} {f : ℝ → ℂ} (hf : f ∈ H d) : (fun x => conj (f x)) ∈ H d := by
  refine Submodule.span_induction (p := fun f _ => (fun x => conj (f x)) ∈ H d) ?_ ?_ ?_ ?_ hf
  · rintro _ ⟨n, hn, rfl⟩
    have : (fun x => conj (harmonic n x)) = harmonic (-n) := by
      funext x
      simp only [harmonic]
      rw [← Complex.exp_conj]
      simp
    rw [this]
    exact harmonic_mem (by rwa [abs_neg])
  · simpa using H_const 0 d
  · intro f g _ _ h1 h2
    have := Submodule.add_mem _ h1 h2
    convert this using 1
    funext x
    simp
  · intro a f _ h1
    have := Submodule.smul_mem _ (conj a) h1
    convert this using 1
    funext x
    simp

theorem H_cos : (fun x : ℝ => (Real.cos x : ℂ)) ∈ H 1 := by
  have : (fun x : ℝ => (Real.cos x : ℂ)) = (1 / 2 : ℂ) • harmonic 1 + (1 / 2 : ℂ) • harmonic (-1) := by
    funext x
    simp only [harmonic, Pi.add_apply, Pi.smul_apply, smul_eq_mul, Complex.ofReal_cos, Complex.cos]
    rw [show (x : ℂ) * Complex.I = Complex.I * (((1 : ℤ) : ℂ) * x) by push_cast; ring,
      show -(x : ℂ) * Complex.I = Complex.I * (((-1 : ℤ) : ℂ) * x) by push_cast; ring]
    ring
  rw [this]
  exact Submodule.add_mem _ (Submodule.smul_mem _ _ (harmonic_mem (by norm_num)))
    (Submodule.smul_mem _ _ (harmonic_mem (by norm_num)))

theorem H_sin : (fun x : ℝ => (Real.sin x : ℂ)) ∈ H 1 := by
  have : (fun x : ℝ => (Real.sin x : ℂ)) = (-Complex.I / 2 : ℂ) • harmonic 1 + (Complex.I / 2 : ℂ) • harmonic (-1) := by
    funext x
    simp only [harmonic, Pi.add_apply, Pi.smul_apply, smul_eq_mul, Complex.ofReal_sin, Complex.sin]
    rw [show (x : ℂ) * Complex.I = Complex.I * (((1 : ℤ) : ℂ) * x) by push_cast; ring,
      show -(x : ℂ) * Complex.I = Complex.I * (((-1 : ℤ) : ℂ) * x) by push_cast; ring]
    ring
  rw [this]
  exact Submodule.add_mem _ (Submodule.smul_mem _ _ (harmonic_mem (by norm_num)))
    (Submodule.smul_mem _ _ (harmonic_mem (by norm_num)))

theorem H_rotZ (i a : Fin 3) : (fun x : ℝ => rotZ x i a) ∈ H 1 := by
  fin_cases i <;> fin_cases a
  · exact H_cos
  · have := Submodule.neg_mem _ H_sin
    exact this
  · exact H_const 0 1
  · exact H_sin
  · exact H_cos
  · exact H_const 0 1
  · exact H_const 0 1
  · exact H_const 0 1
  · exact H_const 1 1

theorem H_add {d : ℕ} {f g : ℝ → ℂ} (hf : f ∈ H d) (hg : g ∈ H d) : (fun x => f x + g x) ∈ H d :=
  Submodule.add_mem _ hf hg
theorem H_sub {d : ℕ} {f g : ℝ → ℂ} (hf : f ∈ H d) (hg : g ∈ H d) : (fun x => f x - g x) ∈ H d :=
  Submodule.sub_mem _ hf hg
theorem H_mul' {d e : ℕ} {f g : ℝ → ℂ} (hf : f ∈ H d) (hg : g ∈ H e) : (fun x => f x * g x) ∈ H (d + e) := H_mul hf hg
theorem H_mul_const {d : ℕ} {f : ℝ → ℂ} (hf : f ∈ H d) (c : ℂ) : (fun x => f x * c) ∈ H d := H_mul (e := 0) hf (H_const c 0)
theorem H_const_mul {d : ℕ} {f : ℝ → ℂ} (hf : f ∈ H d) (c : ℂ) : (fun x => c * f x) ∈ H d := Submodule.smul_mem _ c hf
theorem H_sum {d : ℕ} {ι : Type} (s : Finset ι) {f : ι → ℝ → ℂ} (hf : ∀ i, f i ∈ H d) : (fun x => ∑ i ∈ s, f i x) ∈ H d := by
  have := Submodule.sum_mem (H d) (t := s) (f := f) (fun i _ => hf i)
  convert this using 1
  funext x
  simp

theorem H_rot3 (t : T3) (i j k : Fin 3) : (fun x => rot3 (rotZ x) t i j k) ∈ H 3 := by
  have h3 : ∀ a b c, (fun x => rotZ x i a * rotZ x j b * rotZ x k c * t a b c) ∈ H 3 := fun a b c =>
    H_mul_const (H_mul' (H_mul' (H_rotZ i a) (H_rotZ j b)) (H_rotZ k c)) _
  have h2 := fun a b => H_sum Finset.univ (h3 a b)
  have h1 := fun a => H_sum Finset.univ (h2 a)
  exact H_sum Finset.univ h1

theorem H_rot4 (t : T4) (i j k l : Fin 3) : (fun x => rot4 (rotZ x) t i j k l) ∈ H 4 := by
  have h4 : ∀ a b c d, (fun x => rotZ x i a * rotZ x j b * rotZ x k c * rotZ x l d * t a b c d) ∈ H 4 := fun a b c d =>
    H_mul_const (H_mul' (H_mul' (H_mul' (H_rotZ i a) (H_rotZ j b)) (H_rotZ k c)) (H_rotZ l d)) _
  have h3 := fun a b c => H_sum Finset.univ (h4 a b c)
  have h2 := fun a b => H_sum Finset.univ (h3 a b)
  have h1 := fun a => H_sum Finset.univ (h2 a)
  exact H_sum Finset.univ h1

theorem H_quad (t : T3) (E : CVec) (i : Fin 3) : (fun x => quad (rot3 (rotZ x) t) E i) ∈ H 3 := by
  unfold quad
  exact H_sum _ (fun a => H_sum _ (fun b => H_mul_const (H_mul_const (H_rot3 t i a b) _) _))

theorem H_quadGrad (t : T4) (k E : CVec) (i : Fin 3) : (fun x => quadGrad (rot4 (rotZ x) t) k E i) ∈ H 4 := by
  unfold quadGrad
  exact H_sum _ (fun a => H_sum _ (fun b => H_sum _ (fun c =>
    H_mul_const (H_mul_const (H_mul_const (H_rot4 t i a b c) _) _) _)))

theorem H_cross {d : ℕ} (k : CVec) {v : ℝ → CVec} (h : ∀ i, (fun x => v x i) ∈ H d) (i : Fin 3) :
    (fun x => cross k (v x) i) ∈ H d := by
  fin_cases i <;> exact H_sub (H_const_mul (h _) _) (H_const_mul (h _) _)

theorem H_perp {d : ℕ} (k : CVec) {v : ℝ → CVec} (h : ∀ i, (fun x => v x i) ∈ H d) (i : Fin 3) :
    (fun x => perp k (v x) i) ∈ H d := by
  unfold perp dot
  exact H_sub (h i) (H_mul_const (H_sum _ (fun j => H_const_mul (h j) _)) _)

/-- The degree of the fields. -/
theorem H_radiated (X : Crystal) (θ : ℝ) (p : Pol) (i : Fin 3) : (fun x => radiated X θ x p i) ∈ H 4 := by
  unfold radiated
  refine H_perp _ (fun j => ?_) i
  unfold source Crystal.turned
  exact H_add (H_add (H_mono (by omega) (H_quad _ _ _))
    (H_mono (by omega) (H_cross (d := 3) _ (fun l => H_quad _ _ l) _))) (H_const_mul (H_quadGrad _ _ _ _) _)

theorem H_radiated_dipole (X : Crystal) (hq : X.qee = 0) (θ : ℝ) (p : Pol) (i : Fin 3) :
    (fun x => radiated X θ x p i) ∈ H 3 := by
  unfold radiated
  refine H_perp _ (fun j => ?_) i
  have h0 : ∀ x E, quadGrad (rot4 (rotZ x) 0) (kIn θ) E = 0 := by
    intro x E; funext i; simp [quadGrad, rot4]
  unfold source Crystal.turned
  simp only [hq, h0, Pi.zero_apply, mul_zero, add_zero]
  exact H_add (H_quad _ _ _) (H_cross _ (fun l => H_quad _ _ l) _)

theorem H_normSq {d : ℕ} {f : ℝ → ℂ} (hf : f ∈ H d) : (fun x => (Complex.normSq (f x) : ℂ)) ∈ H (d + d) := by
  have := H_mul' hf (H_conj hf)
  simpa only [Complex.mul_conj] using this

theorem H_outIntensity {d : ℕ} {v : ℝ → CVec} (h : ∀ i, (fun x => v x i) ∈ H d) (q : Pol) :
    (fun x => (outIntensity (v x) q : ℂ)) ∈ H (d + d) := by
  cases q
  · simp only [outIntensity, Complex.ofReal_add]
    exact H_add (H_normSq (h 0)) (H_normSq (h 2))
  · exact H_normSq (h 1)

theorem trigDegree_of_mem {d : ℕ} {f : ℝ → ℂ} (hf : f ∈ H d) : TrigDegree d f := by
  refine Submodule.span_induction (p := fun f _ => TrigDegree d f) ?_ ?_ ?_ ?_ hf
  · rintro _ ⟨n, hn, rfl⟩
    refine ⟨fun m => if m = n then 1 else 0, fun x => ?_⟩
    simp only [ite_mul, one_mul, zero_mul]
    rw [Finset.sum_ite_eq', if_pos]
    rw [Finset.mem_Icc]
    exact abs_le.1 hn
  · exact ⟨0, fun x => by simp⟩
  · rintro f g _ _ ⟨c, hc⟩ ⟨c', hc'⟩
    refine ⟨fun n => c n + c' n, fun x => ?_⟩
    simp only [Pi.add_apply, hc, hc', add_mul, Finset.sum_add_distrib]
  · rintro a f _ ⟨c, hc⟩
    refine ⟨fun n => a * c n, fun x => ?_⟩
    simp only [Pi.smul_apply, smul_eq_mul, hc, Finset.mul_sum, mul_assoc]

theorem TrigDegree.coeff_zero {d : ℕ} {f : ℝ → ℂ} (h : TrigDegree d f) {n : ℤ} (hn : (d : ℤ) < |n|) :
    integralCoeff f n = 0 := by
  obtain ⟨c, hc⟩ := h
  have : f = fun x : ℝ => ∑ m ∈ Finset.Icc (-(d : ℤ)) d, c m * Complex.exp (Complex.I * (m * x)) := by
    funext x; exact hc x
  rw [this]
  have := integralCoeff_sum (Finset.Icc (-(d : ℤ)) d) c (fun m => m) n
  rw [this]
  refine Finset.sum_eq_zero (fun m hm => if_neg ?_)
  rintro rfl
  rw [Finset.mem_Icc] at hm
  exact absurd (abs_le.2 hm) (by omega)

/-- A trigonometric polynomial is the sum of its Fourier series. -/
theorem TrigDegree.series {d : ℕ} {f : ℝ → ℂ} (h : TrigDegree d f) (x : ℝ) :
    f x = ∑ n ∈ Finset.Icc (-(d : ℤ)) d, integralCoeff f n * harmonic n x := by
  obtain ⟨c, hc⟩ := h
  have hf : f = fun x : ℝ => ∑ m ∈ Finset.Icc (-(d : ℤ)) d, c m * Complex.exp (Complex.I * (m * x)) := by
    funext x; exact hc x
  rw [hc]
  refine Finset.sum_congr rfl (fun n hn => ?_)
  have := integralCoeff_sum (Finset.Icc (-(d : ℤ)) d) c (fun m => m) n
  rw [← hf] at this
  rw [this, Finset.sum_ite_eq', if_pos hn]

end Shgpy
