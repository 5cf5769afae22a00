import Verif.Proofs.Lookup

/-!
# Fourier integrals of trigonometric polynomials
-/

set_option linter.unusedSectionVars false
set_option linter.unusedSimpArgs false

namespace Shgpy
open Spec

theorem integral_harmonic (k : ℤ) :
    ∫ x in (0 : ℝ)..(2 * Real.pi), Complex.exp (Complex.I * (k * x)) = if k = 0 then 2 * (Real.pi : ℂ) else 0 := by
  by_cases hk : k = 0
  · subst hk
    simp
  · rw [if_neg hk]
    have hc : (Complex.I * (k : ℂ)) ≠ 0 := mul_ne_zero Complex.I_ne_zero (by exact_mod_cast hk)
    have h1 := integral_exp_mul_complex (a := 0) (b := 2 * Real.pi) hc
    have h2 : ∀ x : ℝ, Complex.exp (Complex.I * (k * x)) = Complex.exp (Complex.I * k * x) := by
      intro x; congr 1; ring
    simp only [h2]
    rw [h1]
    have h3 : Complex.exp (Complex.I * k * ((2 * Real.pi : ℝ) : ℂ)) = 1 := by
      rw [Complex.exp_eq_one_iff]
      exact ⟨k, by push_cast; ring⟩
    rw [h3]
    simp

theorem integralCoeff_sum {ι : Type} (s : Finset ι) (c : ι → ℂ) (p : ι → ℤ) (n : ℤ) :
    integralCoeff (fun x => ∑ i ∈ s, c i * Complex.exp (Complex.I * (p i * x))) n =
      ∑ i ∈ s, if p i = n then c i else 0 := by
  unfold integralCoeff
  have h1 : ∀ x : ℝ, (∑ i ∈ s, c i * Complex.exp (Complex.I * (p i * x))) * Complex.exp (-(Complex.I * (n * x)))
      = ∑ i ∈ s, c i * Complex.exp (Complex.I * ((p i - n : ℤ) * x)) := by
    intro x
    rw [Finset.sum_mul]
    refine Finset.sum_congr rfl (fun i _ => ?_)
    rw [mul_assoc, ← Complex.exp_add]
    congr 2
    push_cast
    ring
  simp only [h1]
  rw [intervalIntegral.integral_finsetSum]
  · rw [Finset.mul_sum]
    refine Finset.sum_congr rfl (fun i _ => ?_)
    rw [intervalIntegral.integral_const_mul, integral_harmonic]
    have hpi : (2 * (Real.pi : ℂ)) ≠ 0 := by
      have := Real.pi_ne_zero
      exact mul_ne_zero two_ne_zero (by exact_mod_cast this)
    by_cases h : p i = n
    · rw [if_pos h, if_pos (by omega)]
      field_simp
    · rw [if_neg h, if_neg (by omega)]
      simp
  · intro i _
    apply Continuous.intervalIntegrable
    fun_prop

/-- The coefficients of a trigonometric polynomial with frequencies `-16 … 16`. -/
theorem integralCoeff_range (c : ℕ → ℂ) (n : ℤ) :
    integralCoeff (fun x => ∑ i ∈ Finset.range 33, c i * Complex.exp (Complex.I * (((i : ℤ) - 16 : ℤ) * x))) n =
      if -16 ≤ n ∧ n ≤ 16 then c (n + 16).toNat else 0 := by
  rw [integralCoeff_sum]
  by_cases h : -16 ≤ n ∧ n ≤ 16
  · rw [if_pos h, Finset.sum_eq_single (n + 16).toNat]
    · rw [if_pos (by omega)]
    · intro i _ hi
      rw [if_neg (by omega)]
    · intro hi
      exact absurd (Finset.mem_range.2 (by omega)) hi
  · rw [if_neg h]
    refine Finset.sum_eq_zero (fun i hi => ?_)
    rw [if_neg]
    have := Finset.mem_range.1 hi
    omega

theorem integralCoeff_table {a b : ℕ} (h : a + b ≤ 8) (n : ℤ) :
    integralCoeff (fun x => Complex.cos x ^ a * Complex.sin x ^ b) n = Lookup.entry a b n := by
  have : (fun x : ℝ => Complex.cos x ^ a * Complex.sin x ^ b) = fun x : ℝ => ∑ i ∈ Finset.range 33,
      ((Lookup.row a b).map Lookup.gz).getD i 0 * Complex.exp (Complex.I * (((i : ℤ) - 16 : ℤ) * x)) := by
    funext x
    exact (Lookup.sum_table h x).symm
  rw [this, integralCoeff_range]
  rfl

theorem integralCoeff_const_mul (c : ℂ) (F : ℝ → ℂ) (n : ℤ) :
    integralCoeff (fun x => c * F x) n = c * integralCoeff F n := by
  unfold integralCoeff
  have : ∀ x : ℝ, c * F x * Complex.exp (-(Complex.I * (n * x))) =
      c * (F x * Complex.exp (-(Complex.I * (n * x)))) := fun x => by ring
  simp only [this]
  rw [intervalIntegral.integral_const_mul]
  ring

theorem integralCoeff_add (F G : ℝ → ℂ) (hF : Continuous F) (hG : Continuous G) (n : ℤ) :
    integralCoeff (fun x => F x + G x) n = integralCoeff F n + integralCoeff G n := by
  unfold integralCoeff
  simp only [add_mul]
  rw [intervalIntegral.integral_add]
  · ring
  · apply Continuous.intervalIntegrable
    fun_prop
  · apply Continuous.intervalIntegrable
    fun_prop

theorem integralCoeff_zero (n : ℤ) : integralCoeff (fun _ => 0) n = 0 := by simp [integralCoeff]

theorem integralCoeff_const (c : ℂ) (n : ℤ) : integralCoeff (fun _ => c) n = if n = 0 then c else 0 := by
  have := integralCoeff_sum (ι := Unit) {()} (fun _ => c) (fun _ => 0) n
  simp only [Finset.sum_singleton, Int.cast_zero, zero_mul, mul_zero, Complex.exp_zero, mul_one] at this
  rw [this]
  by_cases h : n = 0
  · rw [if_pos h, if_pos h.symm]
  · rw [if_neg h, if_neg (fun e => h e.symm)]

end Shgpy
