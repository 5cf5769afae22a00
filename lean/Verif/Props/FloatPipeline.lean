import Verif.Props.FloatFourier
import Verif.Props.FloatCost
import Verif.Props.Noise
import Verif.Spec.FloatPipeline

/-!
# Property C124: a fit computed in floating point arithmetic is nearly the best fit of the measurement
-/

set_option linter.unusedSectionVars false

namespace Shgpy
open Spec

theorem sqrt_add_le_add {a b : ℝ} (ha : 0 ≤ a) (hb : 0 ≤ b) : √(a + b) ≤ √a + √b := by
  refine Real.sqrt_le_iff.2 ⟨by positivity, ?_⟩
  nlinarith [Real.sq_sqrt ha, Real.sq_sqrt hb, mul_nonneg (Real.sqrt_nonneg a) (Real.sqrt_nonneg b)]

section
variable {S : Sympy} {fform : FFormContainer} {F : Key → ℤ → Valuation → ℂ} {interp : Interp} {dat : DataContainer ℝ}

theorem sizeSum_nonneg' (x : List ℝ) (l : List Expr) : 0 ≤ sizeSum x l := by
  have := size_nonneg x (.add l)
  simpa only [size] using this

theorem costSize_nonneg {fdat : FDataContainer} {arguments : Option (List Sym)} {x : List ℝ}
    {B : ℝ} {chunk : Bool} (h : CostSize S fform fdat arguments x B chunk) : 0 ≤ B := by
  cases chunk with
  | false => obtain ⟨e, _, rfl⟩ := h; exact size_nonneg x e
  | true => obtain ⟨es, _, rfl⟩ := h; exact sizeSum_nonneg' x es

/-- **C124.**  Measurement, `dat_to_fdat` and the compiled cost, all in floating point arithmetic.  The call succeeds, the cost function can
be evaluated at all parameters, and whenever the cost that it returns for `r` is not above the one for `r₀`, the root of the
mean squared deviation of the pattern of `r` from the interpolated measurement exceeds the one of `r₀` by at most `fitError`; the
patterns of `r` and `r₀` differ by at most twice the deviation of the measurement from the pattern of `r₀` and `fitError`, in the root
mean square, and by at most `√(2M + 1)` times as much at every angle. -/
theorem C124_pipeline {p q : ℕ} {E₁ : FloatFourier p q} {E₂ : FloatC p} (hp : 1 ≤ p) (hq : 1 ≤ q) (hE₂ : AccurateC E₂)
    (hd : dat.Reachable) (hc : fform.Reachable S) (hS : KeepsRealPowers S) (hpow : FormulaRealPowers fform)
    (hF : FormulaIs fform F) (hk : ∀ k ∈ fform.getKeys, k ∈ dat.getKeys) {y : Key → ℝ → ℝ} (hy : Interpolates E₁ interp dat y)
    {N : ℕ} (hlen : ∀ k pts, dat.getPc k sRadians = .ok pts → pts.length = N) (hN : 2 * fform.getM < N)
    {ω η b : ℝ} (hω : 0 ≤ ω) (hη : 0 ≤ η) (hE₁ : Accurate E₁ fform.getM N ω η)
    (hb : ∀ k ∈ fform.getKeys, gridMean N (fun x => |y k x|) ≤ b) (hb0 : 0 ≤ b)
    {arguments : Option (List Sym)} {l : List Sym} (hl : ArgumentOrder S fform arguments l)
    (chunk : Bool) (hne : chunk = true → fform.getKeys ≠ []) :
    ∃ fdat n, datToFdatFloat E₁ interp dat fform.getM = .ok fdat ∧ CostRoundings S fform fdat arguments n chunk ∧
      (∀ r, ∃ z B, E₂.CostReturns S fform fdat arguments (l.map r) z chunk ∧ CostSize S fform fdat arguments (l.map r) B chunk) ∧
      ∀ r r₀ z z₀ B B₀, E₂.CostReturns S fform fdat arguments (l.map r) z chunk → E₂.CostReturns S fform fdat arguments (l.map r₀) z₀ chunk →
        CostSize S fform fdat arguments (l.map r) B chunk → CostSize S fform fdat arguments (l.map r₀) B₀ chunk → z ≤ z₀ →
        √(squares fform.getKeys fform.getM F (fun _ => N) y r) ≤ √(squares fform.getKeys fform.getM F (fun _ => N) y r₀) +
          fitError p q N ω η b fform.getKeys.length fform.getM n (B + B₀) ∧
        (∀ N', (∀ k ∈ fform.getKeys, 2 * fform.getM < N' k) → √(deviation fform.getKeys fform.getM F N' r r₀) ≤
          2 * √(squares fform.getKeys fform.getM F (fun _ => N) y r₀) +
            fitError p q N ω η b fform.getKeys.length fform.getM n (B + B₀)) ∧
        ∀ k ∈ fform.getKeys, ∀ x,
          ‖pattern fform.getM (fun m => F k m (realVal r)) x - pattern fform.getM (fun m => F k m (realVal r₀)) x‖ ≤
            √(2 * fform.getM + 1) * (2 * √(squares fform.getKeys fform.getM F (fun _ => N) y r₀) +
              fitError p q N ω η b fform.getKeys.length fform.getM n (B + B₀)) := by
  obtain ⟨fdat, D, h1, h2, hD, herr0, hclose⟩ := floatData E₁ hp hq hd hk hy hlen hω hη hE₁ hb
  have hcp := C112_real_powers hS hpow fdat arguments chunk
  obtain ⟨n, hn, hcost⟩ := C122_cost hE₂ hp S hc hl h2 hF hD chunk hne hcp
  refine ⟨fdat, n, h1, hn, fun r => ?_, ?_⟩
  · obtain ⟨B, hB, ⟨z, hz⟩, _⟩ := hcost r
    exact ⟨z, B, hz, hB⟩
  · intro r r₀ z z₀ B B₀ hz hz₀ hB hB₀ hle
    have hmin := C122_minimum hE₂ hp S hc hl h2 hF hD chunk hne hcp hn hB hB₀ hz hz₀ hle
    obtain ⟨R, hR, hsq⟩ := squares_misfit fform.getKeys fform.getM F (N := fun _ => N) y (fun _ _ => hN)
    have hnn : ∀ D r, 0 ≤ misfit fform.getKeys fform.getM F D r := fun D r => (C57_zero_iff _ _ F D r).1
    have hεb : 0 ≤ fourierError p q N ω η * b := mul_nonneg herr0 hb0
    have hrnd : 0 ≤ roundingError p n * (B + B₀) := by
      refine mul_nonneg ?_ (add_nonneg (costSize_nonneg hB) (costSize_nonneg hB₀))
      have : (1 : ℝ) ≤ (1 + 2⁻¹ ^ p) ^ n := one_le_pow₀ (by linarith [show (0 : ℝ) ≤ 2⁻¹ ^ p by positivity])
      unfold roundingError
      linarith
    have hbest : √(squares fform.getKeys fform.getM F (fun _ => N) y r) ≤ √(squares fform.getKeys fform.getM F (fun _ => N) y r₀) +
        fitError p q N ω η b fform.getKeys.length fform.getM n (B + B₀) := by
      have a1 := abs_le.1 (sqrt_misfit fform.getKeys fform.getM F hεb hclose r)
      have a2 := abs_le.1 (sqrt_misfit fform.getKeys fform.getM F hεb hclose r₀)
      have a3 := (Real.sqrt_le_sqrt hmin).trans (sqrt_add_le_add (hnn D r₀) hrnd)
      unfold fitError
      refine sqrt_add_le hR (by rw [hsq]; linarith [hnn (fun k m => dft N (y k) m) r])
        (by rw [hsq]; linarith [hnn (fun k m => dft N (y k) m) r₀]) (by positivity) ?_
      rw [hsq r, hsq r₀, add_sub_cancel_right, add_sub_cancel_right]
      linarith [a1.1, a2.2]
    have hdev : ∀ N', (∀ k ∈ fform.getKeys, 2 * fform.getM < N' k) → √(deviation fform.getKeys fform.getM F N' r r₀) ≤
        2 * √(squares fform.getKeys fform.getM F (fun _ => N) y r₀) +
          fitError p q N ω η b fform.getKeys.length fform.getM n (B + B₀) := by
      intro N' hN'
      have := deviation_squares fform.getKeys fform.getM F (N := fun _ => N) y (fun _ _ => hN) hN' r r₀
      linarith
    refine ⟨hbest, hdev, fun k hkk x => ?_⟩
    refine (pattern_le_deviation fform.getKeys fform.getM F (N := fun _ => N) (fun _ _ => hN) r r₀ hkk x).trans ?_
    exact mul_le_mul_of_nonneg_left (hdev (fun _ => N) (fun _ _ => hN)) (Real.sqrt_nonneg _)

end

/-- **C124.**  The size of the error for double precision and data stored in single precision. -/
theorem C124_double {N : ℕ} (hN : N ≤ 2 ^ 20) {ω η b B : ℝ} (hω : ω ≤ 2⁻¹ ^ 50) (hη : η ≤ 2⁻¹ ^ 40) (hω0 : 0 ≤ ω) (hη0 : 0 ≤ η)
    (hb : 0 ≤ b) (hB : 0 ≤ B) (K M : ℕ) {n : ℕ} (hn : n ≤ 2 ^ 52) :
    fitError 53 24 N ω η b K M n B ≤ 2⁻¹ ^ 22 * b * √(K * (2 * M + 1)) + √(n * 2⁻¹ ^ 52 * B) := by
  have h1 := C98_single hN hω hη hω0 hη0
  have hn' : (n : ℝ) ≤ 2 ^ 52 := by exact_mod_cast hn
  have h2 := C122_units (p := 53) (n := n) (by
    rw [inv_pow, ← div_eq_mul_inv, div_le_one (by positivity)]
    linarith)
  have h3 : roundingError 53 n * B ≤ n * 2⁻¹ ^ 52 * B := by
    refine mul_le_mul_of_nonneg_right (h2.trans (le_of_eq ?_)) hB
    rw [pow_succ]; ring
  unfold fitError
  refine add_le_add ?_ (Real.sqrt_le_sqrt h3)
  have h4 := mul_le_mul_of_nonneg_right (mul_le_mul_of_nonneg_right h1 hb) (Real.sqrt_nonneg (K * (2 * M + 1)))
  have e : (2⁻¹ : ℝ) ^ 22 = 2 * 2⁻¹ ^ 23 := by rw [pow_succ]; ring
  rw [e]
  linarith

/-! ### A concrete case -/

/-- Four measured points and the formula `b, a, b`: of any two parameter sets, the one with the lower cost in double precision
has the lower deviation up to the error. -/
example (chunk : Bool) (r₁ r₂ : Sym → ℝ) : ∃ fdat n B r r₀,
    datToFdatFloat doubleSingle pulseInterp pulse FitCases.formula.getM = .ok fdat ∧
    CostRoundings Sympy.plain FitCases.formula fdat none n chunk ∧ (r = r₁ ∧ r₀ = r₂ ∨ r = r₂ ∧ r₀ = r₁) ∧
    √(squares FitCases.formula.getKeys FitCases.formula.getM FitCases.F (fun _ => 4) (fun _ x => if x = 0 then 1 else 0) r) ≤
      √(squares FitCases.formula.getKeys FitCases.formula.getM FitCases.F (fun _ => 4) (fun _ x => if x = 0 then 1 else 0) r₀) +
      fitError 53 24 4 0 0 (1 / 4) FitCases.formula.getKeys.length FitCases.formula.getM n B := by
  obtain ⟨fdat, n, h1, h2, h3, h4⟩ := C124_pipeline (E₁ := doubleSingle) (E₂ := doubleC) (by decide) (by decide) doubleC_accurate
    pulse_reachable FitCases.formula_reachable keepsRealPowers_plain FitCases.formula_realPowers FitCases.formulaIs
    (interp := pulseInterp) (y := fun _ x => if x = 0 then 1 else 0) (N := 4) (b := 1 / 4) (by
      intro k hk
      have : k = kPP := by simpa [FitCases.formula, FFormContainer.getKeys, Dict.keys] using hk
      rw [this]; simp [pulse, DataContainer.getKeys, Dict.keys]) (by
      intro k pts hk
      obtain ⟨h1, h2, h3⟩ := pulse_interp k pts hk
      refine ⟨h1, _, h2, fun j hj => ?_⟩
      rw [doubleSingle_grid hj]) (fun k pts hk => (pulse_interp k pts hk).2.2) (by decide) le_rfl le_rfl
    (doubleSingle_accurate (by decide)) (by
      intro k _
      refine le_of_eq ?_
      have h := dft_pulse 0
      rw [dft_zero] at h
      have e : (fun x : ℝ => |if x = 0 then (1 : ℝ) else 0|) = fun x => if x = 0 then 1 else 0 := by
        funext x; split <;> simp
      rw [e]
      exact Complex.ofReal_injective (h.trans (by push_cast; rfl))) (by norm_num) (Or.inr ⟨rfl, FitCases.free_symbols⟩) chunk
    (fun _ => by simp [FitCases.formula, FFormContainer.getKeys, Dict.keys])
  obtain ⟨z₁, B₁, g1, g2⟩ := h3 r₁
  obtain ⟨z₂, B₂, g3, g4⟩ := h3 r₂
  rcases le_total z₁ z₂ with hle | hle
  · exact ⟨fdat, n, _, r₁, r₂, h1, h2, .inl ⟨rfl, rfl⟩, (h4 r₁ r₂ _ _ _ _ g1 g3 g2 g4 hle).1⟩
  · exact ⟨fdat, n, _, r₂, r₁, h1, h2, .inr ⟨rfl, rfl⟩, (h4 r₂ r₁ _ _ _ _ g3 g1 g4 g2 hle).1⟩

end Shgpy
