import Verif.Spec.FloatCost
import Verif.Props.CText
import Verif.Props.FloatSynth
import Mathlib.Analysis.SpecialFunctions.Exponential

/-!
# C122: the accuracy of compiled functions in floating point arithmetic
-/

namespace Shgpy
open Spec

/-! ## Sums and products of lists -/

theorem roundingsL_append (l₁ l₂ : List Expr) : roundingsL (l₁ ++ l₂) = roundingsL l₁ + roundingsL l₂ := by
  induction l₁ with
  | nil => simp [roundingsL]
  | cons e l ih => simp [roundingsL, ih, Nat.add_assoc]

theorem roundingsL_perm {l₁ l₂ : List Expr} (h : l₁.Perm l₂) : roundingsL l₁ = roundingsL l₂ := by
  have : ∀ l, roundingsL l = (l.map roundings).sum := by
    intro l
    induction l with
    | nil => rfl
    | cons e l ih => simp [roundingsL, ih]
  rw [this, this]
  exact (h.map _).sum_eq

section
variable (x : List ℝ)

theorem cEvalSum_eq (l : List Expr) : cEvalSum x l = (l.map (cEval x)).sum := by
  induction l with
  | nil => rfl
  | cons e l ih => simp [cEvalSum, ih]

theorem cEvalProd_eq (l : List Expr) : cEvalProd x l = (l.map (cEval x)).prod := by
  induction l with
  | nil => rfl
  | cons e l ih => simp [cEvalProd, ih]

theorem sizeSum_eq (l : List Expr) : sizeSum x l = (l.map (size x)).sum := by
  induction l with
  | nil => rfl
  | cons e l ih => simp [sizeSum, ih]

theorem sizeProd_eq (l : List Expr) : sizeProd x l = (l.map (size x)).prod := by
  induction l with
  | nil => rfl
  | cons e l ih => simp [sizeProd, ih]

theorem cEval_le_size (e : Expr) : ‖cEval x e‖ ≤ size x e := by
  induction e using Expr.ind with
  | num q =>
    simp only [cEval, size]
    exact_mod_cast (Complex.norm_ratCast q).le
  | hI => simp [cEval, size]
  | sym s => simp [cEval, size]
  | add l ih =>
    simp only [cEval, size]
    induction l with
    | nil => simp [cEvalSum, sizeSum]
    | cons e l ih' =>
      rw [cEvalSum, sizeSum]
      exact (norm_add_le _ _).trans (add_le_add (ih e (by simp)) (ih' (fun e he => ih e (by simp [he]))))
  | mul l ih =>
    simp only [cEval, size]
    induction l with
    | nil => simp [cEvalProd, sizeProd]
    | cons e l ih' =>
      rw [cEvalProd, sizeProd, norm_mul]
      exact mul_le_mul (ih e (by simp)) (ih' (fun e he => ih e (by simp [he]))) (norm_nonneg _) ((norm_nonneg _).trans (ih e (by simp)))
  | pow b n ih =>
    simp only [cEval, size]
    rw [Complex.norm_real, Real.norm_eq_abs, abs_pow]
    exact pow_le_pow_left₀ (abs_nonneg _) ((Complex.abs_re_le_norm _).trans ih) n
  | cos e ih =>
    simp only [cEval, size]
    rw [Complex.norm_real, Real.norm_eq_abs]
    linarith [Real.abs_cos_le_one (cEval x e).re, norm_nonneg (cEval x e)]
  | sin e ih =>
    simp only [cEval, size]
    rw [Complex.norm_real, Real.norm_eq_abs]
    linarith [Real.abs_sin_le_one (cEval x e).re, norm_nonneg (cEval x e)]

theorem size_nonneg (e : Expr) : 0 ≤ size x e := (norm_nonneg _).trans (cEval_le_size x e)

theorem cEvalSum_le (l : List Expr) : ‖cEvalSum x l‖ ≤ sizeSum x l := by
  simpa [cEval, size] using cEval_le_size x (.add l)

theorem cEvalProd_le (l : List Expr) : ‖cEvalProd x l‖ ≤ sizeProd x l := by
  simpa [cEval, size] using cEval_le_size x (.mul l)

end

/-! ## One operation -/

/-- Error of a product. -/
theorem mul_step {c : ℝ} {f : ℂ → ℂ → ℂ} (hf : ∀ z w, ‖f z w - z * w‖ ≤ (c - 1) * (‖z‖ * ‖w‖)) {a₁ a₂ z₁ z₂ : ℂ} {c₁ c₂ B₁ B₂ : ℝ}
    (hc : 1 ≤ c) (hB₁ : ‖a₁‖ ≤ B₁) (hB₂ : ‖a₂‖ ≤ B₂) (h₁ : ‖z₁ - a₁‖ ≤ (c₁ - 1) * B₁) (h₂ : ‖z₂ - a₂‖ ≤ (c₂ - 1) * B₂) (hc₁ : 1 ≤ c₁) :
    ‖f z₁ z₂ - a₁ * a₂‖ ≤ (c₁ * c₂ * c - 1) * (B₁ * B₂) := by
  have n₁ : ‖z₁‖ ≤ c₁ * B₁ := by
    have : ‖z₁‖ ≤ ‖z₁ - a₁‖ + ‖a₁‖ := by simpa using norm_add_le (z₁ - a₁) a₁
    linarith
  have n₂ : ‖z₂‖ ≤ c₂ * B₂ := by
    have : ‖z₂‖ ≤ ‖z₂ - a₂‖ + ‖a₂‖ := by simpa using norm_add_le (z₂ - a₂) a₂
    linarith
  have b₁ : 0 ≤ B₁ := (norm_nonneg _).trans hB₁
  have b₂ : 0 ≤ B₂ := (norm_nonneg _).trans hB₂
  have e₁ : ‖z₁ * z₂ - a₁ * a₂‖ ≤ (c₁ * c₂ - 1) * (B₁ * B₂) := by
    have : z₁ * z₂ - a₁ * a₂ = z₁ * (z₂ - a₂) + (z₁ - a₁) * a₂ := by ring
    rw [this]
    refine (norm_add_le _ _).trans ?_
    rw [norm_mul, norm_mul]
    have t₁ := mul_le_mul n₁ h₂ (norm_nonneg _) (by positivity)
    have t₂ := mul_le_mul h₁ hB₂ (norm_nonneg _) (mul_nonneg (by linarith) b₁)
    nlinarith
  have e₂ := hf z₁ z₂
  have e₃ : ‖z₁‖ * ‖z₂‖ ≤ (c₁ * B₁) * (c₂ * B₂) := mul_le_mul n₁ n₂ (norm_nonneg _) (by positivity)
  have e₄ := mul_le_mul_of_nonneg_left e₃ (by linarith : 0 ≤ c - 1)
  have : f z₁ z₂ - a₁ * a₂ = (f z₁ z₂ - z₁ * z₂) + (z₁ * z₂ - a₁ * a₂) := by ring
  rw [this]
  refine (norm_add_le _ _).trans ?_
  nlinarith

/-- Error of a power. -/
theorem pow_step {a a' c B : ℝ} (hc : 1 ≤ c) (ha : |a| ≤ B) (h : |a' - a| ≤ (c - 1) * B) (n : ℕ) :
    |a' ^ n - a ^ n| ≤ (c ^ n - 1) * B ^ n ∧ |a'| ^ n ≤ (c * B) ^ n := by
  have hB : 0 ≤ B := (abs_nonneg _).trans ha
  have h0 : |a'| ≤ c * B := by
    have : |a'| ≤ |a' - a| + |a| := by simpa using abs_add_le (a' - a) a
    linarith
  refine ⟨?_, pow_le_pow_left₀ (abs_nonneg _) h0 n⟩
  induction n with
  | zero => simp
  | succ n ih =>
    have e : a' ^ (n + 1) - a ^ (n + 1) = (a' ^ n - a ^ n) * a' + a ^ n * (a' - a) := by ring
    rw [e]
    refine (abs_add_le _ _).trans ?_
    rw [abs_mul, abs_mul]
    have hcn : 1 ≤ c ^ n := one_le_pow₀ hc
    have t₁ := mul_le_mul ih h0 (abs_nonneg _) (mul_nonneg (by linarith) (by positivity))
    have t₂ := mul_le_mul (by rw [abs_pow]; exact pow_le_pow_left₀ (abs_nonneg _) ha n : |a ^ n| ≤ B ^ n) h (abs_nonneg _) (by positivity)
    have : (c ^ (n + 1) - 1) * B ^ (n + 1) = (c ^ n - 1) * B ^ n * (c * B) + B ^ n * ((c - 1) * B) := by ring
    linarith

/-! ## Whole expressions -/

/-- The exact value of a job. -/
noncomputable def Job.exact (x : List ℝ) : Job → ℂ
  | .one e => cEval x e
  | .sum l => cEvalSum x l
  | .prod l => cEvalProd x l

/-- The size of a job. -/
noncomputable def Job.size (x : List ℝ) : Job → ℝ
  | .one e => Spec.size x e
  | .sum l => sizeSum x l
  | .prod l => sizeProd x l

/-- The roundings of a job. -/
def Job.roundings : Job → ℕ
  | .one e => Spec.roundings e
  | .sum l => roundingsL l + (l.length - 1)
  | .prod l => roundingsL l + 4 * (l.length - 1)

theorem Job.exact_le (x : List ℝ) (j : Job) : ‖j.exact x‖ ≤ j.size x := by
  cases j with
  | one e => exact cEval_le_size x e
  | sum l => exact cEvalSum_le x l
  | prod l => exact cEvalProd_le x l

section
variable {p : ℕ} {E : FloatC p}

theorem one_le_unit (p n : ℕ) : (1 : ℝ) ≤ (1 + 2⁻¹ ^ p) ^ n := one_le_pow₀ (by
  have : (0 : ℝ) ≤ 2⁻¹ ^ p := by positivity
  linarith)

theorem unit_mono (p : ℕ) {n m : ℕ} (h : n ≤ m) : (1 + 2⁻¹ ^ p : ℝ) ^ n ≤ (1 + 2⁻¹ ^ p) ^ m := pow_le_pow_right₀ (by
  have : (0 : ℝ) ≤ 2⁻¹ ^ p := by positivity
  linarith) h

/-- Whatever is computed is accurate. -/
theorem runs_error (hE : AccurateC E) (hp : 1 ≤ p) {x : List ℝ} {j : Job} {z : ℂ} (h : E.Runs x j z) :
    ‖z - j.exact x‖ ≤ ((1 + 2⁻¹ ^ p) ^ j.roundings - 1) * j.size x := by
  have trig : ∀ {f g : ℝ → ℝ}, (∀ a, |f a - g a| ≤ (1 + 2⁻¹ ^ p : ℝ) ^ 4 - 1) → (∀ a b, |g a - g b| ≤ |a - b|) →
      ∀ {e : Expr} {z : ℂ}, ‖z - cEval x e‖ ≤ ((1 + 2⁻¹ ^ p) ^ roundings e - 1) * size x e →
      ‖(f z.re : ℂ) - (g (cEval x e).re : ℂ)‖ ≤ ((1 + 2⁻¹ ^ p) ^ (roundings e + 4) - 1) * (1 + size x e) := by
    intro f g hf hg e z hz
    rw [← Complex.ofReal_sub, Complex.norm_real, Real.norm_eq_abs]
    have t₁ := hf z.re
    have t₂ := hg z.re (cEval x e).re
    have t₃ := Complex.abs_re_le_norm (z - cEval x e)
    rw [Complex.sub_re] at t₃
    have t₄ := abs_sub_le (f z.re) (g z.re) (g (cEval x e).re)
    have t₅ := unit_mono p (Nat.le_add_right (roundings e) 4)
    have t₆ := unit_mono p (Nat.le_add_left 4 (roundings e))
    have t₇ := mul_le_mul_of_nonneg_right t₅ (size_nonneg x e)
    nlinarith
  induction h with
  | num q =>
    simp only [Job.exact, cEval, Job.roundings, roundings, Job.size, size]
    have := hE.lit q
    rw [← Real.norm_eq_abs, ← Complex.norm_real] at this
    simpa using this
  | I => simp [Job.exact, cEval, Job.roundings, roundings]
  | sym s => simp [Job.exact, cEval, Job.roundings, roundings]
  | add _ ih => simpa only [Job.exact, cEval, Job.roundings, roundings, Job.size, size] using ih
  | mul _ ih => simpa only [Job.exact, cEval, Job.roundings, roundings, Job.size, size] using ih
  | @pow b z n _ ih =>
    simp only [Job.exact, cEval, Job.roundings, roundings, Job.size, size] at ih ⊢
    rw [← Complex.ofReal_sub, Complex.norm_real, Real.norm_eq_abs]
    have h1 : |z.re - (cEval x b).re| ≤ ((1 + 2⁻¹ ^ p) ^ roundings b - 1) * size x b := by
      rw [← Complex.sub_re]
      exact (Complex.abs_re_le_norm _).trans ih
    obtain ⟨h2, h3⟩ := pow_step (one_le_unit p _) ((Complex.abs_re_le_norm _).trans (cEval_le_size x b)) h1 n
    have h4 := hE.pow z.re n
    have h5 := one_le_unit p 4
    have h6 := mul_le_mul_of_nonneg_left h3 (by linarith : 0 ≤ (1 + 2⁻¹ ^ p : ℝ) ^ 4 - 1)
    have h7 := abs_sub_le (E.pow z.re n) (z.re ^ n) ((cEval x b).re ^ n)
    rw [mul_pow, ← pow_mul, mul_comm (roundings b) n] at h6
    rw [← pow_mul, mul_comm (roundings b) n] at h2
    rw [pow_add]
    nlinarith
  | cos _ ih =>
    simp only [Job.exact, cEval, Job.roundings, roundings, Job.size, size] at ih ⊢
    exact trig hE.cos (fun a b => Real.abs_cos_sub_cos_le a b) ih
  | sin _ ih =>
    simp only [Job.exact, cEval, Job.roundings, roundings, Job.size, size] at ih ⊢
    exact trig hE.sin (fun a b => Real.abs_sin_sub_sin_le a b) ih
  | sumNil => simp [Job.exact, cEvalSum, Job.size, sizeSum]
  | sumOne _ ih => simpa [Job.exact, cEvalSum, Job.roundings, roundingsL, Job.size, sizeSum] using ih
  | @sumTwo l l₁ l₂ z₁ z₂ hl hl₁ hl₂ _ _ ih₁ ih₂ =>
    have b₁ := cEvalSum_le x l₁
    have b₂ := cEvalSum_le x l₂
    have e₁ : cEvalSum x l = cEvalSum x l₁ + cEvalSum x l₂ := by
      rw [cEvalSum_eq, cEvalSum_eq, cEvalSum_eq, (hl.map _).sum_eq, List.map_append, List.sum_append]
    have e₂ : sizeSum x l = sizeSum x l₁ + sizeSum x l₂ := by
      rw [sizeSum_eq, sizeSum_eq, sizeSum_eq, (hl.map _).sum_eq, List.map_append, List.sum_append]
    have e₃ : roundingsL l = roundingsL l₁ + roundingsL l₂ := by rw [roundingsL_perm hl, roundingsL_append]
    have e₄ : l.length = l₁.length + l₂.length := by rw [hl.length_eq, List.length_append]
    have p₁ := List.length_pos_iff.2 hl₁
    have p₂ := List.length_pos_iff.2 hl₂
    simp only [Job.exact, Job.roundings, Job.size] at ih₁ ih₂ ⊢
    have hN : ((1 + 2⁻¹ ^ p : ℝ)) ^ (roundingsL l + (l.length - 1)) = (1 + 2⁻¹ ^ p) * (1 + 2⁻¹ ^ p) ^ (roundingsL l + (l.length - 1) - 1) := by
      rw [← pow_succ']
      congr 1
      omega
    rw [hN, e₁, e₂]
    refine rndC_step E.work hp ((norm_add_le _ _).trans (add_le_add b₁ b₂)) ?_
    have m₁ := unit_mono p (n := roundingsL l₁ + (l₁.length - 1)) (m := roundingsL l + (l.length - 1) - 1) (by omega)
    have m₂ := unit_mono p (n := roundingsL l₂ + (l₂.length - 1)) (m := roundingsL l + (l.length - 1) - 1) (by omega)
    have k₁ := ih₁.trans (mul_le_mul_of_nonneg_right (sub_le_sub_right m₁ 1) ((norm_nonneg _).trans b₁))
    have k₂ := ih₂.trans (mul_le_mul_of_nonneg_right (sub_le_sub_right m₂ 1) ((norm_nonneg _).trans b₂))
    have : z₁ + z₂ - (cEvalSum x l₁ + cEvalSum x l₂) = (z₁ - cEvalSum x l₁) + (z₂ - cEvalSum x l₂) := by ring
    rw [this, mul_add]
    exact (norm_add_le _ _).trans (add_le_add k₁ k₂)
  | prodNil => simp [Job.exact, cEvalProd, Job.roundings, roundingsL]
  | prodOne _ ih => simpa [Job.exact, cEvalProd, Job.roundings, roundingsL, Job.size, sizeProd] using ih
  | @prodTwo l l₁ l₂ z₁ z₂ hl hl₁ hl₂ _ _ ih₁ ih₂ =>
    have e₁ : cEvalProd x l = cEvalProd x l₁ * cEvalProd x l₂ := by
      rw [cEvalProd_eq, cEvalProd_eq, cEvalProd_eq, (hl.map _).prod_eq, List.map_append, List.prod_append]
    have e₂ : sizeProd x l = sizeProd x l₁ * sizeProd x l₂ := by
      rw [sizeProd_eq, sizeProd_eq, sizeProd_eq, (hl.map _).prod_eq, List.map_append, List.prod_append]
    have e₃ : roundingsL l = roundingsL l₁ + roundingsL l₂ := by rw [roundingsL_perm hl, roundingsL_append]
    have e₄ : l.length = l₁.length + l₂.length := by rw [hl.length_eq, List.length_append]
    have p₁ := List.length_pos_iff.2 hl₁
    have p₂ := List.length_pos_iff.2 hl₂
    simp only [Job.exact, Job.roundings, Job.size] at ih₁ ih₂ ⊢
    have hN : roundingsL l + 4 * (l.length - 1) =
        (roundingsL l₁ + 4 * (l₁.length - 1)) + (roundingsL l₂ + 4 * (l₂.length - 1)) + 4 := by omega
    rw [hN, e₁, e₂, pow_add, pow_add]
    exact mul_step hE.mul (one_le_unit p 4) (cEvalProd_le x l₁) (cEvalProd_le x l₂) ih₁ ih₂ (one_le_unit p _)

/-- Something is computed. -/
theorem runs_exists (E : FloatC p) (x : List ℝ) (e : Expr) : ∃ z, E.Runs x (.one e) z := by
  induction e using Expr.ind with
  | num q => exact ⟨_, .num q⟩
  | hI => exact ⟨_, .I⟩
  | sym s => exact ⟨_, .sym s⟩
  | add l ih =>
    suffices ∃ z, E.Runs x (.sum l) z from this.imp (fun _ => .add)
    induction l with
    | nil => exact ⟨_, .sumNil⟩
    | cons e l ih' =>
      obtain ⟨z, hz⟩ := ih e (by simp)
      obtain ⟨w, hw⟩ := ih' (fun e he => ih e (by simp [he]))
      by_cases hl : l = []
      · subst hl
        exact ⟨z, .sumOne hz⟩
      · exact ⟨_, .sumTwo (l₁ := [e]) (.refl _) (by simp) hl (.sumOne hz) hw⟩
  | mul l ih =>
    suffices ∃ z, E.Runs x (.prod l) z from this.imp (fun _ => .mul)
    induction l with
    | nil => exact ⟨_, .prodNil⟩
    | cons e l ih' =>
      obtain ⟨z, hz⟩ := ih e (by simp)
      obtain ⟨w, hw⟩ := ih' (fun e he => ih e (by simp [he]))
      by_cases hl : l = []
      · subst hl
        exact ⟨z, .prodOne hz⟩
      · exact ⟨_, .prodTwo (l₁ := [e]) (.refl _) (by simp) hl (.prodOne hz) hw⟩
  | pow b n ih => exact ih.elim (fun z hz => ⟨_, .pow n hz⟩)
  | cos e ih => exact ih.elim (fun z hz => ⟨_, .cos hz⟩)
  | sin e ih => exact ih.elim (fun z hz => ⟨_, .sin hz⟩)

/-- C122.  What the C code of an expression returns in floating point arithmetic, in whatever order the terms and factors are written,
differs from what it returns in exact arithmetic by at most the error of its roundings, relative to the size of the quantities in the
expression. -/
theorem C122_expression (hE : AccurateC E) (hp : 1 ≤ p) (x : List ℝ) (e : Expr) :
    (∃ y, E.Returns x e y) ∧ ∀ y, E.Returns x e y → |y - (cEval x e).re| ≤ roundingError p (roundings e) * size x e := by
  refine ⟨(runs_exists E x e).imp' Complex.re (fun z hz => ⟨z, hz, rfl⟩), ?_⟩
  rintro y ⟨z, hz, rfl⟩
  rw [← Complex.sub_re]
  exact (Complex.abs_re_le_norm _).trans (runs_error hE hp hz)

/-- The sum of the values of the chunks. -/
theorem chunkSum_error (hE : AccurateC E) (hp : 1 ≤ p) {x : List ℝ} {es : List Expr} {ys : List ℝ} (h : List.Forall₂ (E.Returns x) es ys)
    {y : ℝ} (hy : E.chunkSum ys = some y) :
    |y - (es.map (fun e => (cEval x e).re)).sum| ≤ roundingError p (roundingsL es + (es.length - 1)) * sizeSum x es := by
  cases h with
  | nil => exact absurd hy (by simp [FloatC.chunkSum])
  | @cons e y₀ es ys h₀ h =>
    obtain rfl : ys.foldl (fun s y => E.work.rnd (s + y)) y₀ = y := by simpa [FloatC.chunkSum] using hy
    have hc : ∀ e' ∈ e :: es, (1 + 2⁻¹ ^ p : ℝ) ^ roundings e' ≤ (1 + 2⁻¹ ^ p) ^ roundingsL (e :: es) := by
      intro e' he'
      refine unit_mono p ?_
      generalize e :: es = l at he'
      induction l with
      | nil => simp at he'
      | cons a l ih =>
        rw [roundingsL]
        rcases List.mem_cons.1 he' with rfl | h'
        · omega
        · have := ih h'
          omega
    have hone : ∀ e' ∈ e :: es, ∀ y', E.Returns x e' y' →
        ‖((y' : ℝ) : ℂ) - (((cEval x e').re : ℝ) : ℂ)‖ ≤ ((1 + 2⁻¹ ^ p : ℝ) ^ roundingsL (e :: es) - 1) * size x e' := by
      intro e' he' y' hy'
      rw [← Complex.ofReal_sub, Complex.norm_real, Real.norm_eq_abs]
      refine ((C122_expression hE hp x e').2 y' hy').trans (mul_le_mul_of_nonneg_right ?_ (size_nonneg x e'))
      exact sub_le_sub_right (hc e' he') 1
    have hsz : ∀ e', ‖(((cEval x e').re : ℝ) : ℂ)‖ ≤ size x e' := fun e' => by
      rw [Complex.norm_real, Real.norm_eq_abs]
      exact (Complex.abs_re_le_norm _).trans (cEval_le_size x e')
    have key := foldl_rnd E.work hp (es.zip ys) (fun q => ((q.2 : ℝ) : ℂ)) (fun q => (((cEval x q.1).re : ℝ) : ℂ)) (fun q => size x q.1)
      (one_le_unit p (roundingsL (e :: es))) (fun q _ => hsz q.1)
      (fun q hq => hone q.1 (List.mem_cons_of_mem _ (List.of_mem_zip hq).1) q.2 (List.forall₂_zip h hq)) (hsz e)
      (hone e List.mem_cons_self y₀ h₀)
    have hlen := h.length_eq
    have m₁ : (es.zip ys).map (fun q => ((q.2 : ℝ) : ℂ)) = ys.map (fun y : ℝ => (y : ℂ)) := by
      have := congrArg (List.map (fun y : ℝ => (y : ℂ))) (List.map_snd_zip hlen.ge : (es.zip ys).map Prod.snd = ys)
      rwa [List.map_map] at this
    have m₂ : (es.zip ys).map (fun q => (((cEval x q.1).re : ℝ) : ℂ)) = es.map (fun e => (((cEval x e).re : ℝ) : ℂ)) := by
      have := congrArg (List.map (fun e => (((cEval x e).re : ℝ) : ℂ))) (List.map_fst_zip hlen.le : (es.zip ys).map Prod.fst = es)
      rwa [List.map_map] at this
    have m₃ : (es.zip ys).map (fun q => size x q.1) = es.map (size x) := by
      have := congrArg (List.map (size x)) (List.map_fst_zip hlen.le : (es.zip ys).map Prod.fst = es)
      rwa [List.map_map] at this
    have hfold : ∀ (l : List ℝ) (s : ℝ), (l.map (fun y : ℝ => (y : ℂ))).foldl (fun s t => E.work.rndC (s + t)) (s : ℂ) =
        ((l.foldl (fun s y => E.work.rnd (s + y)) s : ℝ) : ℂ) := by
      intro l
      induction l with
      | nil => intro s; rfl
      | cons t l ih =>
        intro s
        rw [List.map_cons, List.foldl_cons, List.foldl_cons, ← Complex.ofReal_add, E.work.rndC_ofReal, ih]
    have hsum : ((cEval x e).re : ℂ) + (es.map (fun e => (((cEval x e).re : ℝ) : ℂ))).sum =
        ((((e :: es).map (fun e => (cEval x e).re)).sum : ℝ) : ℂ) := by
      rw [List.map_cons, List.sum_cons, Complex.ofReal_add]
      congr 1
      have := map_list_sum Complex.ofRealHom (es.map (fun e => (cEval x e).re))
      rw [List.map_map] at this
      exact this.symm
    rw [m₁, m₂, m₃, hfold, hsum, ← Complex.ofReal_sub, Complex.norm_real, Real.norm_eq_abs, List.length_zip, ← hlen, Nat.min_self,
      ← pow_add] at key
    rw [sizeSum, sizeSum_eq]
    unfold roundingError
    have : roundingsL (e :: es) + ((e :: es).length - 1) = es.length + roundingsL (e :: es) := by simp [Nat.add_comm]
    rw [this]
    exact key

/-! ## The cost function and its gradient -/

/-- C122.  The function that `gen_cost_func` compiles, in chunks or not, in floating point arithmetic: what it returns differs from the
misfit by at most the error of its roundings, relative to the size of the quantities that it adds up. -/
theorem C122_cost (hE : AccurateC E) (hp : 1 ≤ p) (S : Sympy) {fform : FFormContainer} (hc : fform.Reachable S) {fdat : FDataContainer}
    {arguments : Option (List Sym)} {l : List Sym} (hl : ArgumentOrder S fform arguments l)
    (hM : fdat.getM = fform.getM) {F : Key → ℤ → Valuation → ℂ} {D : Key → ℤ → ℂ} (hF : FormulaIs fform F)
    (hD : DataIs fform fdat D) (chunk : Bool) (hne : chunk = true → fform.getKeys ≠ [])
    (hpow : CostRealPowers S fform fdat arguments chunk) :
    ∃ n, CostRoundings S fform fdat arguments n chunk ∧ ∀ r : Sym → ℝ, ∃ B, CostSize S fform fdat arguments (l.map r) B chunk ∧
      (∃ y, E.CostReturns S fform fdat arguments (l.map r) y chunk) ∧
      ∀ y, E.CostReturns S fform fdat arguments (l.map r) y chunk →
        |y - misfit fform.getKeys fform.getM F D r| ≤ roundingError p n * B := by
  cases chunk with
  | false =>
    obtain ⟨e, h1, h2⟩ := energyExpr_ok S hc.good hl hF (reads_of_dataIs hD hM)
    refine ⟨_, ⟨e, h1, rfl⟩, fun r => ⟨_, ⟨e, h1, rfl⟩, ?_, ?_⟩⟩
    · exact (C122_expression hE hp (l.map r) e).1.imp (fun y hy => ⟨e, h1, hy⟩)
    · rintro y ⟨e', h3, h4⟩
      obtain rfl : e = e' := Except.ok.inj (h1.symm.trans h3)
      have := (C122_expression hE hp (l.map r) e).2 y h4
      rwa [cEval_eq (hpow e h1), h2.eval, Complex.ofReal_re] at this
  | true =>
    obtain ⟨es, h1, h2, h3⟩ := energyExprList_ok S hc.good hl hF (reads_of_dataIs hD hM) FitCases.compiler
    have hfree : ∀ e ∈ es, ∀ s ∈ e.free, ∃ i, i < l.length ∧ s = xsElem i := energyExprList_free hc hl hM hF hD h1
    refine ⟨_, ⟨es, h1, rfl⟩, fun r => ⟨_, ⟨es, h1, rfl⟩, ?_, ?_⟩⟩
    · obtain ⟨ys, hys⟩ : ∃ ys, List.Forall₂ (E.Returns (l.map r)) es ys := by
        clear h1 h2 h3 hfree
        induction es with
        | nil => exact ⟨[], .nil⟩
        | cons e es ih =>
          obtain ⟨y, hy⟩ := (C122_expression hE hp (l.map r) e).1
          obtain ⟨ys, hys⟩ := ih
          exact ⟨y :: ys, .cons hy hys⟩
      cases hys with
      | nil => exact absurd rfl (h2 (hne rfl))
      | cons hy hys => exact ⟨_, _, _, h1, .cons hy hys, rfl⟩
    · rintro y ⟨es', ys, h4, h5, h6⟩
      obtain rfl : es = es' := Except.ok.inj (h1.symm.trans h4)
      have := chunkSum_error hE hp h5 h6
      have e : (es.map (fun e => (cEval (l.map r) e).re)).sum = misfit fform.getKeys fform.getM F D r := by
        rw [← h3 r]
        refine congrArg List.sum (List.map_congr_left (fun e he => ?_))
        rw [cEval_eq (hpow es h1 e he), FitCases.compiler.spec e _ (by simpa using hfree e he)]
      rwa [e] at this

/-- C122.  Parameters that have the lowest cost in floating point arithmetic have nearly the lowest misfit: if the cost computed for `r₀` is
not above the one computed for `r`, the misfit for `r₀` is at most the one for `r` and the errors of both evaluations. -/
theorem C122_minimum (hE : AccurateC E) (hp : 1 ≤ p) (S : Sympy) {fform : FFormContainer} (hc : fform.Reachable S) {fdat : FDataContainer}
    {arguments : Option (List Sym)} {l : List Sym} (hl : ArgumentOrder S fform arguments l)
    (hM : fdat.getM = fform.getM) {F : Key → ℤ → Valuation → ℂ} {D : Key → ℤ → ℂ} (hF : FormulaIs fform F)
    (hD : DataIs fform fdat D) (chunk : Bool) (hne : chunk = true → fform.getKeys ≠ [])
    (hpow : CostRealPowers S fform fdat arguments chunk) {n : ℕ} (hn : CostRoundings S fform fdat arguments n chunk)
    {r₀ r : Sym → ℝ} {y₀ y B₀ B : ℝ} (hB₀ : CostSize S fform fdat arguments (l.map r₀) B₀ chunk)
    (hB : CostSize S fform fdat arguments (l.map r) B chunk) (hy₀ : E.CostReturns S fform fdat arguments (l.map r₀) y₀ chunk)
    (hy : E.CostReturns S fform fdat arguments (l.map r) y chunk) (hle : y₀ ≤ y) :
    misfit fform.getKeys fform.getM F D r₀ ≤ misfit fform.getKeys fform.getM F D r + roundingError p n * (B₀ + B) := by
  obtain ⟨n', hn', h⟩ := C122_cost hE hp S hc hl hM hF hD chunk hne hpow
  obtain ⟨B₁, h1, _, h2⟩ := h r₀
  obtain ⟨B₂, h3, _, h4⟩ := h r
  have hnn : n' = n := by
    cases chunk with
    | false =>
      obtain ⟨e, he, rfl⟩ := hn
      obtain ⟨e', he', rfl⟩ := hn'
      rw [Except.ok.inj (he.symm.trans he')]
    | true =>
      obtain ⟨e, he, rfl⟩ := hn
      obtain ⟨e', he', rfl⟩ := hn'
      rw [Except.ok.inj (he.symm.trans he')]
  have hBB : ∀ {x : List ℝ} {B B' : ℝ}, CostSize S fform fdat arguments x B chunk → CostSize S fform fdat arguments x B' chunk → B = B' := by
    intro x B B' hB hB'
    cases chunk with
    | false =>
      obtain ⟨e, he, rfl⟩ := hB
      obtain ⟨e', he', rfl⟩ := hB'
      rw [Except.ok.inj (he.symm.trans he')]
    | true =>
      obtain ⟨e, he, rfl⟩ := hB
      obtain ⟨e', he', rfl⟩ := hB'
      rw [Except.ok.inj (he.symm.trans he')]
  have h5 := abs_le.1 (h2 y₀ hy₀)
  have h6 := abs_le.1 (h4 y hy)
  rw [hnn, hBB h1 hB₀] at h5
  rw [hnn, hBB h3 hB] at h6
  rw [mul_add]
  linarith [h5.1, h6.2]

/-- C122.  The compiled gradient in floating point arithmetic: each component differs from the derivative of the misfit by at most the
error of its roundings, relative to the size of the quantities in its expression. -/
theorem C122_gradient (hE : AccurateC E) (hp : 1 ≤ p) (S : Sympy) {fform : FFormContainer} (hc : fform.Reachable S)
    {fdat : FDataContainer} {l : List Sym} (hl : Lists fform l) (hM : fdat.getM = fform.getM)
    {F : Key → ℤ → Valuation → ℂ} {D : Key → ℤ → ℂ} (hF : FormulaIs fform F) (hD : DataIs fform fdat D) {r₁ r₂ : Sym → ℝ}
    (hne : misfit fform.getKeys fform.getM F D r₁ ≠ misfit fform.getKeys fform.getM F D r₂)
    (hpow : ∀ e, energyExpr S fform fdat (some l) = .ok e → RealPowers e ∧ ∀ i, RealPowers (S.norm (e.diff (xsElem i))))
    (r : Sym → ℝ) {i : ℕ} {s : Sym} (hs : l[i]? = some s) :
    ∃ n B d, GradRounding S fform fdat l (l.map r) i n B ∧
      HasDerivAt (fun t => misfit fform.getKeys fform.getM F D (Function.update r s t)) d (r s) ∧
      (∃ y, E.GradReturns S fform fdat l (l.map r) i y) ∧
      ∀ y, E.GradReturns S fform fdat l (l.map r) i y → |y - d| ≤ roundingError p n * B := by
  obtain ⟨e, h1, h2⟩ := energyExpr_ok S hc.good (arguments := some l) (Or.inl ⟨rfl, hl⟩) hF (reads_of_dataIs hD hM)
  have h3 : denergyExpr S l.length e = .ok ((List.range l.length).map (fun i => S.norm (e.diff (xsElem i)))) := by
    unfold denergyExpr
    rw [if_neg (h2.free_ne_nil hne)]
  have hi : i < l.length := (List.getElem?_eq_some_iff.1 hs).1
  have h4 : ((List.range l.length).map (fun i => S.norm (e.diff (xsElem i))))[i]? = some (S.norm (e.diff (xsElem i))) := by
    simp [List.getElem?_map, List.getElem?_range hi]
  have hfree : ∀ s ∈ (S.norm (e.diff (xsElem i))).free, ∃ j, j < l.length ∧ s = xsElem j :=
    fun s hs => h2.free s (free_diff _ _ _ (S.free_norm _ _ hs))
  have hd := h2.hasDerivAt hl.1 S FitCases.compiler r hs
  rw [FitCases.compiler.spec _ _ (by simpa using hfree)] at hd
  have hx := C122_expression hE hp (l.map r) (S.norm (e.diff (xsElem i)))
  refine ⟨_, _, _, ⟨e, _, _, h1, h3, h4, rfl, rfl⟩, hd, hx.1.imp (fun y hy => ⟨e, _, _, h1, h3, h4, hy⟩), ?_⟩
  rintro y ⟨e', es, d, h5, h6, h7, h8⟩
  obtain rfl : e = e' := Except.ok.inj (h1.symm.trans h5)
  obtain rfl := Except.ok.inj (h3.symm.trans h6)
  obtain rfl := Option.some.inj (h4.symm.trans h7)
  have := hx.2 y h8
  rwa [cEval_eq ((hpow e h1).2 i)] at this

/-- C122 in numbers: the relative error of `n` roundings is at most `2 n` units, as long as it is at most one. -/
theorem C122_units {p n : ℕ} (h : 2 * n * (2⁻¹ : ℝ) ^ p ≤ 1) : roundingError p n ≤ 2 * n * 2⁻¹ ^ p := by
  set t : ℝ := n * 2⁻¹ ^ p with ht
  have ht0 : 0 ≤ t := by positivity
  have ht1 : 2 * t ≤ 1 := by rw [ht, ← mul_assoc]; exact h
  have h1 : (1 + 2⁻¹ ^ p : ℝ) ^ n ≤ Real.exp t := by
    rw [ht, Real.exp_nat_mul]
    refine pow_le_pow_left₀ (by positivity) ?_ n
    linarith [Real.add_one_le_exp ((2⁻¹ : ℝ) ^ p)]
  have h2 := Real.exp_bound_div_one_sub_of_interval ht0 (by linarith)
  have h3 : 1 / (1 - t) ≤ 1 + 2 * t := by
    rw [div_le_iff₀ (by linarith)]
    nlinarith
  unfold roundingError
  have : 2 * (n : ℝ) * 2⁻¹ ^ p = 2 * t := by rw [ht]; ring
  rw [this]
  linarith

/-- C122.  Products of complex numbers with rounded operations are as accurate as `AccurateC` says. -/
theorem C122_products (A : FloatArith p) (hp : 1 ≤ p) (z w : ℂ) :
    ‖A.mulC z w - z * w‖ ≤ ((1 + 2⁻¹ ^ p) ^ 4 - 1) * (‖z‖ * ‖w‖) := by
  have h1 := (C120_products A hp z w).1
  have h2 : |(A.mulC z w - z * w).im| ≤ ((1 + 2⁻¹ ^ p) ^ 2 - 1) * (‖z‖ * ‖w‖) := by
    set u : ℝ := 2⁻¹ ^ p with hu
    have hu0 : 0 ≤ u := by positivity
    set a := z.re * w.im with ha'
    set b := z.im * w.re with hb'
    have hcs : |a| + |b| ≤ ‖z‖ * ‖w‖ := by
      refine abs_le_of_sq_le_sq' ?_ (by positivity) |>.2
      rw [mul_pow, ← Complex.normSq_eq_norm_sq, ← Complex.normSq_eq_norm_sq, Complex.normSq_apply, Complex.normSq_apply]
      rw [ha', hb', abs_mul, abs_mul, ← abs_mul_abs_self z.re, ← abs_mul_abs_self z.im, ← abs_mul_abs_self w.re, ← abs_mul_abs_self w.im]
      nlinarith [sq_nonneg (|z.re| * |w.re| - |z.im| * |w.im|)]
    have ha := A.rnd_rel hp a
    have hb := A.rnd_rel hp b
    have h3 := A.rnd_rel hp (A.rnd a + A.rnd b)
    rw [← hu] at ha hb h3
    have h4 : |A.rnd a + A.rnd b - (a + b)| ≤ u * (|a| + |b|) := by
      have e : A.rnd a + A.rnd b - (a + b) = (A.rnd a - a) + (A.rnd b - b) := by ring
      rw [e]
      refine (abs_add_le _ _).trans ?_
      linarith
    have h5 : |A.rnd a + A.rnd b| ≤ (1 + u) * (|a| + |b|) := by
      have : |A.rnd a + A.rnd b| ≤ |A.rnd a + A.rnd b - (a + b)| + |a + b| := by simpa using abs_add_le (A.rnd a + A.rnd b - (a + b)) (a + b)
      have := abs_add_le a b
      linarith
    have h6 := abs_sub_le (A.rnd (A.rnd a + A.rnd b)) (A.rnd a + A.rnd b) (a + b)
    have h7 := mul_le_mul_of_nonneg_left h5 hu0
    have h8 := mul_le_mul_of_nonneg_left hcs (by nlinarith : 0 ≤ (1 + u) ^ 2 - 1)
    have e : (A.mulC z w - z * w).im = A.rnd (A.rnd a + A.rnd b) - (a + b) := by
      rw [Complex.sub_im, Complex.mul_im]
      rfl
    rw [e]
    nlinarith
  have h3 := Complex.norm_le_abs_re_add_abs_im (A.mulC z w - z * w)
  have hN : 0 ≤ ‖z‖ * ‖w‖ := by positivity
  have hu0 : (0 : ℝ) ≤ 2⁻¹ ^ p := by positivity
  have h4 : 2 * ((1 + 2⁻¹ ^ p : ℝ) ^ 2 - 1) ≤ (1 + 2⁻¹ ^ p) ^ 4 - 1 := by nlinarith [sq_nonneg ((1 + 2⁻¹ ^ p : ℝ) ^ 2 - 1)]
  have h5 := mul_le_mul_of_nonneg_right h4 hN
  linarith

end

/-! ## A concrete case -/

/-- Arithmetic with 53 digits whose functions are rounded exact functions. -/
noncomputable def doubleC : FloatC 53 where
  work := nearestArith 53 (by decide)
  lit q := (nearestArith 53 (by decide)).rnd q
  mul := (nearestArith 53 (by decide)).mulC
  pow a n := (nearestArith 53 (by decide)).rnd (a ^ n)
  cos a := (nearestArith 53 (by decide)).rnd (Real.cos a)
  sin a := (nearestArith 53 (by decide)).rnd (Real.sin a)

theorem doubleC_accurate : AccurateC doubleC := by
  have h1 : (2⁻¹ : ℝ) ^ 53 ≤ (1 + 2⁻¹ ^ 53) ^ 4 - 1 := by norm_num
  have h2 : ∀ y : ℝ, |(nearestArith 53 (by decide)).rnd y - y| ≤ ((1 + 2⁻¹ ^ 53) ^ 4 - 1) * |y| := fun y =>
    ((nearestArith 53 (by decide)).rnd_rel (by decide) y).trans (mul_le_mul_of_nonneg_right h1 (abs_nonneg _))
  have h3 : ∀ y : ℝ, |y| ≤ 1 → |(nearestArith 53 (by decide)).rnd y - y| ≤ (1 + 2⁻¹ ^ 53) ^ 4 - 1 := fun y hy =>
    (h2 y).trans (mul_le_of_le_one_right (by norm_num) hy)
  exact ⟨fun q => h2 q, C122_products _ (by decide), fun a n => by rw [← abs_pow]; exact h2 _, fun a => h3 _ (Real.abs_cos_le_one a),
    fun a => h3 _ (Real.abs_sin_le_one a)⟩

namespace FitCases

/-- The cost of the formula `b, a, b` and the data. -/
example (chunk : Bool) : ∃ n, CostRoundings Sympy.plain formula data none n chunk ∧ ∀ r : Sym → ℝ,
    ∃ B, CostSize Sympy.plain formula data none [r symA, r symB] B chunk ∧
      (∃ y, doubleC.CostReturns Sympy.plain formula data none [r symA, r symB] y chunk) ∧
      ∀ y, doubleC.CostReturns Sympy.plain formula data none [r symA, r symB] y chunk →
        |y - misfit formula.getKeys formula.getM F D r| ≤ roundingError 53 n * B :=
  C122_cost doubleC_accurate (by decide) Sympy.plain formula_reachable (.inr ⟨rfl, free_symbols⟩) rfl formulaIs dataIs chunk
    (fun _ => by simp [formula, FFormContainer.getKeys, Dict.keys])
    (C112_real_powers keepsRealPowers_plain formula_realPowers data none chunk)

/-- For any two parameter sets, one has the lower cost in double precision; its misfit is lower up to rounding. -/
example (chunk : Bool) (r₁ r₂ : Sym → ℝ) : ∃ n B, CostRoundings Sympy.plain formula data none n chunk ∧ ∃ r₀ r, (r₀ = r₁ ∧ r = r₂ ∨ r₀ = r₂ ∧ r = r₁) ∧
    misfit formula.getKeys formula.getM F D r₀ ≤ misfit formula.getKeys formula.getM F D r + roundingError 53 n * B := by
  have hp := C112_real_powers keepsRealPowers_plain formula_realPowers data none chunk
  have hk : chunk = true → formula.getKeys ≠ [] := fun _ => by simp [formula, FFormContainer.getKeys, Dict.keys]
  have hl : ArgumentOrder Sympy.plain formula none [symA, symB] := .inr ⟨rfl, free_symbols⟩
  obtain ⟨n, hn, h⟩ := C122_cost doubleC_accurate (by decide) Sympy.plain formula_reachable hl rfl formulaIs dataIs chunk hk hp
  obtain ⟨B₁, h1, ⟨y₁, h2⟩, _⟩ := h r₁
  obtain ⟨B₂, h3, ⟨y₂, h4⟩, _⟩ := h r₂
  rcases le_total y₁ y₂ with hle | hle
  · exact ⟨n, _, hn, r₁, r₂, .inl ⟨rfl, rfl⟩,
      C122_minimum doubleC_accurate (by decide) Sympy.plain formula_reachable hl rfl formulaIs dataIs chunk hk hp hn h1 h3 h2 h4 hle⟩
  · exact ⟨n, _, hn, r₂, r₁, .inr ⟨rfl, rfl⟩,
      C122_minimum doubleC_accurate (by decide) Sympy.plain formula_reachable hl rfl formulaIs dataIs chunk hk hp hn h3 h1 h4 h2 hle⟩

/-- Its derivative with respect to `a`. -/
example (r : Sym → ℝ) : ∃ n B d, GradRounding Sympy.plain formula data [symA, symB] [r symA, r symB] 0 n B ∧
    HasDerivAt (fun t => misfit formula.getKeys formula.getM F D (Function.update r symA t)) d (r symA) ∧
    (∃ y, doubleC.GradReturns Sympy.plain formula data [symA, symB] [r symA, r symB] 0 y) ∧
    ∀ y, doubleC.GradReturns Sympy.plain formula data [symA, symB] [r symA, r symB] 0 y → |y - d| ≤ roundingError 53 n * B :=
  C122_gradient doubleC_accurate (by decide) Sympy.plain formula_reachable
    (getFreeSymbols_lists formula_reachable.good free_symbols).2 rfl formulaIs dataIs not_constant
    (fun e he => ⟨C112_real_powers keepsRealPowers_plain formula_realPowers data _ false e he,
      fun _ => realPowers_diff _ (C112_real_powers keepsRealPowers_plain formula_realPowers data _ false e he)⟩) r rfl

/-- `3 a + b²` takes 13 roundings, and at `a = -1`, `b = 2` its size is 7. -/
example : roundings (.add [.mul [.num 3, .sym (xsElem 0)], .pow (.sym (xsElem 1)) 2]) = 13 ∧
    size [-1, 2] (.add [.mul [.num 3, .sym (xsElem 0)], .pow (.sym (xsElem 1)) 2]) = 7 := by
  refine ⟨rfl, ?_⟩
  simp only [size, sizeSum, sizeProd, xsVal_elem]
  norm_num

/-- In double precision, a million roundings have an error of at most `2^-32`. -/
example : roundingError 53 (10 ^ 6) ≤ 2⁻¹ ^ 32 := (C122_units (by norm_num)).trans (by norm_num)

end FitCases

end Shgpy
