import Verif.Proofs.Cubic

/-! The error of cubic interpolation. -/

namespace Shgpy
open Spec

/-! ### Taylor's formula -/

theorem taylor_step {φ φ' : ℝ → ℝ} (h : ∀ x, HasDerivAt φ (φ' x) x) (h0 : φ 0 = 0) {C : ℝ} {k : ℕ} (hb : ∀ t, |φ' t| ≤ C * |t| ^ k) (s : ℝ) :
    |φ s| ≤ C / (k + 1) * |s| ^ (k + 1) := by
  have key : ∀ {φ φ' : ℝ → ℝ}, (∀ x, HasDerivAt φ (φ' x) x) → φ 0 = 0 → (∀ t, |φ' t| ≤ C * |t| ^ k) → ∀ s, 0 ≤ s →
      |φ s| ≤ C / (k + 1) * s ^ (k + 1) := by
    intro φ φ' h h0 hb s hs
    have := image_norm_le_of_norm_deriv_right_le_deriv_boundary (f := φ) (f' := φ') (a := 0) (b := s)
      (B := fun t => C / (k + 1) * t ^ (k + 1)) (B' := fun t => C * t ^ k)
      (fun x _ => (h x).continuousAt.continuousWithinAt) (fun x _ => (h x).hasDerivWithinAt) (by simp [h0]) (fun x => by
        have e := (hasDerivAt_pow (k + 1) x).const_mul (C / (k + 1))
        refine e.congr_deriv ?_
        have : (k : ℝ) + 1 ≠ 0 := by positivity
        push_cast
        field_simp) (fun x hx => by
        have := hb x
        rwa [abs_of_nonneg hx.1] at this) (x := s) ⟨hs, le_rfl⟩
    simpa using this
  rcases le_total 0 s with hs | hs
  · rw [abs_of_nonneg hs]
    exact key h h0 hb s hs
  · have := key (φ := fun t => φ (-t)) (φ' := fun t => -φ' (-t)) (fun x => by
      have e := (h (-x)).comp x (hasDerivAt_neg x)
      refine e.congr_deriv (by ring)) (by simpa using h0) (fun t => by rw [abs_neg]; simpa using hb (-t)) (-s) (by linarith)
    rw [neg_neg] at this
    rwa [abs_of_nonpos hs]

section
variable {f f1 f2 f3 f4 : ℝ → ℝ} (d1 : ∀ x, HasDerivAt f (f1 x) x) (d2 : ∀ x, HasDerivAt f1 (f2 x) x)
  (d3 : ∀ x, HasDerivAt f2 (f3 x) x) (d4 : ∀ x, HasDerivAt f3 (f4 x) x) {B : ℝ} (hB : ∀ x, |f4 x| ≤ B)
include d3 d4 hB

theorem taylor1 (x s : ℝ) : |f2 (x + s) - f2 x - s * f3 x| ≤ B / 2 * s ^ 2 := by
  have hadd : ∀ s : ℝ, HasDerivAt (fun s => x + s) 1 s := fun s => by simpa using (hasDerivAt_id s).const_add x
  have h3 : ∀ s, |f3 (x + s) - f3 x| ≤ B * |s| ^ 1 := by
    intro s
    have := taylor_step (φ := fun s => f3 (x + s) - f3 x) (φ' := fun s => f4 (x + s)) (C := B) (k := 0)
      (fun s => by simpa using ((d4 (x + s)).comp s (hadd s)).sub_const (f3 x)) (by simp) (fun t => by simpa using hB (x + t)) s
    simpa using this
  have := taylor_step (φ := fun s => f2 (x + s) - f2 x - s * f3 x) (φ' := fun s => f3 (x + s) - f3 x) (C := B) (k := 1)
    (fun s => by
      have e := (((d3 (x + s)).comp s (hadd s)).sub_const (f2 x)).sub ((hasDerivAt_id s).mul_const (f3 x))
      exact e.congr_deriv (by simp)) (by simp) h3 s
  rw [sq_abs] at this
  norm_num at this ⊢
  exact this

include d1 d2 in
theorem taylor3 (x s : ℝ) : |f (x + s) - f x - s * f1 x - s ^ 2 / 2 * f2 x - s ^ 3 / 6 * f3 x| ≤ B / 24 * s ^ 4 := by
  have hadd : ∀ s : ℝ, HasDerivAt (fun s => x + s) 1 s := fun s => by simpa using (hasDerivAt_id s).const_add x
  have h2 : ∀ s, |f2 (x + s) - f2 x - s * f3 x| ≤ B / 2 * |s| ^ 2 := fun s => by rw [sq_abs]; exact taylor1 d3 d4 hB x s
  have h1 : ∀ s, |f1 (x + s) - f1 x - s * f2 x - s ^ 2 / 2 * f3 x| ≤ B / 6 * |s| ^ 3 := by
    intro s
    have := taylor_step (φ := fun s => f1 (x + s) - f1 x - s * f2 x - s ^ 2 / 2 * f3 x) (φ' := fun s => f2 (x + s) - f2 x - s * f3 x)
      (C := B / 2) (k := 2) (fun s => by
        have e := ((((d2 (x + s)).comp s (hadd s)).sub_const (f1 x)).sub ((hasDerivAt_id s).mul_const (f2 x))).sub
          (((hasDerivAt_pow 2 s).div_const 2).mul_const (f3 x))
        exact e.congr_deriv (by norm_num)) (by simp) h2 s
    norm_num at this ⊢
    linarith
  have := taylor_step (φ := fun s => f (x + s) - f x - s * f1 x - s ^ 2 / 2 * f2 x - s ^ 3 / 6 * f3 x)
    (φ' := fun s => f1 (x + s) - f1 x - s * f2 x - s ^ 2 / 2 * f3 x)
    (C := B / 6) (k := 3) (fun s => by
      have e := (((((d1 (x + s)).comp s (hadd s)).sub_const (f x)).sub ((hasDerivAt_id s).mul_const (f1 x))).sub
        (((hasDerivAt_pow 2 s).div_const 2).mul_const (f2 x))).sub (((hasDerivAt_pow 3 s).div_const 6).mul_const (f3 x))
      refine e.congr_deriv ?_
      push_cast
      norm_num
      left
      ring) (by simp) h1 s
  rw [show |s| ^ (3 + 1) = s ^ 4 by rw [show (3 + 1) = 2 * 2 by norm_num, pow_mul, sq_abs]; ring] at this
  norm_num at this ⊢
  linarith

include d1 d2 in
/-- The equation of an inner angle, for the second derivatives of the function itself. -/
theorem inner_consistent {a b x : ℝ} {h : ℝ} (ha : 0 < a) (hb : 0 < b) (hah : a ≤ h) (hbh : b ≤ h) :
    |6 * ((f (x + b) - f x) / b - (f x - f (x - a)) / a) - (a * f2 (x - a) + 2 * (a + b) * f2 x + b * f2 (x + b))| ≤
      3 / 4 * B * h ^ 2 * (a + b) := by
  have hB0 : 0 ≤ B := (abs_nonneg _).trans (hB 0)
  have one : ∀ s : ℝ, |6 * (f (x + s) - f x - s * f1 x) - 2 * s ^ 2 * f2 x - s ^ 2 * f2 (x + s)| ≤ 3 / 4 * B * s ^ 4 := by
    intro s
    have e : 6 * (f (x + s) - f x - s * f1 x) - 2 * s ^ 2 * f2 x - s ^ 2 * f2 (x + s) =
        6 * (f (x + s) - f x - s * f1 x - s ^ 2 / 2 * f2 x - s ^ 3 / 6 * f3 x) - s ^ 2 * (f2 (x + s) - f2 x - s * f3 x) := by ring
    rw [e]
    refine (abs_sub _ _).trans ?_
    rw [abs_mul, abs_mul, abs_of_pos (by norm_num : (0 : ℝ) < 6), abs_of_nonneg (sq_nonneg s)]
    have t3 := taylor3 d1 d2 d3 d4 hB x s
    have t1 := mul_le_mul_of_nonneg_left (taylor1 d3 d4 hB x s) (sq_nonneg s)
    calc _ ≤ 6 * (B / 24 * s ^ 4) + s ^ 2 * (B / 2 * s ^ 2) := add_le_add (by linarith) t1
      _ = _ := by ring
  have side : ∀ s : ℝ, ∀ c : ℝ, 0 < c → c ≤ h → s ^ 2 = c ^ 2 →
      |(6 * (f (x + s) - f x - s * f1 x) - 2 * s ^ 2 * f2 x - s ^ 2 * f2 (x + s)) / c| ≤ 3 / 4 * B * h ^ 2 * c := by
    intro s c hc hch hs
    rw [abs_div, abs_of_pos hc, div_le_iff₀ hc]
    refine (one s).trans ?_
    have : s ^ 4 = c ^ 2 * c ^ 2 := by rw [show s ^ 4 = s ^ 2 * s ^ 2 by ring, hs]
    rw [this]
    have hq : c ^ 2 ≤ h ^ 2 := by nlinarith
    have := mul_le_mul_of_nonneg_left hq (by positivity : 0 ≤ 3 / 4 * B * c ^ 2)
    nlinarith
  have e : 6 * ((f (x + b) - f x) / b - (f x - f (x - a)) / a) - (a * f2 (x - a) + 2 * (a + b) * f2 x + b * f2 (x + b)) =
      (6 * (f (x + b) - f x - b * f1 x) - 2 * b ^ 2 * f2 x - b ^ 2 * f2 (x + b)) / b +
      (6 * (f (x + -a) - f x - -a * f1 x) - 2 * (-a) ^ 2 * f2 x - (-a) ^ 2 * f2 (x + -a)) / a := by
    rw [← sub_eq_add_neg]
    field_simp
    ring
  rw [e]
  refine (abs_add_le _ _).trans ?_
  have s1 := side b b hb hbh rfl
  have s2 := side (-a) a ha hah (by ring)
  linarith

/-- The condition at the edge, for the second derivatives of the function itself. -/
theorem edge_consistent {a b x h : ℝ} (ha : 0 < a) (hb : 0 < b) (hah : a ≤ h) (hbh : b ≤ h) :
    |b * (f2 x - f2 (x - a)) - a * (f2 (x + b) - f2 x)| ≤ B * h * (a * b) := by
  have hB0 : 0 ≤ B := (abs_nonneg _).trans (hB 0)
  have e : b * (f2 x - f2 (x - a)) - a * (f2 (x + b) - f2 x) =
      -(b * (f2 (x + -a) - f2 x - -a * f3 x)) - a * (f2 (x + b) - f2 x - b * f3 x) := by
    rw [← sub_eq_add_neg]
    ring
  rw [e]
  refine (abs_sub _ _).trans ?_
  rw [abs_neg, abs_mul, abs_mul, abs_of_pos ha, abs_of_pos hb]
  have t1 := mul_le_mul_of_nonneg_left (taylor1 d3 d4 hB x (-a)) hb.le
  have t2 := mul_le_mul_of_nonneg_left (taylor1 d3 d4 hB x b) ha.le
  have q : (a + b) / 2 ≤ h := by linarith
  have := mul_le_mul_of_nonneg_left q (by positivity : 0 ≤ B * (a * b))
  calc _ ≤ b * (B / 2 * (-a) ^ 2) + a * (B / 2 * b ^ 2) := add_le_add t1 t2
    _ = B * (a * b) * ((a + b) / 2) := by ring
    _ ≤ _ := by linarith

include d1 d2 in
/-- The second derivatives of the interpolation are near those of the function. -/
theorem moments_error {n : ℕ} (hn : 4 ≤ n) {x y : ℕ → ℝ} (hx : Incr n x) {h ρ δ : ℝ} (hh : ∀ i, i + 1 < n → x (i + 1) - x i ≤ h)
    (hρ : ∀ i, i + 1 < n → h ≤ ρ * (x (i + 1) - x i)) (hy : ∀ i, i < n → |y i - f (x i)| ≤ δ) {i : ℕ} (hi : i < n) :
    |moments n x y i - f2 (x i)| ≤ 25 / 4 * ρ * B * h ^ 2 + 36 * ρ ^ 3 * δ / h ^ 2 := by
  have hB0 : 0 ≤ B := (abs_nonneg _).trans (hB 0)
  have hδ : 0 ≤ δ := (abs_nonneg _).trans (hy 0 (by omega))
  have hM := moments_spec hn hx y
  set M := moments n x y with hMdef
  have h01 := hx 0 (by omega)
  have hpos : 0 < h := by linarith [hh 0 (by omega)]
  have hρ1 : 1 ≤ ρ := by
    have k1 := hρ 0 (by omega)
    have k2 := hh 0 (by omega)
    by_contra hc
    push Not at hc
    simp only [zero_add] at k1 k2
    nlinarith
  have hinv : ∀ i, i + 1 < n → 1 / (x (i + 1) - x i) ≤ ρ / h := by
    intro i hi
    have := hx i hi
    rw [div_le_div_iff₀ (by linarith) hpos]
    linarith [hρ i hi]
  set D : ℕ → ℝ := fun i => M i - f2 (x i) with hD
  set R := 3 / 4 * B * h ^ 2 + 12 * ρ ^ 2 * δ / h ^ 2 with hR
  set E := B * h with hE
  have hinner : ∀ i, i + 2 < n → |(x (i + 1) - x i) * D i + 2 * ((x (i + 1) - x i) + (x (i + 2) - x (i + 1))) * D (i + 1) +
      (x (i + 2) - x (i + 1)) * D (i + 2)| ≤ R * ((x (i + 1) - x i) + (x (i + 2) - x (i + 1))) := by
    intro i hi
    have p0 : 0 < x (i + 1) - x i := sub_pos.2 (hx i (by omega))
    have p1 : 0 < x (i + 2) - x (i + 1) := sub_pos.2 (hx (i + 1) (by omega))
    have c := inner_consistent d1 d2 d3 d4 hB (x := x (i + 1)) p0 p1 (hh i (by omega)) (hh (i + 1) (by omega))
    rw [show x (i + 1) + (x (i + 2) - x (i + 1)) = x (i + 2) by ring, show x (i + 1) - (x (i + 1) - x i) = x i by ring] at c
    have m := hM.inner i hi
    have n0 := hy i (by omega)
    have n1 := hy (i + 1) (by omega)
    have n2 := hy (i + 2) (by omega)
    generalize hA : x (i + 1) - x i = a at *
    generalize hBb : x (i + 2) - x (i + 1) = b at *
    have ia : 1 / a ≤ ρ / h := by have := hinv i (by omega); rwa [hA] at this
    have ib : 1 / b ≤ ρ / h := by have := hinv (i + 1) (by omega); rwa [show i + 1 + 1 = i + 2 by ring, hBb] at this
    have noise : |6 * (((y (i + 2) - f (x (i + 2))) - (y (i + 1) - f (x (i + 1)))) / b - ((y (i + 1) - f (x (i + 1))) - (y i - f (x i))) / a)| ≤
        12 * ρ ^ 2 * δ / h ^ 2 * (a + b) := by
      rw [abs_mul, abs_of_pos (by norm_num : (0 : ℝ) < 6)]
      have q2 : |((y (i + 2) - f (x (i + 2))) - (y (i + 1) - f (x (i + 1)))) / b| ≤ 2 * δ * (1 / b) := by
        rw [abs_div, abs_of_pos p1, div_eq_mul_one_div]
        exact mul_le_mul_of_nonneg_right ((abs_sub _ _).trans (by linarith)) (by positivity)
      have q1 : |((y (i + 1) - f (x (i + 1))) - (y i - f (x i))) / a| ≤ 2 * δ * (1 / a) := by
        rw [abs_div, abs_of_pos p0, div_eq_mul_one_div]
        exact mul_le_mul_of_nonneg_right ((abs_sub _ _).trans (by linarith)) (by positivity)
      have q3 := abs_sub (((y (i + 2) - f (x (i + 2))) - (y (i + 1) - f (x (i + 1)))) / b) (((y (i + 1) - f (x (i + 1))) - (y i - f (x i))) / a)
      have q4 : 1 / a + 1 / b = (1 / a * (1 / b)) * (a + b) := by field_simp; ring
      have q5 : 1 / a * (1 / b) ≤ ρ / h * (ρ / h) := mul_le_mul ia ib (by positivity) (by positivity)
      have q6 := mul_le_mul_of_nonneg_right q5 (by positivity : 0 ≤ a + b)
      calc _ ≤ 6 * (2 * δ * (1 / b) + 2 * δ * (1 / a)) := by linarith
        _ = 12 * δ * (1 / a + 1 / b) := by ring
        _ ≤ 12 * δ * (ρ / h * (ρ / h) * (a + b)) := by
            rw [q4]
            exact mul_le_mul_of_nonneg_left q6 (by positivity)
        _ = _ := by field_simp
    have e : a * D i + 2 * (a + b) * D (i + 1) + b * D (i + 2) =
        (6 * ((f (x (i + 2)) - f (x (i + 1))) / b - (f (x (i + 1)) - f (x i)) / a) - (a * f2 (x i) + 2 * (a + b) * f2 (x (i + 1)) + b * f2 (x (i + 2)))) +
        6 * (((y (i + 2) - f (x (i + 2))) - (y (i + 1) - f (x (i + 1)))) / b - ((y (i + 1) - f (x (i + 1))) - (y i - f (x i))) / a) := by
      simp only [hD]
      linear_combination m
    rw [e, hR, add_mul]
    exact (abs_add_le _ _).trans (add_le_add c noise)
  have hleft : |(x 2 - x 1) * (D 1 - D 0) - (x 1 - x 0) * (D 2 - D 1)| ≤ E * ((x 1 - x 0) * (x 2 - x 1)) := by
    have c := edge_consistent d3 d4 hB (x := x 1) (sub_pos.2 (hx 0 (by omega))) (sub_pos.2 (hx 1 (by omega))) (hh 0 (by omega)) (hh 1 (by omega))
    simp only [zero_add, one_add_one_eq_two] at c
    rw [show x 1 + (x 2 - x 1) = x 2 by ring, show x 1 - (x 1 - x 0) = x 0 by ring] at c
    have m := hM.left
    rw [← abs_neg]
    convert c using 2
    simp only [hD]
    linear_combination -m
  have hright : |(x (n - 2) - x (n - 3)) * (D (n - 1) - D (n - 2)) - (x (n - 1) - x (n - 2)) * (D (n - 2) - D (n - 3))| ≤
      E * ((x (n - 1) - x (n - 2)) * (x (n - 2) - x (n - 3))) := by
    have k1 := hx (n - 3) (by omega)
    have k2 := hx (n - 2) (by omega)
    have k3 := hh (n - 3) (by omega)
    have k4 := hh (n - 2) (by omega)
    rw [show n - 3 + 1 = n - 2 by omega] at k1 k3
    rw [show n - 2 + 1 = n - 1 by omega] at k2 k4
    have c := edge_consistent d3 d4 hB (x := x (n - 2)) (sub_pos.2 k1) (sub_pos.2 k2) k3 k4
    rw [show x (n - 2) + (x (n - 1) - x (n - 2)) = x (n - 1) by ring, show x (n - 2) - (x (n - 2) - x (n - 3)) = x (n - 3) by ring] at c
    have m := hM.right
    rw [mul_comm (x (n - 1) - x (n - 2)) (x (n - 2) - x (n - 3))]
    convert c using 2
    simp only [hD]
    linear_combination m
  have hin := stable_x hn hx hh hinner hleft hright
  set μ := R + h * E with hμ
  have hμ0 : 0 ≤ μ := by positivity
  have hedge : ∀ {a b u v w : ℝ}, 0 < a → 0 < b → a ≤ h → h ≤ ρ * b → |b * (u - w) - a * (v - u)| ≤ E * (a * b) → |u| ≤ μ → |v| ≤ μ →
      |w| ≤ 3 * ρ * μ + h * E := by
    intro a b u v w ha hb hah hbh he hu hv
    have hE0 : 0 ≤ E := by positivity
    have hab : a ≤ ρ * b := hah.trans hbh
    have e : b * w = b * u - a * (v - u) - (b * (u - w) - a * (v - u)) := by ring
    have k : b * |w| ≤ b * μ + a * (2 * μ) + E * (a * b) := by
      calc b * |w| = |b * w| := by rw [abs_mul, abs_of_pos hb]
        _ ≤ |b * u| + |a * (v - u)| + |b * (u - w) - a * (v - u)| := by
            rw [e]
            exact (abs_sub _ _).trans (add_le_add_left (abs_sub _ _) _)
        _ ≤ _ := by
            rw [abs_mul b u, abs_mul a (v - u), abs_of_pos ha, abs_of_pos hb]
            have r1 := mul_le_mul_of_nonneg_left hu hb.le
            have r2 := mul_le_mul_of_nonneg_left ((abs_sub v u).trans (add_le_add hv hu)) ha.le
            linarith
    have k2 : b * |w| ≤ b * (3 * ρ * μ + h * E) := by
      have r1 := mul_le_mul_of_nonneg_right hab (by positivity : 0 ≤ 2 * μ)
      have r2 := mul_le_mul_of_nonneg_right hah (by positivity : 0 ≤ E * b)
      have r3 := mul_le_mul_of_nonneg_right hρ1 (by positivity : 0 ≤ b * μ)
      linarith
    exact le_of_mul_le_mul_left k2 hb
  have hall : |D i| ≤ 3 * ρ * μ + h * E := by
    have hE0 : 0 ≤ h * E := by positivity
    by_cases h0 : i = 0
    · subst h0
      exact hedge (sub_pos.2 (hx 0 (by omega))) (sub_pos.2 (hx 1 (by omega))) (hh 0 (by omega)) (hρ 1 (by omega)) hleft
        (hin 1 (by omega) (by omega)) (hin 2 (by omega) (by omega))
    by_cases h1 : i = n - 1
    · subst h1
      have k1 := hx (n - 3) (by omega)
      have k2 := hx (n - 2) (by omega)
      have k3 := hρ (n - 3) (by omega)
      have k4 := hh (n - 2) (by omega)
      rw [show n - 3 + 1 = n - 2 by omega] at k1 k3
      rw [show n - 2 + 1 = n - 1 by omega] at k2 k4
      refine hedge (sub_pos.2 k2) (sub_pos.2 k1) k4 k3 (u := D (n - 2)) (v := D (n - 3)) ?_ (hin (n - 2) (by omega) (by omega)) (hin (n - 3) (by omega) (by omega))
      rw [← abs_neg]
      convert hright using 2
      ring
    · have := hin i (by omega) (by omega)
      have r := mul_le_mul_of_nonneg_right (by linarith : (1 : ℝ) ≤ 3 * ρ) hμ0
      linarith
  refine hall.trans ?_
  rw [hμ, hR, hE]
  have r := mul_le_mul_of_nonneg_right hρ1 (by positivity : 0 ≤ B * h ^ 2)
  have e : 3 * ρ * (3 / 4 * B * h ^ 2 + 12 * ρ ^ 2 * δ / h ^ 2 + h * (B * h)) + h * (B * h) =
      21 / 4 * ρ * B * h ^ 2 + B * h ^ 2 + 36 * ρ ^ 3 * δ / h ^ 2 := by ring
  rw [e]
  linarith

end

end Shgpy
