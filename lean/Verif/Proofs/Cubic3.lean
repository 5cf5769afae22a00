import Verif.Proofs.Cubic2
import Verif.Spec.Cubic

/-! Cubic interpolation of lists of points. -/

namespace Shgpy
open Spec

theorem getD_at {α : Type} {l : List α} {d : α} {i : ℕ} (h : i < l.length) : l.getD i d = l[i] := by
  rw [List.getD_eq_getElem?_getD, List.getElem?_eq_getElem h]
  rfl

theorem incr_of_pairwise {pts : List (ℝ × ℝ)} (hp : pts.Pairwise (fun p q => p.1 < q.1)) :
    Incr pts.length (fun i => (pts.getD i (0, 0)).1) := by
  intro i hi
  have := List.pairwise_iff_getElem.1 hp i (i + 1) (by omega) hi (by omega)
  show (pts.getD i (0, 0)).1 < (pts.getD (i + 1) (0, 0)).1
  rw [getD_at (by omega), getD_at hi]
  exact this

theorem cubicInterp_ok {pts : List (ℝ × ℝ)} (h4 : 4 ≤ pts.length) (hp : pts.Pairwise (fun p q => p.1 < q.1)) :
    cubicInterp pts = .ok (fun x => piece (pts.getD (interval pts x - 1) (0, 0)).1 (pts.getD (interval pts x) (0, 0)).1
      (pts.getD (interval pts x - 1) (0, 0)).2 (pts.getD (interval pts x) (0, 0)).2
      (moments pts.length (fun i => (pts.getD i (0, 0)).1) (fun i => (pts.getD i (0, 0)).2) (interval pts x - 1))
      (moments pts.length (fun i => (pts.getD i (0, 0)).1) (fun i => (pts.getD i (0, 0)).2) (interval pts x)) x) := by
  unfold cubicInterp
  rw [if_neg]
  rintro (h | h)
  · omega
  · exact h (List.pairwise_map.2 hp)

theorem cubicInterp_ok_iff {pts : List (ℝ × ℝ)} {f : ℝ → ℝ} (h : cubicInterp pts = .ok f) :
    4 ≤ pts.length ∧ pts.Pairwise (fun p q => p.1 < q.1) := by
  unfold cubicInterp at h
  split_ifs at h with hc
  push Not at hc
  exact ⟨hc.1, List.pairwise_map.1 hc.2⟩

/-- The interpolation of values near a curve. -/
theorem cubicInterp_error {f f1 f2 f3 f4 : ℝ → ℝ} (d1 : ∀ x, HasDerivAt f (f1 x) x) (d2 : ∀ x, HasDerivAt f1 (f2 x) x)
    (d3 : ∀ x, HasDerivAt f2 (f3 x) x) (d4 : ∀ x, HasDerivAt f3 (f4 x) x) {B : ℝ} (hB : ∀ x, |f4 x| ≤ B) {h ρ δ : ℝ}
    {pts : List (ℝ × ℝ)} (h4 : 4 ≤ pts.length) (hc : Covers h pts) (hs : Spread h ρ pts) (hy : ∀ p ∈ pts, |p.2 - f p.1| ≤ δ) :
    ∃ L, cubicInterp pts = .ok L ∧ ∀ x, 0 ≤ x → x ≤ 2 * Real.pi → |L x - f x| ≤ 14 * ρ * B * h ^ 4 + 75 * ρ ^ 3 * δ := by
  refine ⟨_, cubicInterp_ok h4 hc.pairwise, fun x hx0 hx1 => ?_⟩
  obtain ⟨i, p, q, hi, hp, hq, hl, hr⟩ := interval_spec hc.two hc.pairwise x
  obtain ⟨g1, g2, g3, g4⟩ := hc.gap i p q hp hq
  have hget : ∀ i p, pts[i]? = some p → pts.getD i (0, 0) = p := fun i p h => by rw [List.getD_eq_getElem?_getD, h]; rfl
  have hat : ∀ i, i < pts.length → pts[i]? = some (pts.getD i (0, 0)) := fun i h => by
    rw [List.getElem?_eq_getElem h, getD_at h]
  have hil : i + 1 < pts.length := (List.getElem?_eq_some_iff.1 hq).1
  have herr : ∀ j, j < pts.length → |moments pts.length (fun i => (pts.getD i (0, 0)).1) (fun i => (pts.getD i (0, 0)).2) j -
      f2 (pts.getD j (0, 0)).1| ≤ 25 / 4 * ρ * B * h ^ 2 + 36 * ρ ^ 3 * δ / h ^ 2 := fun j hj =>
    moments_error d1 d2 d3 d4 hB h4 (incr_of_pairwise hc.pairwise) (fun i hi => (hc.gap i _ _ (hat i (by omega)) (hat (i + 1) hi)).2.1)
      (fun i hi => hs i _ _ (hat i (by omega)) (hat (i + 1) hi)) (fun i hi => hy _ (List.mem_of_getElem? (hat i hi))) hj
  have e0 := herr i (by omega)
  have e1 := herr (i + 1) hil
  rw [hi, Nat.add_sub_cancel]
  rw [hget i p hp] at e0 ⊢
  rw [hget (i + 1) q hq] at e1 ⊢
  have hx3 : p.1 - (q.1 - p.1) ≤ x := by
    rcases hl with hl | hl
    · linarith
    · have := g3 hl
      linarith
  have hx4 : x ≤ q.1 + (q.1 - p.1) := by
    rcases hr with hr | hr
    · linarith
    · have := g4 hr
      linarith
  have k1 := piece_error d1 d2 d3 d4 hB g1 hx3 hx4
  have k2 := piece_diff g1 hx3 hx4 (hy p (List.mem_of_getElem? hp)) (hy q (List.mem_of_getElem? hq)) e0 e1
  rw [abs_sub_comm] at k1
  have hB0 : 0 ≤ B := (abs_nonneg _).trans (hB 0)
  have hδ : 0 ≤ δ := (abs_nonneg _).trans (hy p (List.mem_of_getElem? hp))
  have hg : 0 < q.1 - p.1 := by linarith
  have hpos : 0 < h := by linarith
  have hρ := hs i p q hp hq
  have hρ1 : 1 ≤ ρ := by
    by_contra hcon
    push Not at hcon
    nlinarith
  have w4 : (q.1 - p.1) ^ 4 ≤ h ^ 4 := pow_le_pow_left₀ hg.le g2 4
  have w2 : (q.1 - p.1) ^ 2 ≤ h ^ 2 := pow_le_pow_left₀ hg.le g2 2
  have hρ3 : 1 ≤ ρ ^ 3 := one_le_pow₀ hρ1
  have v1 := mul_le_mul_of_nonneg_left w4 hB0
  have v2 := mul_le_mul_of_nonneg_right w2 (by positivity : 0 ≤ 2 * (25 / 4 * ρ * B * h ^ 2 + 36 * ρ ^ 3 * δ / h ^ 2))
  have v3 := mul_le_mul_of_nonneg_right hρ3 (by positivity : 0 ≤ 3 * δ)
  have v4 := mul_le_mul_of_nonneg_right hρ1 (by positivity : 0 ≤ 3 / 2 * (B * h ^ 4))
  have e : h ^ 2 * (2 * (25 / 4 * ρ * B * h ^ 2 + 36 * ρ ^ 3 * δ / h ^ 2)) = 25 / 2 * ρ * B * h ^ 4 + 72 * ρ ^ 3 * δ := by
    field_simp
    ring
  rw [e] at v2
  have v5 : 0 ≤ B * h ^ 4 := by positivity
  refine (abs_sub_le _ _ _).trans ((add_le_add k2 k1).trans ?_)
  linarith

/-! ### Linearity -/

theorem piece_linear (a b x : ℝ) : ∃ A B C D : ℝ, ∀ ya yb Ma Mb, piece a b ya yb Ma Mb x = A * ya + B * yb + C * Ma + D * Mb :=
  ⟨1 / (b - a) * (b - x), 1 / (b - a) * (x - a), 1 / (6 * (b - a)) * (b - x) ^ 3 - (b - a) / 6 * (b - x),
    1 / (6 * (b - a)) * (x - a) ^ 3 - (b - a) / 6 * (x - a), fun ya yb Ma Mb => by unfold piece; ring⟩

theorem moments_sum {n : ℕ} (hn : 4 ≤ n) {x : ℕ → ℝ} (hx : Incr n x) (y : ℕ → ℝ) :
    moments n x y = fun j => ∑ i ∈ Finset.range n, y i * moments n x (fun k => if k = i then 1 else 0) j := by
  have hs : ∀ k, k < n → y k = ∑ i ∈ Finset.range n, y i * (if k = i then (1 : ℝ) else 0) := by
    intro k hk
    simp only [mul_ite, mul_one, mul_zero, Finset.sum_ite_eq, Finset.mem_range, hk, if_true]
  refine moments_unique hn hx (moments_spec hn hx y) ⟨fun i hi => ?_, ?_, ?_, fun i hi => ?_⟩
  · rw [hs i (by omega), hs (i + 1) (by omega), hs (i + 2) hi]
    simp only [Finset.mul_sum, ← Finset.sum_sub_distrib, ← Finset.sum_add_distrib, Finset.sum_div]
    refine Finset.sum_congr rfl (fun j _ => ?_)
    have m := (moments_spec hn hx (fun k => if k = j then 1 else 0)).inner i hi
    linear_combination y j * m
  · simp only [Finset.mul_sum, ← Finset.sum_sub_distrib]
    refine Finset.sum_congr rfl (fun j _ => ?_)
    have m := (moments_spec hn hx (fun k => if k = j then 1 else 0)).left
    linear_combination y j * m
  · simp only [Finset.mul_sum, ← Finset.sum_sub_distrib]
    refine Finset.sum_congr rfl (fun j _ => ?_)
    have m := (moments_spec hn hx (fun k => if k = j then 1 else 0)).right
    linear_combination y j * m
  · refine Finset.sum_eq_zero (fun j _ => ?_)
    rw [(moments_spec hn hx (fun k => if k = j then 1 else 0)).outside i hi, mul_zero]

theorem piece_sum {n : ℕ} (hn : 4 ≤ n) {x : ℕ → ℝ} (hx : Incr n x) (y : ℕ → ℝ) {j l : ℕ} (hj : j < n) (hl : l < n) (t : ℝ) :
    piece (x j) (x l) (y j) (y l) (moments n x y j) (moments n x y l) t =
      ∑ i ∈ Finset.range n, piece (x j) (x l) (if j = i then 1 else 0) (if l = i then 1 else 0)
        (moments n x (fun k => if k = i then 1 else 0) j) (moments n x (fun k => if k = i then 1 else 0) l) t * y i := by
  obtain ⟨A, B, C, D, h⟩ := piece_linear (x j) (x l) t
  have hs : ∀ k, k < n → y k = ∑ i ∈ Finset.range n, y i * (if k = i then (1 : ℝ) else 0) := by
    intro k hk
    simp only [mul_ite, mul_one, mul_zero, Finset.sum_ite_eq, Finset.mem_range, hk, if_true]
  simp only [h]
  rw [moments_sum hn hx y]
  conv_lhs => rw [hs j hj, hs l hl]
  simp only [Finset.mul_sum, ← Finset.sum_add_distrib]
  refine Finset.sum_congr rfl (fun i _ => ?_)
  ring

theorem moments_const {n : ℕ} (hn : 4 ≤ n) {x : ℕ → ℝ} (hx : Incr n x) : moments n x (fun _ => 1) = fun _ => 0 :=
  moments_unique hn hx (moments_spec hn hx _) ⟨fun i _ => by simp, by simp, by simp, fun _ _ => rfl⟩

theorem piece_const {a b : ℝ} (hab : a < b) (x : ℝ) : piece a b 1 1 0 0 x = 1 := by
  have : b - a ≠ 0 := by linarith
  unfold piece
  field_simp
  ring

/-! ### Patterns -/

theorem fourth_bound (M : ℕ) (c : ℤ → ℂ) (x : ℝ) :
    |(pattern M (fun m => Complex.I * m * (Complex.I * m * (Complex.I * m * (Complex.I * m * c m)))) x).re| ≤ fourth M c := by
  refine (Complex.abs_re_le_norm _).trans ?_
  unfold pattern fourth
  refine (norm_sum_le _ _).trans (Finset.sum_le_sum (fun m _ => le_of_eq ?_))
  have hn : ‖harmonic m x‖ = 1 := by
    unfold harmonic
    rw [show Complex.I * ((m : ℂ) * (x : ℂ)) = ((m * x : ℝ) : ℂ) * Complex.I by push_cast; ring, Complex.norm_exp_ofReal_mul_I]
  simp only [norm_mul, hn, mul_one, Complex.norm_I, Complex.norm_intCast, one_mul]
  rw [show |(m : ℝ)| * (|(m : ℝ)| * (|(m : ℝ)| * (|(m : ℝ)| * ‖c m‖))) = (|(m : ℝ)| ^ 2) ^ 2 * ‖c m‖ by ring, sq_abs]
  ring

theorem cubicInterp_pattern {M : ℕ} {c : ℤ → ℂ} (hreal : ∀ x, (pattern M c x).im = 0) {h ρ δ : ℝ} {pts : List (ℝ × ℝ)}
    (h4 : 4 ≤ pts.length) (hc : Covers h pts) (hs : Spread h ρ pts) (hy : MeasuredOn M c δ pts) :
    ∃ L, cubicInterp pts = .ok L ∧ ∀ x, 0 ≤ x → x ≤ 2 * Real.pi →
      ‖(L x : ℂ) - pattern M c x‖ ≤ 14 * ρ * fourth M c * h ^ 4 + 75 * ρ ^ 3 * δ := by
  have hre : ∀ (y x : ℝ), ‖(y : ℂ) - pattern M c x‖ = |y - (pattern M c x).re| := by
    intro y x
    have : pattern M c x = ((pattern M c x).re : ℂ) := Complex.ext rfl (by simp [hreal x])
    rw [this, ← Complex.ofReal_sub, Complex.norm_real, Real.norm_eq_abs]
    simp
  obtain ⟨L, h1, h2⟩ := cubicInterp_error (hasDerivAt_pattern M c) (hasDerivAt_pattern M _) (hasDerivAt_pattern M _) (hasDerivAt_pattern M _)
    (fourth_bound M c) h4 hc hs (δ := δ) (fun p hp => by rw [← hre]; exact hy p hp)
  exact ⟨L, h1, fun x hx hx' => by rw [hre]; exact h2 x hx hx'⟩

end Shgpy
