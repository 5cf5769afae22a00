import Verif.Model.LinearInterp
import Verif.Spec.Unequal
import Verif.Props.Noise
import Verif.Props.Linear
import Mathlib.Analysis.Calculus.LocalExtr.Rolle
import Mathlib.Analysis.SpecialFunctions.ExpDeriv
import Mathlib.Analysis.Complex.RealDeriv

/-! Lemmas about linear interpolation. -/

namespace Shgpy
open Spec

/-! ### The error of a line through two points of a curve -/

theorem zero_of_three {g g' g'' : ℝ → ℝ} (h1 : ∀ x, HasDerivAt g (g' x) x) (h2 : ∀ x, HasDerivAt g' (g'' x) x) {u v s : ℝ} (huv : u < v)
    (hvs : v < s) (hu : g u = 0) (hv : g v = 0) (hs : g s = 0) : ∃ ξ, g'' ξ = 0 := by
  have c1 : Continuous g := continuous_iff_continuousAt.2 (fun x => (h1 x).continuousAt)
  have c2 : Continuous g' := continuous_iff_continuousAt.2 (fun x => (h2 x).continuousAt)
  obtain ⟨ξ₁, hξ₁, e1⟩ := exists_hasDerivAt_eq_zero huv c1.continuousOn (hu.trans hv.symm) (fun x _ => h1 x)
  obtain ⟨ξ₂, hξ₂, e2⟩ := exists_hasDerivAt_eq_zero hvs c1.continuousOn (hv.trans hs.symm) (fun x _ => h1 x)
  obtain ⟨ξ, _, e⟩ := exists_hasDerivAt_eq_zero (hξ₁.2.trans hξ₂.1) c2.continuousOn (e1.trans e2.symm) (fun x _ => h2 x)
  exact ⟨ξ, e⟩

theorem chord_error {f f' f'' : ℝ → ℝ} (h1 : ∀ x, HasDerivAt f (f' x) x) (h2 : ∀ x, HasDerivAt f' (f'' x) x) {B : ℝ}
    (hB : ∀ x, |f'' x| ≤ B) {a b : ℝ} (hab : a < b) (x : ℝ) :
    |(f b - f a) / (b - a) * (x - a) + f a - f x| ≤ B / 2 * (|x - a| * |x - b|) := by
  have hba : b - a ≠ 0 := by linarith [hab]
  by_cases hxa : x = a
  · subst hxa; simp
  by_cases hxb : x = b
  · subst hxb; rw [div_mul_cancel₀ _ hba]; simp
  have hw : (x - a) * (x - b) ≠ 0 := mul_ne_zero (sub_ne_zero.2 hxa) (sub_ne_zero.2 hxb)
  set s := (f b - f a) / (b - a) with hs
  set c := (f x - (s * (x - a) + f a)) / ((x - a) * (x - b)) with hc
  have hg1 : ∀ t, HasDerivAt (fun t => f t - (s * (t - a) + f a) - c * ((t - a) * (t - b))) (f' t - s - c * ((t - b) + (t - a))) t := by
    intro t
    have e1 : HasDerivAt (fun t : ℝ => s * (t - a) + f a) s t := by
      simpa using (((hasDerivAt_id t).sub_const a).const_mul s).add_const (f a)
    have e2 : HasDerivAt (fun t : ℝ => c * ((t - a) * (t - b))) (c * ((t - b) + (t - a))) t := by
      have := (((hasDerivAt_id t).sub_const a).mul ((hasDerivAt_id t).sub_const b)).const_mul c
      simpa using this
    exact ((h1 t).sub e1).sub e2
  have hg2 : ∀ t, HasDerivAt (fun t => f' t - s - c * ((t - b) + (t - a))) (f'' t - c * 2) t := by
    intro t
    have e2 : HasDerivAt (fun t : ℝ => c * ((t - b) + (t - a))) (c * 2) t := by
      have := (((hasDerivAt_id t).sub_const b).add ((hasDerivAt_id t).sub_const a)).const_mul c
      rw [one_add_one_eq_two] at this
      simpa using this
    exact ((h2 t).sub_const s).sub e2
  have za : f a - (s * (a - a) + f a) - c * ((a - a) * (a - b)) = 0 := by ring
  have zb : f b - (s * (b - a) + f a) - c * ((b - a) * (b - b)) = 0 := by rw [hs, div_mul_cancel₀ _ hba]; ring
  have zx : f x - (s * (x - a) + f a) - c * ((x - a) * (x - b)) = 0 := by rw [hc, div_mul_cancel₀ _ hw]; ring
  have key : ∃ ξ, f'' ξ - c * 2 = 0 := by
    rcases lt_trichotomy x a with h | h | h
    · exact zero_of_three hg1 hg2 h hab zx za zb
    · exact absurd h hxa
    · rcases lt_trichotomy x b with h' | h' | h'
      · exact zero_of_three hg1 hg2 h h' za zx zb
      · exact absurd h' hxb
      · exact zero_of_three hg1 hg2 hab h' za zb zx
  obtain ⟨ξ, hξ⟩ := key
  have hcB : |c| ≤ B / 2 := by
    have : c = f'' ξ / 2 := by linarith
    rw [this, abs_div, abs_two]
    exact div_le_div_of_nonneg_right (hB ξ) (by norm_num)
  have : s * (x - a) + f a - f x = -(c * ((x - a) * (x - b))) := by linarith
  rw [this, abs_neg, abs_mul, abs_mul]
  exact mul_le_mul_of_nonneg_right hcB (by positivity)

/-- A line through two points near a curve, continued by at most the distance of the points on either side. -/
theorem chord_noise {f f' f'' : ℝ → ℝ} (h1 : ∀ x, HasDerivAt f (f' x) x) (h2 : ∀ x, HasDerivAt f' (f'' x) x) {B : ℝ}
    (hB : ∀ x, |f'' x| ≤ B) {a b y z δ h x : ℝ} (hab : a < b) (hbh : b - a ≤ h) (hy : |y - f a| ≤ δ) (hz : |z - f b| ≤ δ)
    (h3 : a - (b - a) ≤ x) (h4 : x ≤ b + (b - a)) :
    |(z - y) / (b - a) * (x - a) + y - f x| ≤ B * h ^ 2 + 3 * δ := by
  have hg : 0 < b - a := by linarith
  have hB0 : 0 ≤ B := (abs_nonneg _).trans (hB 0)
  have hδ : 0 ≤ δ := (abs_nonneg _).trans hy
  set t := (x - a) / (b - a) with ht
  have hx : x - a = t * (b - a) := by rw [ht, div_mul_cancel₀ _ hg.ne']
  have ht1 : -1 ≤ t := by rw [ht, le_div_iff₀ hg]; linarith
  have ht2 : t ≤ 2 := by rw [ht, div_le_iff₀ hg]; linarith
  have e : (z - y) / (b - a) * (x - a) + y - f x =
      ((f b - f a) / (b - a) * (x - a) + f a - f x) + ((1 - t) * (y - f a) + t * (z - f b)) := by
    rw [hx]
    field_simp
    ring
  rw [e]
  refine (abs_add_le _ _).trans (add_le_add ?_ ?_)
  · refine (chord_error h1 h2 hB hab x).trans ?_
    have e2 : x - b = (t - 1) * (b - a) := by linarith [hx]
    have q : |t| * |t - 1| ≤ 2 := by
      rw [← abs_mul, abs_le]
      constructor
      · nlinarith [sq_nonneg (t - 1 / 2)]
      · nlinarith
    rw [e2, hx, abs_mul, abs_mul, abs_of_pos hg]
    have q2 : (b - a) ^ 2 ≤ h ^ 2 := by nlinarith
    calc B / 2 * (|t| * (b - a) * (|t - 1| * (b - a))) = B / 2 * ((|t| * |t - 1|) * (b - a) ^ 2) := by ring
      _ ≤ B / 2 * (2 * h ^ 2) := mul_le_mul_of_nonneg_left (mul_le_mul q q2 (by positivity) (by norm_num)) (by positivity)
      _ = B * h ^ 2 := by ring
  · refine (abs_add_le _ _).trans ?_
    rw [abs_mul, abs_mul]
    have q : |1 - t| + |t| ≤ 3 := by
      rcases abs_cases (1 - t) with h | h <;> rcases abs_cases t with h' | h' <;> linarith
    calc |1 - t| * |y - f a| + |t| * |z - f b| ≤ |1 - t| * δ + |t| * δ :=
          add_le_add (mul_le_mul_of_nonneg_left hy (abs_nonneg _)) (mul_le_mul_of_nonneg_left hz (abs_nonneg _))
      _ = (|1 - t| + |t|) * δ := by ring
      _ ≤ 3 * δ := mul_le_mul_of_nonneg_right q hδ

/-! ### The interval that is used -/

theorem countP_lt {l : List (ℝ × ℝ)} (hl : l.Pairwise (fun p q => p.1 < q.1)) (x : ℝ) (j : ℕ) (hj : j < l.length) :
    l[j].1 < x ↔ j < l.countP (fun p => decide (p.1 < x)) := by
  induction l generalizing j with
  | nil => simp at hj
  | cons p l ih =>
    rw [List.pairwise_cons] at hl
    by_cases hp : p.1 < x
    · rw [List.countP_cons_of_pos (by simpa using hp)]
      cases j with
      | zero => simpa using hp
      | succ j =>
        simp only [List.getElem_cons_succ, Nat.add_lt_add_iff_right]
        exact ih hl.2 j (by simpa using hj)
    · have h0 : l.countP (fun p => decide (p.1 < x)) = 0 := by
        rw [List.countP_eq_zero]
        intro q hq
        have := hl.1 q hq
        simp only [decide_eq_true_eq, not_lt]
        exact (not_lt.1 hp).trans this.le
      rw [List.countP_cons_of_neg (by simpa using hp), h0]
      simp only [Nat.not_lt_zero, iff_false, not_lt]
      cases j with
      | zero => simpa using hp
      | succ j =>
        simp only [List.getElem_cons_succ]
        exact (not_lt.1 hp).trans (hl.1 _ (List.getElem_mem _)).le

/-- The interval contains `x`, or it is the first and `x` is before it, or it is the last and `x` is behind it. -/
theorem interval_spec {pts : List (ℝ × ℝ)} (h2 : 2 ≤ pts.length) (hp : pts.Pairwise (fun p q => p.1 < q.1)) (x : ℝ) :
    ∃ i p q, interval pts x = i + 1 ∧ pts[i]? = some p ∧ pts[i + 1]? = some q ∧
      (p.1 < x ∨ i = 0) ∧ (x ≤ q.1 ∨ i + 2 = pts.length) := by
  set c := pts.countP (fun p => decide (p.1 < x)) with hc
  have hcl : c ≤ pts.length := List.countP_le_length
  obtain ⟨i, hi, hi2⟩ : ∃ i, interval pts x = i + 1 ∧ i + 2 ≤ pts.length := by
    refine ⟨interval pts x - 1, ?_, ?_⟩ <;> unfold interval <;> omega
  have hi3 : i + 1 = max 1 (min c (pts.length - 1)) := hi.symm
  refine ⟨i, pts[i], pts[i + 1], hi, by rw [List.getElem?_eq_getElem], by rw [List.getElem?_eq_getElem], ?_, ?_⟩
  · by_cases h0 : i = 0
    · exact .inr h0
    · left
      rw [countP_lt hp]
      omega
  · by_cases h0 : i + 2 = pts.length
    · exact .inr h0
    · left
      rw [← not_lt, countP_lt hp]
      omega

theorem Spec.Covers.pairwise {h : ℝ} {pts : List (ℝ × ℝ)} (hc : Covers h pts) : pts.Pairwise (fun p q => p.1 < q.1) := by
  have : List.IsChain (fun p q : ℝ × ℝ => p.1 < q.1) pts := by
    rw [List.isChain_iff_getElem]
    intro i hi
    exact (hc.gap i _ _ (List.getElem?_eq_getElem (by omega)) (List.getElem?_eq_getElem hi)).1
  have ht : IsTrans (ℝ × ℝ) (fun p q => p.1 < q.1) := ⟨fun _ _ _ => lt_trans⟩
  exact List.isChain_iff_pairwise.1 this

theorem nodup_of_increasing {pts : List (ℝ × ℝ)} (hp : pts.Pairwise (fun p q => p.1 < q.1)) : (pts.map Prod.fst).Nodup := by
  unfold List.Nodup
  rw [List.pairwise_map]
  exact hp.imp (fun h => h.ne)

theorem linearInterp_ok {pts : List (ℝ × ℝ)} (h2 : 2 ≤ pts.length) (hn : (pts.map Prod.fst).Nodup) :
    linearInterp pts = .ok (fun x => ((pts.getD (interval pts x) (0, 0)).2 - (pts.getD (interval pts x - 1) (0, 0)).2) /
      ((pts.getD (interval pts x) (0, 0)).1 - (pts.getD (interval pts x - 1) (0, 0)).1) * (x - (pts.getD (interval pts x - 1) (0, 0)).1) +
      (pts.getD (interval pts x - 1) (0, 0)).2) := by
  unfold linearInterp
  rw [if_neg]
  rintro (h | h)
  · omega
  · exact h hn

/-- The interpolation of values near a curve. -/
theorem linearInterp_error {f f' f'' : ℝ → ℝ} (h1 : ∀ x, HasDerivAt f (f' x) x) (h2 : ∀ x, HasDerivAt f' (f'' x) x) {B : ℝ}
    (hB : ∀ x, |f'' x| ≤ B) {h δ : ℝ} {pts : List (ℝ × ℝ)} (hc : Covers h pts) (hy : ∀ p ∈ pts, |p.2 - f p.1| ≤ δ) :
    ∃ L, linearInterp pts = .ok L ∧ ∀ x, 0 ≤ x → x ≤ 2 * Real.pi → |L x - f x| ≤ B * h ^ 2 + 3 * δ := by
  refine ⟨_, linearInterp_ok hc.two (nodup_of_increasing hc.pairwise), fun x hx0 hx1 => ?_⟩
  obtain ⟨i, p, q, hi, hp, hq, hl, hr⟩ := interval_spec hc.two hc.pairwise x
  obtain ⟨g1, g2, g3, g4⟩ := hc.gap i p q hp hq
  rw [hi, Nat.add_sub_cancel, List.getD_eq_getElem?_getD, List.getD_eq_getElem?_getD, hp, hq]
  simp only [Option.getD_some]
  refine chord_noise h1 h2 hB g1 g2 (hy p (List.mem_of_getElem? hp)) (hy q (List.mem_of_getElem? hq)) ?_ ?_
  · rcases hl with hl | hl
    · linarith
    · have := g3 hl
      linarith
  · rcases hr with hr | hr
    · linarith
    · have := g4 hr
      linarith

/-! ### Patterns -/

theorem hasDerivAt_pattern (M : ℕ) (c : ℤ → ℂ) (x : ℝ) :
    HasDerivAt (fun x => (pattern M c x).re) (pattern M (fun m => Complex.I * m * c m) x).re x := by
  have hh : ∀ m : ℤ, HasDerivAt (fun x : ℝ => c m * harmonic m x) (Complex.I * m * c m * harmonic m x) x := by
    intro m
    unfold harmonic
    have e1 : HasDerivAt (fun x : ℝ => Complex.I * (m * (x : ℂ))) (Complex.I * (m * 1)) x :=
      ((Complex.ofRealCLM.hasDerivAt (x := x)).const_mul (m : ℂ)).const_mul Complex.I
    have e2 := (e1.cexp).const_mul (c m)
    exact e2.congr_deriv (by ring)
  have hs : HasDerivAt (fun x : ℝ => pattern M c x) (pattern M (fun m => Complex.I * m * c m) x) x := by
    unfold pattern
    exact HasDerivAt.fun_sum (fun m _ => hh m)
  exact (Complex.reCLM.hasFDerivAt.comp_hasDerivAt x hs)

theorem curvature_bound (M : ℕ) (c : ℤ → ℂ) (x : ℝ) :
    |(pattern M (fun m => Complex.I * m * (Complex.I * m * c m)) x).re| ≤ curvature M c := by
  refine (Complex.abs_re_le_norm _).trans ?_
  unfold pattern curvature
  refine (norm_sum_le _ _).trans (Finset.sum_le_sum (fun m _ => le_of_eq ?_))
  have hn : ‖harmonic m x‖ = 1 := by
    unfold harmonic
    rw [show Complex.I * ((m : ℂ) * (x : ℂ)) = ((m * x : ℝ) : ℂ) * Complex.I by push_cast; ring, Complex.norm_exp_ofReal_mul_I]
  rw [norm_mul, hn, mul_one, norm_mul, norm_mul, norm_mul, norm_mul, Complex.norm_I, Complex.norm_intCast, one_mul, ← mul_assoc, ← sq,
    sq_abs]

theorem curvature_nonneg (M : ℕ) (c : ℤ → ℂ) : 0 ≤ curvature M c := Finset.sum_nonneg (fun m _ => by positivity)

/-- The interpolation of values near a real pattern. -/
theorem linearInterp_pattern {M : ℕ} {c : ℤ → ℂ} (hreal : ∀ x, (pattern M c x).im = 0) {h δ : ℝ} {pts : List (ℝ × ℝ)} (hc : Covers h pts)
    (hy : MeasuredOn M c δ pts) :
    ∃ L, linearInterp pts = .ok L ∧ ∀ x, 0 ≤ x → x ≤ 2 * Real.pi → ‖(L x : ℂ) - pattern M c x‖ ≤ curvature M c * h ^ 2 + 3 * δ := by
  have hre : ∀ (y x : ℝ), ‖(y : ℂ) - pattern M c x‖ = |y - (pattern M c x).re| := by
    intro y x
    have : pattern M c x = ((pattern M c x).re : ℂ) := Complex.ext rfl (by simp [hreal x])
    rw [this, ← Complex.ofReal_sub, Complex.norm_real, Real.norm_eq_abs]
    simp
  obtain ⟨L, h1, h2⟩ := linearInterp_error (hasDerivAt_pattern M c) (hasDerivAt_pattern M _) (curvature_bound M c) hc
    (δ := δ) (fun p hp => by rw [← hre]; exact hy p hp)
  exact ⟨L, h1, fun x hx hx' => by rw [hre]; exact h2 x hx hx'⟩

theorem gridAngle_mem {N j : ℕ} (hj : j < N) : 0 ≤ gridAngle N j ∧ gridAngle N j ≤ 2 * Real.pi := by
  have hN : (0 : ℝ) < N := by exact_mod_cast (by omega : 0 < N)
  have hj' : (j : ℝ) ≤ N := by exact_mod_cast hj.le
  unfold gridAngle
  have := Real.pi_pos
  constructor
  · positivity
  · rw [div_le_iff₀ hN]
    nlinarith

theorem gridMean_le {N : ℕ} (hN : 0 < N) {g : ℝ → ℝ} {b : ℝ} (hg : ∀ j < N, g (gridAngle N j) ≤ b) : gridMean N g ≤ b := by
  have hN' : (0 : ℝ) < N := by exact_mod_cast hN
  unfold gridMean
  rw [div_le_iff₀ hN']
  calc _ ≤ ∑ j ∈ Finset.range N, b := Finset.sum_le_sum (fun j hj => hg j (Finset.mem_range.1 hj))
    _ = b * N := by simp [mul_comm]

end Shgpy
