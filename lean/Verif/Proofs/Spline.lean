import Verif.Proofs.Cubic3
import Mathlib.Analysis.Calculus.ContDiff.Basic
import Mathlib.Analysis.Calculus.ContDiff.Operations
import Mathlib.Analysis.Calculus.IteratedDeriv.Defs

/-! The interpolation is the cubic spline without knots at the second and the last but one angle. -/

namespace Shgpy
open Spec

/-! ### Truncated powers -/

theorem hasDerivAt_trunc (k : ℕ) (t : ℝ) : HasDerivAt (fun t : ℝ => max t 0 ^ (k + 2)) ((k + 2) * max t 0 ^ (k + 1)) t := by
  rcases lt_trichotomy t 0 with h | rfl | h
  · have e : (fun t : ℝ => max t 0 ^ (k + 2)) =ᶠ[nhds t] fun _ => 0 := by
      filter_upwards [Iio_mem_nhds h] with u hu
      rw [max_eq_right (le_of_lt hu)]; simp
    rw [max_eq_right h.le]
    simpa using (hasDerivAt_const t (0 : ℝ)).congr_of_eventuallyEq e
  · have h1 : HasDerivWithinAt (fun t : ℝ => max t 0 ^ (k + 2)) 0 (Set.Iic 0) 0 :=
      (hasDerivWithinAt_const (0 : ℝ) (Set.Iic 0) (0 : ℝ)).congr (fun u hu => by rw [max_eq_right hu]; simp) (by simp)
    have h2 : HasDerivWithinAt (fun t : ℝ => max t 0 ^ (k + 2)) 0 (Set.Ici 0) 0 := by
      have e := (hasDerivAt_pow (k + 2) (0 : ℝ)).hasDerivWithinAt (s := Set.Ici 0)
      have e' : HasDerivWithinAt (fun t : ℝ => t ^ (k + 2)) 0 (Set.Ici 0) 0 := e.congr_deriv (by simp)
      exact e'.congr (fun u hu => by rw [max_eq_left hu]) (by simp)
    have h3 := h1.union h2
    rw [Set.Iic_union_Ici, hasDerivWithinAt_univ] at h3
    exact h3.congr_deriv (by simp)
  · have e : (fun t : ℝ => max t 0 ^ (k + 2)) =ᶠ[nhds t] fun t => t ^ (k + 2) := by
      filter_upwards [Ioi_mem_nhds h] with u hu
      rw [max_eq_left (le_of_lt hu)]
    rw [max_eq_left h.le]
    refine ((hasDerivAt_pow (k + 2) t).congr_of_eventuallyEq e).congr_deriv ?_
    push_cast
    rfl

theorem contDiff_two {f f1 f2 : ℝ → ℝ} (h1 : ∀ x, HasDerivAt f (f1 x) x) (h2 : ∀ x, HasDerivAt f1 (f2 x) x) (hc : Continuous f2) :
    ContDiff ℝ 2 f := by
  have e1 : deriv f = f1 := funext (fun x => (h1 x).deriv)
  have e2 : deriv f1 = f2 := funext (fun x => (h2 x).deriv)
  rw [show (2 : WithTop ℕ∞) = 1 + 1 by norm_num, contDiff_succ_iff_deriv]
  refine ⟨fun x => (h1 x).differentiableAt, by simp, ?_⟩
  rw [e1, contDiff_one_iff_deriv, e2]
  exact ⟨fun x => (h2 x).differentiableAt, hc⟩

theorem contDiff_trunc : ContDiff ℝ 2 (fun t : ℝ => max t 0 ^ 3) := by
  refine contDiff_two (f1 := fun t => 3 * max t 0 ^ 2) (f2 := fun t => 6 * max t 0) (fun t => ?_) (fun t => ?_) (by fun_prop)
  · refine (hasDerivAt_trunc 1 t).congr_deriv ?_
    norm_num
  · refine ((hasDerivAt_trunc 0 t).const_mul 3).congr_deriv ?_
    norm_num
    ring

/-! ### The pieces -/

/-- The equation of an inner angle says that the first derivatives agree: the next piece differs by a multiple of a cube. -/
theorem piece_next {a b c ya yb yc Ma Mb Mc : ℝ} (hab : a < b) (hbc : b < c)
    (h : (b - a) * Ma + 2 * ((b - a) + (c - b)) * Mb + (c - b) * Mc = 6 * ((yc - yb) / (c - b) - (yb - ya) / (b - a))) (t : ℝ) :
    piece b c yb yc Mb Mc t = piece a b ya yb Ma Mb t + ((Mc - Mb) / (c - b) - (Mb - Ma) / (b - a)) / 6 * (t - b) ^ 3 := by
  have h1 : b - a ≠ 0 := by linarith
  have h2 : c - b ≠ 0 := by linarith
  have e1 : piece b c yb yc Mb Mc t = yb + ((yc - yb) / (c - b) - (c - b) * (2 * Mb + Mc) / 6) * (t - b) + Mb / 2 * (t - b) ^ 2 +
      (Mc - Mb) / (c - b) / 6 * (t - b) ^ 3 := by
    unfold piece
    field_simp
    ring
  have e2 : piece a b ya yb Ma Mb t = yb + ((yb - ya) / (b - a) + (b - a) * (Ma + 2 * Mb) / 6) * (t - b) + Mb / 2 * (t - b) ^ 2 +
      (Mb - Ma) / (b - a) / 6 * (t - b) ^ 3 := by
    unfold piece
    field_simp
    ring
  rw [e1, e2]
  linear_combination -(1 / 6) * (t - b) * h

theorem incr_le {n : ℕ} {x : ℕ → ℝ} (hx : Incr n x) {i j : ℕ} (hij : i ≤ j) (hj : j < n) : x i ≤ x j := by
  induction j with
  | zero => rw [Nat.le_zero.1 hij]
  | succ j ih =>
    rcases Nat.lt_or_ge i (j + 1) with h | h
    · exact (ih (by omega) (by omega)).trans (hx j hj).le
    · rw [show i = j + 1 by omega]

section
variable {n : ℕ} {x y M : ℕ → ℝ}

/-- The piece with the number `i`. -/
noncomputable def pieceAt (x y M : ℕ → ℝ) (i : ℕ) (t : ℝ) : ℝ := piece (x i) (x (i + 1)) (y i) (y (i + 1)) (M i) (M (i + 1)) t

/-- A sixth of the jump of the third derivative. -/
noncomputable def jump (x M : ℕ → ℝ) (i : ℕ) : ℝ := ((M (i + 1) - M i) / (x (i + 1) - x i) - (M i - M (i - 1)) / (x i - x (i - 1))) / 6

theorem pieceAt_eq (hx : Incr n x) (hM : MomentEq n x y M) (t : ℝ) : ∀ i, i + 1 < n →
    pieceAt x y M i t = pieceAt x y M 0 t + ∑ l ∈ Finset.range i, jump x M (l + 1) * (t - x (l + 1)) ^ 3 := by
  intro i
  induction i with
  | zero => intro _; simp
  | succ i ih =>
    intro hi
    rw [Finset.sum_range_succ, ← add_assoc, ← ih (by omega)]
    exact piece_next (hx i (by omega)) (hx (i + 1) hi) (hM.inner i hi) t

/-- The spline as a sum of truncated cubes. -/
noncomputable def truncSum (n : ℕ) (x y M : ℕ → ℝ) (t : ℝ) : ℝ :=
  pieceAt x y M 0 t + ∑ l ∈ Finset.range (n - 2), jump x M (l + 1) * max (t - x (l + 1)) 0 ^ 3

theorem truncSum_eq (hx : Incr n x) (hM : MomentEq n x y M) {i : ℕ} (hi : i + 1 < n) {t : ℝ} (h1 : x i ≤ t ∨ i = 0)
    (h2 : t ≤ x (i + 1) ∨ i + 2 = n) : truncSum n x y M t = pieceAt x y M i t := by
  rw [pieceAt_eq hx hM t i hi, truncSum]
  congr 1
  have hsub : Finset.range i ⊆ Finset.range (n - 2) := Finset.range_subset_range.2 (by omega)
  rw [← Finset.sum_subset hsub]
  · refine Finset.sum_congr rfl (fun l hl => ?_)
    have hl := Finset.mem_range.1 hl
    have : x (l + 1) ≤ t := by
      rcases h1 with h | h
      · exact (incr_le hx (by omega : l + 1 ≤ i) (by omega)).trans h
      · omega
    rw [max_eq_left (by linarith)]
  · intro l hl hl'
    have hl := Finset.mem_range.1 hl
    have hl' : i ≤ l := by
      by_contra hc
      exact hl' (Finset.mem_range.2 (by omega))
    have : t ≤ x (l + 1) := by
      rcases h2 with h | h
      · exact h.trans (incr_le hx (by omega) (by omega))
      · omega
    rw [max_eq_right (by linarith)]
    simp

theorem cubic_pieceAt (i : ℕ) (s : Set ℝ) : CubicOn s (pieceAt x y M i) := by
  set A := M i / (6 * (x (i + 1) - x i))
  set B := M (i + 1) / (6 * (x (i + 1) - x i))
  set C := y i / (x (i + 1) - x i) - M i * (x (i + 1) - x i) / 6
  set D := y (i + 1) / (x (i + 1) - x i) - M (i + 1) * (x (i + 1) - x i) / 6
  refine ⟨A * x (i + 1) ^ 3 - B * x i ^ 3 + C * x (i + 1) - D * x i, -(3 * A * x (i + 1) ^ 2) + 3 * B * x i ^ 2 - C + D,
    3 * A * x (i + 1) - 3 * B * x i, B - A, fun t _ => ?_⟩
  show A * (x (i + 1) - t) ^ 3 + B * (t - x i) ^ 3 + C * (x (i + 1) - t) + D * (t - x i) = _
  ring

theorem Spec.CubicOn.congr {s : Set ℝ} {f g : ℝ → ℝ} (h : CubicOn s f) (e : ∀ t ∈ s, g t = f t) : CubicOn s g := by
  obtain ⟨a, b, c, d, h⟩ := h
  exact ⟨a, b, c, d, fun t ht => (e t ht).trans (h t ht)⟩

theorem contDiff_truncSum : ContDiff ℝ 2 (truncSum n x y M) := by
  unfold truncSum
  refine ContDiff.add ?_ (ContDiff.sum (fun l _ => contDiff_const.mul (contDiff_trunc.comp (contDiff_id.sub contDiff_const))))
  unfold pieceAt piece
  fun_prop

/-- The jump at the second and at the last but one angle is zero. -/
theorem jump_left (hn : 4 ≤ n) (hx : Incr n x) (hM : MomentEq n x y M) : jump x M 1 = 0 := by
  have h0 := hx 0 (by omega)
  have h1 := hx 1 (by omega)
  have := hM.left
  have e0 : x 1 - x 0 ≠ 0 := by simp only [zero_add] at h0; linarith
  have e1 : x 2 - x 1 ≠ 0 := by norm_num at h1; linarith
  unfold jump
  norm_num
  rw [div_sub_div _ _ e1 e0, div_eq_zero_iff]
  left
  linarith

theorem jump_right (hn : 4 ≤ n) (hx : Incr n x) (hM : MomentEq n x y M) : jump x M (n - 2) = 0 := by
  have h0 := hx (n - 3) (by omega)
  have h1 := hx (n - 2) (by omega)
  have := hM.right
  unfold jump
  rw [show n - 3 + 1 = n - 2 by omega] at h0
  rw [show n - 2 + 1 = n - 1 by omega] at h1 ⊢
  rw [show n - 2 - 1 = n - 3 by omega]
  have e0 : x (n - 2) - x (n - 3) ≠ 0 := by linarith
  have e1 : x (n - 1) - x (n - 2) ≠ 0 := by linarith
  rw [div_sub_div _ _ e1 e0, div_eq_zero_iff]
  left
  rw [div_eq_zero_iff]
  left
  linarith

theorem truncSum_left (hn : 4 ≤ n) (hx : Incr n x) (hM : MomentEq n x y M) {t : ℝ} (h : t ≤ x 2) :
    truncSum n x y M t = pieceAt x y M 0 t := by
  rcases le_total t (x 1) with h1 | h1
  · exact truncSum_eq hx hM (by omega) (.inr rfl) (.inl h1)
  · rw [truncSum_eq hx hM (i := 1) (by omega) (.inl h1) (.inl h), pieceAt_eq hx hM t 1 (by omega)]
    simp [jump_left hn hx hM]

theorem truncSum_right (hn : 4 ≤ n) (hx : Incr n x) (hM : MomentEq n x y M) {t : ℝ} (h : x (n - 3) ≤ t) :
    truncSum n x y M t = pieceAt x y M (n - 3) t := by
  rcases le_total t (x (n - 2)) with h1 | h1
  · exact truncSum_eq hx hM (by omega) (.inl h) (.inl (by rwa [show n - 3 + 1 = n - 2 by omega]))
  · rw [truncSum_eq hx hM (i := n - 2) (by omega) (.inl h1) (.inr (by omega)), pieceAt_eq hx hM t (n - 2) (by omega),
      pieceAt_eq hx hM t (n - 3) (by omega), show n - 2 = n - 3 + 1 by omega, Finset.sum_range_succ, show n - 3 + 1 = n - 2 by omega,
      jump_right hn hx hM]
    simp

end

/-! ### Uniqueness -/

/-- A cubic polynomial is the piece with its values and second derivatives. -/
theorem cubic_eq_piece {a b c d u v : ℝ} (huv : u < v) (t : ℝ) :
    a + b * t + c * t ^ 2 + d * t ^ 3 = piece u v (a + b * u + c * u ^ 2 + d * u ^ 3) (a + b * v + c * v ^ 2 + d * v ^ 3)
      (2 * c + 6 * d * u) (2 * c + 6 * d * v) t := by
  have : v - u ≠ 0 := by linarith
  unfold piece
  field_simp
  ring

/-- The derivatives at the ends of an interval where a smooth function is a cubic polynomial. -/
theorem derivs_of_cubic {f : ℝ → ℝ} (hf : ContDiff ℝ 2 f) {u v a b c d : ℝ} (huv : u < v)
    (h : ∀ x ∈ Set.Icc u v, f x = a + b * x + c * x ^ 2 + d * x ^ 3) : ∀ x ∈ Set.Icc u v,
    deriv f x = b + 2 * c * x + 3 * d * x ^ 2 ∧ deriv (deriv f) x = 2 * c + 6 * d * x := by
  rw [show (2 : WithTop ℕ∞) = 1 + 1 by norm_num, contDiff_succ_iff_deriv] at hf
  obtain ⟨_, _, hf1⟩ := hf
  have hf2 := contDiff_one_iff_deriv.1 hf1
  have p1 : ∀ x : ℝ, HasDerivAt (fun x => a + b * x + c * x ^ 2 + d * x ^ 3) (b + 2 * c * x + 3 * d * x ^ 2) x := by
    intro x
    have e := ((((hasDerivAt_id x).const_mul b).const_add a).add ((hasDerivAt_pow 2 x).const_mul c)).add ((hasDerivAt_pow 3 x).const_mul d)
    refine e.congr_deriv ?_
    norm_num
    ring
  have p2 : ∀ x : ℝ, HasDerivAt (fun x => b + 2 * c * x + 3 * d * x ^ 2) (2 * c + 6 * d * x) x := by
    intro x
    have e := (((hasDerivAt_id x).const_mul (2 * c)).const_add b).add ((hasDerivAt_pow 2 x).const_mul (3 * d))
    refine e.congr_deriv ?_
    norm_num
    ring
  have o1 : Set.EqOn (deriv f) (fun x => b + 2 * c * x + 3 * d * x ^ 2) (Set.Ioo u v) := by
    intro x hx
    have e : f =ᶠ[nhds x] (fun x => a + b * x + c * x ^ 2 + d * x ^ 3) := by
      filter_upwards [Ioo_mem_nhds hx.1 hx.2] with z hz
      exact h z ⟨hz.1.le, hz.2.le⟩
    rw [e.deriv_eq, (p1 x).deriv]
  have o2 : Set.EqOn (deriv (deriv f)) (fun x => 2 * c + 6 * d * x) (Set.Ioo u v) := by
    intro x hx
    have e : deriv f =ᶠ[nhds x] (fun x => b + 2 * c * x + 3 * d * x ^ 2) := by
      filter_upwards [Ioo_mem_nhds hx.1 hx.2] with z hz
      exact o1 hz
    rw [e.deriv_eq, (p2 x).deriv]
  have hcl : Set.Icc u v ⊆ closure (Set.Ioo u v) := by rw [closure_Ioo huv.ne]
  have c1 := o1.of_subset_closure hf1.continuous.continuousOn (by fun_prop) Set.Ioo_subset_Icc_self hcl
  have c2 := o2.of_subset_closure hf2.2.continuousOn (by fun_prop) Set.Ioo_subset_Icc_self hcl
  exact fun x hx => ⟨c1 hx, c2 hx⟩

end Shgpy
