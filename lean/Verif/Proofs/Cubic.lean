import Verif.Model.CubicInterp
import Verif.Proofs.Unequal
import Mathlib.LinearAlgebra.FiniteDimensional.Basic
import Mathlib.Analysis.Calculus.MeanValue

/-! Lemmas about cubic interpolation. -/

namespace Shgpy
open Spec

/-! ### The equations for the second derivatives -/

/-- The equation at the edge, with the not-a-knot condition. -/
theorem edge_bound {a b u v w R E : ℝ} (ha : 0 < a) (hb : 0 < b) (hR : |a * w + 2 * (a + b) * u + b * v| ≤ R * (a + b))
    (hE : |b * (u - w) - a * (v - u)| ≤ E * (a * b)) (huv : |v| ≤ |u|) : |u| ≤ R + a * E := by
  have hE0 : 0 ≤ E := by
    have h1 : 0 ≤ E * (a * b) := (abs_nonneg _).trans hE
    exact nonneg_of_mul_nonneg_left h1 (by positivity)
  have hid : u * ((a + b) * (a + 2 * b)) = b * (a * w + 2 * (a + b) * u + b * v) + a * (b * (u - w) - a * (v - u)) + v * ((a - b) * (a + b)) := by
    ring
  have hle : |u| * ((a + b) * (a + 2 * b)) ≤ b * (R * (a + b)) + a * (E * (a * b)) + |u| * (|a - b| * (a + b)) := by
    have hpos : 0 < (a + b) * (a + 2 * b) := by positivity
    calc |u| * ((a + b) * (a + 2 * b)) = |u * ((a + b) * (a + 2 * b))| := by rw [abs_mul, abs_of_pos hpos]
      _ ≤ |b * (a * w + 2 * (a + b) * u + b * v)| + |a * (b * (u - w) - a * (v - u))| + |v * ((a - b) * (a + b))| := by
          rw [hid]; exact (abs_add_le _ _).trans (add_le_add_left (abs_add_le _ _) _)
      _ ≤ _ := by
          rw [abs_mul b, abs_mul a, abs_mul v, abs_mul (a - b), abs_of_pos hb, abs_of_pos ha, abs_of_pos (by positivity : 0 < a + b)]
          have h1 := mul_le_mul_of_nonneg_left hR hb.le
          have h2 := mul_le_mul_of_nonneg_left hE ha.le
          have h3 := mul_le_mul_of_nonneg_right huv (by positivity : 0 ≤ |a - b| * (a + b))
          linarith
  have hgap : b ≤ a + 2 * b - |a - b| := by
    rcases abs_cases (a - b) with h | h <;> linarith
  have hu0 := abs_nonneg u
  have h4 : |u| * ((a + b) * b) ≤ (R + a * E) * ((a + b) * b) := by
    have h5 : |u| * ((a + b) * b) ≤ |u| * ((a + b) * (a + 2 * b - |a - b|)) :=
      mul_le_mul_of_nonneg_left (mul_le_mul_of_nonneg_left hgap (by positivity)) hu0
    have h6 : a * (E * (a * b)) ≤ a * E * ((a + b) * b) := by
      have : 0 ≤ a * E * (b * b) := by positivity
      nlinarith
    nlinarith
  exact le_of_mul_le_mul_right h4 (by positivity)

/-- The solution of the equations is bounded by the right sides. -/
theorem stable {n : ℕ} (hn : 4 ≤ n) {d D : ℕ → ℝ} (hpos : ∀ i, i + 1 < n → 0 < d i) {R E H : ℝ} (hH : ∀ i, i + 1 < n → d i ≤ H)
    (inner : ∀ i, i + 2 < n → |d i * D i + 2 * (d i + d (i + 1)) * D (i + 1) + d (i + 1) * D (i + 2)| ≤ R * (d i + d (i + 1)))
    (left : |d 1 * (D 1 - D 0) - d 0 * (D 2 - D 1)| ≤ E * (d 0 * d 1))
    (right : |d (n - 3) * (D (n - 1) - D (n - 2)) - d (n - 2) * (D (n - 2) - D (n - 3))| ≤ E * (d (n - 2) * d (n - 3))) :
    ∀ i, 1 ≤ i → i + 1 < n → |D i| ≤ R + H * E := by
  have hE0 : 0 ≤ E := by
    have h0 := hpos 0 (by omega)
    have h1 := hpos 1 (by omega)
    exact nonneg_of_mul_nonneg_left ((abs_nonneg _).trans left) (by positivity)
  obtain ⟨j, hj, hmax⟩ := Finset.exists_max_image (Finset.Icc 1 (n - 2)) (fun i => |D i|) ⟨1, by simp; omega⟩
  rw [Finset.mem_Icc] at hj
  have hmax' : ∀ i, 1 ≤ i → i + 1 < n → |D i| ≤ |D j| := fun i h1 h2 => hmax i (by simp; omega)
  suffices |D j| ≤ R + H * E from fun i h1 h2 => (hmax' i h1 h2).trans this
  have hedge : ∀ {a}, a ≤ H → R + a * E ≤ R + H * E := fun ha => by
    have := mul_le_mul_of_nonneg_right ha hE0
    linarith
  by_cases h1 : j = 1
  · subst h1
    exact (edge_bound (hpos 0 (by omega)) (hpos 1 (by omega)) (inner 0 (by omega)) left (hmax' 2 (by omega) (by omega))).trans
      (hedge (hH 0 (by omega)))
  by_cases h2 : j = n - 2
  · subst h2
    have hi := inner (n - 3) (by omega)
    rw [show n - 3 + 1 = n - 2 by omega, show n - 3 + 2 = n - 1 by omega] at hi
    refine (edge_bound (a := d (n - 2)) (b := d (n - 3)) (w := D (n - 1)) (v := D (n - 3)) (hpos _ (by omega)) (hpos _ (by omega)) ?_ ?_
      (hmax' (n - 3) (by omega) (by omega))).trans (hedge (hH _ (by omega)))
    · convert hi using 1
      · congr 1; ring
      · ring
    · convert right using 1
      rw [← abs_neg]
      congr 1; ring
  · obtain ⟨i, rfl⟩ : ∃ i, j = i + 1 := ⟨j - 1, by omega⟩
    have hi := inner i (by omega)
    have p0 := hpos i (by omega)
    have p1 := hpos (i + 1) (by omega)
    have m0 := hmax' i (by omega) (by omega)
    have m2 := hmax' (i + 2) (by omega) (by omega)
    have hs : 2 * (d i + d (i + 1)) * |D (i + 1)| ≤ R * (d i + d (i + 1)) + d i * |D i| + d (i + 1) * |D (i + 2)| := by
      have e : 2 * (d i + d (i + 1)) * D (i + 1) = (d i * D i + 2 * (d i + d (i + 1)) * D (i + 1) + d (i + 1) * D (i + 2)) +
          (-(d i * D i) + -(d (i + 1) * D (i + 2))) := by ring
      have e2 : 2 * (d i + d (i + 1)) * |D (i + 1)| = |2 * (d i + d (i + 1)) * D (i + 1)| := by
        rw [abs_mul (2 * (d i + d (i + 1))), abs_of_pos (by positivity : 0 < 2 * (d i + d (i + 1)))]
      rw [e2, e]
      refine (abs_add_le _ _).trans ?_
      have := abs_add_le (-(d i * D i)) (-(d (i + 1) * D (i + 2)))
      rw [abs_neg, abs_neg, abs_mul, abs_mul, abs_of_pos p0, abs_of_pos p1] at this
      linarith
    have h5 : |D (i + 1)| * (d i + d (i + 1)) ≤ R * (d i + d (i + 1)) := by nlinarith
    have h6 := le_of_mul_le_mul_right h5 (by positivity)
    have h7 : 0 ≤ H * E := mul_nonneg (p0.le.trans (hH i (by omega))) hE0
    linarith

/-- A vector as a sequence. -/
def ext0 (n : ℕ) (v : Fin n → ℝ) (i : ℕ) : ℝ := if h : i < n then v ⟨i, h⟩ else 0

/-- The left sides of the equations. -/
def leftSide (n : ℕ) (x M : ℕ → ℝ) (j : ℕ) : ℝ :=
  if j = 0 then (x 2 - x 1) * (M 1 - M 0) - (x 1 - x 0) * (M 2 - M 1)
  else if j + 1 = n then (x (n - 2) - x (n - 3)) * (M (n - 1) - M (n - 2)) - (x (n - 1) - x (n - 2)) * (M (n - 2) - M (n - 3))
  else (x j - x (j - 1)) * M (j - 1) + 2 * ((x j - x (j - 1)) + (x (j + 1) - x j)) * M j + (x (j + 1) - x j) * M (j + 1)

/-- The equations as a linear map. -/
def momentMap (n : ℕ) (x : ℕ → ℝ) : (Fin n → ℝ) →ₗ[ℝ] (Fin n → ℝ) where
  toFun v := fun j => leftSide n x (ext0 n v) j
  map_add' u v := by
    have h : ∀ i, ext0 n (u + v) i = ext0 n u i + ext0 n v i := by
      intro i; unfold ext0; split_ifs <;> simp
    funext j
    simp only [leftSide, h, Pi.add_apply]
    split_ifs <;> ring
  map_smul' c v := by
    have h : ∀ i, ext0 n (c • v) i = c * ext0 n v i := by
      intro i; unfold ext0; split_ifs <;> simp
    funext j
    simp only [leftSide, h, Pi.smul_apply, smul_eq_mul, RingHom.id_apply]
    split_ifs <;> ring

/-- Increasing angles. -/
def Incr (n : ℕ) (x : ℕ → ℝ) : Prop := ∀ i, i + 1 < n → x i < x (i + 1)

theorem stable_x {n : ℕ} (hn : 4 ≤ n) {x D : ℕ → ℝ} (hx : Incr n x) {R E H : ℝ} (hH : ∀ i, i + 1 < n → x (i + 1) - x i ≤ H)
    (inner : ∀ i, i + 2 < n → |(x (i + 1) - x i) * D i + 2 * ((x (i + 1) - x i) + (x (i + 2) - x (i + 1))) * D (i + 1) +
      (x (i + 2) - x (i + 1)) * D (i + 2)| ≤ R * ((x (i + 1) - x i) + (x (i + 2) - x (i + 1))))
    (left : |(x 2 - x 1) * (D 1 - D 0) - (x 1 - x 0) * (D 2 - D 1)| ≤ E * ((x 1 - x 0) * (x 2 - x 1)))
    (right : |(x (n - 2) - x (n - 3)) * (D (n - 1) - D (n - 2)) - (x (n - 1) - x (n - 2)) * (D (n - 2) - D (n - 3))| ≤
      E * ((x (n - 1) - x (n - 2)) * (x (n - 2) - x (n - 3)))) :
    ∀ i, 1 ≤ i → i + 1 < n → |D i| ≤ R + H * E := by
  refine stable hn (d := fun i => x (i + 1) - x i) (fun i hi => sub_pos.2 (hx i hi)) hH inner left ?_
  rw [show n - 3 + 1 = n - 2 by omega, show n - 2 + 1 = n - 1 by omega]
  exact right

theorem momentMap_injective {n : ℕ} (hn : 4 ≤ n) {x : ℕ → ℝ} (hx : Incr n x) : Function.Injective (momentMap n x) := by
  rw [injective_iff_map_eq_zero]
  intro v hv
  set D := ext0 n v with hD
  have hrow : ∀ j, j < n → leftSide n x D j = 0 := fun j hj => congrFun hv ⟨j, hj⟩
  have hl : (x 2 - x 1) * (D 1 - D 0) - (x 1 - x 0) * (D 2 - D 1) = 0 := by simpa [leftSide] using hrow 0 (by omega)
  have hr : (x (n - 2) - x (n - 3)) * (D (n - 1) - D (n - 2)) - (x (n - 1) - x (n - 2)) * (D (n - 2) - D (n - 3)) = 0 := by
    have := hrow (n - 1) (by omega)
    unfold leftSide at this
    rwa [if_neg (by omega), if_pos (by omega)] at this
  have hi : ∀ i, i + 2 < n → (x (i + 1) - x i) * D i + 2 * ((x (i + 1) - x i) + (x (i + 2) - x (i + 1))) * D (i + 1) +
      (x (i + 2) - x (i + 1)) * D (i + 2) = 0 := by
    intro i hi
    have := hrow (i + 1) (by omega)
    unfold leftSide at this
    rw [if_neg (by omega), if_neg (by omega)] at this
    simpa using this
  obtain ⟨H, hH⟩ : ∃ H, ∀ i, i + 1 < n → x (i + 1) - x i ≤ H := by
    obtain ⟨j, _, hj⟩ := Finset.exists_max_image (Finset.range n) (fun i => x (i + 1) - x i) ⟨0, by simp; omega⟩
    exact ⟨_, fun i hi => hj i (by simp; omega)⟩
  have hz : ∀ i, 1 ≤ i → i + 1 < n → D i = 0 := by
    intro i h1 h2
    have := stable_x hn hx (D := D) (R := 0) (E := 0) hH (fun i h => by rw [hi i h]; simp) (by rw [hl]; simp) (by rw [hr]; simp) i h1 h2
    simpa using this
  have h0 : D 0 = 0 := by
    rw [hz 1 (by omega) (by omega), hz 2 (by omega) (by omega)] at hl
    have := hx 1 (by omega)
    have h2 : x 2 - x 1 ≠ 0 := by linarith
    have h3 : (x 2 - x 1) * D 0 = 0 := by linarith
    exact (mul_eq_zero.1 h3).resolve_left h2
  have hN : D (n - 1) = 0 := by
    rw [hz (n - 2) (by omega) (by omega), hz (n - 3) (by omega) (by omega)] at hr
    have := hx (n - 3) (by omega)
    rw [show n - 3 + 1 = n - 2 by omega] at this
    have h2 : x (n - 2) - x (n - 3) ≠ 0 := by linarith
    have h3 : (x (n - 2) - x (n - 3)) * D (n - 1) = 0 := by linarith
    exact (mul_eq_zero.1 h3).resolve_left h2
  funext j
  have hj : D j = v j := by rw [hD]; unfold ext0; rw [dif_pos j.2]
  rw [← hj]
  show D j = 0
  by_cases a : (j : ℕ) = 0
  · rw [a]; exact h0
  by_cases b : (j : ℕ) = n - 1
  · rw [b]; exact hN
  · exact hz j (by omega) (by omega)

/-- The equations have a solution. -/
theorem exists_moments {n : ℕ} (hn : 4 ≤ n) {x : ℕ → ℝ} (hx : Incr n x) (y : ℕ → ℝ) : ∃ M, MomentEq n x y M := by
  obtain ⟨v, hv⟩ := (LinearMap.injective_iff_surjective.1 (momentMap_injective hn hx)) (fun j : Fin n => if (j : ℕ) = 0 ∨ (j : ℕ) + 1 = n then 0 else
    6 * ((y (j + 1) - y j) / (x (j + 1) - x j) - (y j - y (j - 1)) / (x j - x (j - 1))))
  have hrow : ∀ j, j < n → leftSide n x (ext0 n v) j = if j = 0 ∨ j + 1 = n then 0 else
      6 * ((y (j + 1) - y j) / (x (j + 1) - x j) - (y j - y (j - 1)) / (x j - x (j - 1))) := fun j hj => congrFun hv ⟨j, hj⟩
  refine ⟨ext0 n v, fun i hi => ?_, ?_, ?_, fun i hi => by unfold ext0; rw [dif_neg (by omega)]⟩
  · have := hrow (i + 1) (by omega)
    unfold leftSide at this
    rw [if_neg (by omega), if_neg (by omega), if_neg (by omega)] at this
    simpa using this
  · have := hrow 0 (by omega)
    unfold leftSide at this
    rw [if_pos rfl, if_pos (.inl rfl)] at this
    linarith
  · have := hrow (n - 1) (by omega)
    unfold leftSide at this
    rw [if_neg (by omega), if_pos (by omega), if_pos (.inr (by omega))] at this
    linarith

theorem moments_spec {n : ℕ} (hn : 4 ≤ n) {x : ℕ → ℝ} (hx : Incr n x) (y : ℕ → ℝ) : MomentEq n x y (moments n x y) := by
  unfold moments
  rw [dif_pos (exists_moments hn hx y)]
  exact (exists_moments hn hx y).choose_spec

/-- The equations have only one solution. -/
theorem moments_unique {n : ℕ} (hn : 4 ≤ n) {x : ℕ → ℝ} (hx : Incr n x) {y M M' : ℕ → ℝ} (h : MomentEq n x y M) (h' : MomentEq n x y M') :
    M = M' := by
  have hmap : ∀ {M}, MomentEq n x y M → ∀ j, j < n → leftSide n x M j = if j = 0 ∨ j + 1 = n then 0 else
      6 * ((y (j + 1) - y j) / (x (j + 1) - x j) - (y j - y (j - 1)) / (x j - x (j - 1))) := by
    intro M h j hj
    unfold leftSide
    by_cases a : j = 0
    · rw [if_pos a, if_pos (.inl a), h.left, sub_self]
    by_cases b : j + 1 = n
    · rw [if_neg a, if_pos b, if_pos (.inr b), h.right, sub_self]
    · rw [if_neg a, if_neg b, if_neg (by omega)]
      obtain ⟨i, rfl⟩ : ∃ i, j = i + 1 := ⟨j - 1, by omega⟩
      have := h.inner i (by omega)
      simpa using this
  have hext : ∀ {M}, MomentEq n x y M → ext0 n (fun j : Fin n => M j) = M := by
    intro M h
    funext i
    unfold ext0
    split_ifs with hi
    · rfl
    · exact (h.outside i (by omega)).symm
  have : (fun j : Fin n => M j) = (fun j : Fin n => M' j) := by
    refine momentMap_injective hn hx (funext fun j => ?_)
    show leftSide n x (ext0 n _) j = leftSide n x (ext0 n _) j
    rw [hext h, hext h', hmap h j j.2, hmap h' j j.2]
  rw [← hext h, ← hext h', this]

/-! ### The error of one piece -/

theorem zero_of_three' {g g' g'' : ℝ → ℝ} (h1 : ∀ x, HasDerivAt g (g' x) x) (h2 : ∀ x, HasDerivAt g' (g'' x) x) {u v s : ℝ} (huv : u < v)
    (hvs : v < s) (hu : g u = 0) (hv : g v = 0) (hs : g s = 0) : ∃ ξ, u ≤ ξ ∧ ξ ≤ s ∧ g'' ξ = 0 := by
  have c1 : Continuous g := continuous_iff_continuousAt.2 (fun x => (h1 x).continuousAt)
  have c2 : Continuous g' := continuous_iff_continuousAt.2 (fun x => (h2 x).continuousAt)
  obtain ⟨ξ₁, hξ₁, e1⟩ := exists_hasDerivAt_eq_zero huv c1.continuousOn (hu.trans hv.symm) (fun x _ => h1 x)
  obtain ⟨ξ₂, hξ₂, e2⟩ := exists_hasDerivAt_eq_zero hvs c1.continuousOn (hv.trans hs.symm) (fun x _ => h1 x)
  obtain ⟨ξ, hξ, e⟩ := exists_hasDerivAt_eq_zero (hξ₁.2.trans hξ₂.1) c2.continuousOn (e1.trans e2.symm) (fun x _ => h2 x)
  exact ⟨ξ, (hξ₁.1.trans hξ.1).le, (hξ.2.trans hξ₂.2).le, e⟩

/-- A function that is zero at `a` and `b`. -/
theorem small_of_zeros {g g' g'' : ℝ → ℝ} (h1 : ∀ x, HasDerivAt g (g' x) x) (h2 : ∀ x, HasDerivAt g' (g'' x) x) {B lo hi a b x : ℝ}
    (hB : ∀ z, lo ≤ z → z ≤ hi → |g'' z| ≤ B) (hab : a < b) (hlo : lo ≤ a) (hhi : b ≤ hi) (hxlo : lo ≤ x) (hxhi : x ≤ hi)
    (za : g a = 0) (zb : g b = 0) : |g x| ≤ B / 2 * (|x - a| * |x - b|) := by
  by_cases hxa : x = a
  · subst hxa; simp [za]
  by_cases hxb : x = b
  · subst hxb; simp [zb]
  have hw : (x - a) * (x - b) ≠ 0 := mul_ne_zero (sub_ne_zero.2 hxa) (sub_ne_zero.2 hxb)
  set c := g x / ((x - a) * (x - b)) with hc
  have hg1 : ∀ t, HasDerivAt (fun t => g t - c * ((t - a) * (t - b))) (g' t - c * ((t - b) + (t - a))) t := by
    intro t
    have e2 : HasDerivAt (fun t : ℝ => c * ((t - a) * (t - b))) (c * ((t - b) + (t - a))) t := by
      have := (((hasDerivAt_id t).sub_const a).mul ((hasDerivAt_id t).sub_const b)).const_mul c
      simpa using this
    exact (h1 t).sub e2
  have hg2 : ∀ t, HasDerivAt (fun t => g' t - c * ((t - b) + (t - a))) (g'' t - c * 2) t := by
    intro t
    have e2 : HasDerivAt (fun t : ℝ => c * ((t - b) + (t - a))) (c * 2) t := by
      have := (((hasDerivAt_id t).sub_const b).add ((hasDerivAt_id t).sub_const a)).const_mul c
      rw [one_add_one_eq_two] at this
      simpa using this
    exact (h2 t).sub e2
  have za' : g a - c * ((a - a) * (a - b)) = 0 := by rw [za]; ring
  have zb' : g b - c * ((b - a) * (b - b)) = 0 := by rw [zb]; ring
  have zx : g x - c * ((x - a) * (x - b)) = 0 := by rw [hc, div_mul_cancel₀ _ hw]; ring
  have key : ∃ ξ, lo ≤ ξ ∧ ξ ≤ hi ∧ g'' ξ - c * 2 = 0 := by
    rcases lt_trichotomy x a with h | h | h
    · obtain ⟨ξ, k1, k2, k3⟩ := zero_of_three' hg1 hg2 h hab zx za' zb'
      exact ⟨ξ, by linarith, by linarith, k3⟩
    · exact absurd h hxa
    · rcases lt_trichotomy x b with h' | h' | h'
      · obtain ⟨ξ, k1, k2, k3⟩ := zero_of_three' hg1 hg2 h h' za' zx zb'
        exact ⟨ξ, by linarith, by linarith, k3⟩
      · exact absurd h' hxb
      · obtain ⟨ξ, k1, k2, k3⟩ := zero_of_three' hg1 hg2 hab h' za' zb' zx
        exact ⟨ξ, by linarith, by linarith, k3⟩
  obtain ⟨ξ, k1, k2, hξ⟩ := key
  have hcB : |c| ≤ B / 2 := by
    have : c = g'' ξ / 2 := by linarith
    rw [this, abs_div, abs_two]
    exact div_le_div_of_nonneg_right (hB ξ k1 k2) (by norm_num)
  have : g x = c * ((x - a) * (x - b)) := by linarith
  rw [this, abs_mul, abs_mul]
  exact mul_le_mul_of_nonneg_right hcB (by positivity)

theorem hasDerivAt_cubic (p q r s a b x : ℝ) :
    HasDerivAt (fun x => p * (b - x) ^ 3 + q * (x - a) ^ 3 + r * (b - x) + s * (x - a)) (-(3 * p * (b - x) ^ 2) + 3 * q * (x - a) ^ 2 - r + s) x := by
  have h1 : HasDerivAt (fun x : ℝ => b - x) (-1) x := by simpa using (hasDerivAt_id x).const_sub b
  have h2 : HasDerivAt (fun x : ℝ => x - a) 1 x := by simpa using (hasDerivAt_id x).sub_const a
  have := ((((h1.pow 3).const_mul p).add ((h2.pow 3).const_mul q)).add (h1.const_mul r)).add (h2.const_mul s)
  refine this.congr_deriv ?_
  push_cast
  ring

theorem hasDerivAt_cubic' (p q r s a b x : ℝ) :
    HasDerivAt (fun x => -(3 * p * (b - x) ^ 2) + 3 * q * (x - a) ^ 2 - r + s) (6 * p * (b - x) + 6 * q * (x - a)) x := by
  have h1 : HasDerivAt (fun x : ℝ => b - x) (-1) x := by simpa using (hasDerivAt_id x).const_sub b
  have h2 : HasDerivAt (fun x : ℝ => x - a) 1 x := by simpa using (hasDerivAt_id x).sub_const a
  have := ((((h1.pow 2).const_mul (3 * p)).neg.add ((h2.pow 2).const_mul (3 * q))).sub_const r).add_const s
  refine this.congr_deriv ?_
  push_cast
  ring

theorem piece_left {a b ya yb Ma Mb : ℝ} (hab : a < b) : piece a b ya yb Ma Mb a = ya := by
  have : b - a ≠ 0 := by linarith
  unfold piece
  field_simp
  ring

theorem piece_right {a b ya yb Ma Mb : ℝ} (hab : a < b) : piece a b ya yb Ma Mb b = yb := by
  have : b - a ≠ 0 := by linarith
  unfold piece
  field_simp
  ring

theorem quad_bound {a b x : ℝ} (h3 : a - (b - a) ≤ x) (h4 : x ≤ b + (b - a)) : |x - a| * |x - b| ≤ 2 * (b - a) ^ 2 := by
  rw [← abs_mul, abs_le]
  constructor
  · nlinarith [sq_nonneg (x - (a + b) / 2)]
  · nlinarith

/-- The cubic polynomial with the values and second derivatives of a function at two points is near the function. -/
theorem piece_error {f f1 f2 f3 f4 : ℝ → ℝ} (d1 : ∀ x, HasDerivAt f (f1 x) x) (d2 : ∀ x, HasDerivAt f1 (f2 x) x)
    (d3 : ∀ x, HasDerivAt f2 (f3 x) x) (d4 : ∀ x, HasDerivAt f3 (f4 x) x) {B : ℝ} (hB : ∀ x, |f4 x| ≤ B) {a b x : ℝ} (hab : a < b)
    (h3 : a - (b - a) ≤ x) (h4 : x ≤ b + (b - a)) : |f x - piece a b (f a) (f b) (f2 a) (f2 b) x| ≤ B * (b - a) ^ 4 := by
  have hg : 0 < b - a := by linarith
  have hB0 : 0 ≤ B := (abs_nonneg _).trans (hB 0)
  have e2 : ∀ z, a - (b - a) ≤ z → z ≤ b + (b - a) →
      |f2 z - (6 * (f2 a / (6 * (b - a))) * (b - z) + 6 * (f2 b / (6 * (b - a))) * (z - a))| ≤ B * (b - a) ^ 2 := by
    intro z hz1 hz2
    have h := chord_error d3 d4 hB hab z
    have e : f2 z - (6 * (f2 a / (6 * (b - a))) * (b - z) + 6 * (f2 b / (6 * (b - a))) * (z - a)) =
        -((f2 b - f2 a) / (b - a) * (z - a) + f2 a - f2 z) := by
      field_simp
      ring
    rw [e, abs_neg]
    refine h.trans ?_
    have := mul_le_mul_of_nonneg_left (quad_bound hz1 hz2) (by positivity : 0 ≤ B / 2)
    linarith
  have key := small_of_zeros (g := fun x => f x - piece a b (f a) (f b) (f2 a) (f2 b) x) (fun x => (d1 x).sub (hasDerivAt_cubic _ _ _ _ a b x))
    (fun x => (d2 x).sub (hasDerivAt_cubic' _ _ _ _ a b x)) (B := B * (b - a) ^ 2) (lo := a - (b - a)) (hi := b + (b - a)) e2 hab (by linarith)
    (by linarith) h3 h4 (by simp only [piece_left hab, sub_self]) (by simp only [piece_right hab, sub_self])
  refine key.trans ?_
  have := mul_le_mul_of_nonneg_left (quad_bound h3 h4) (by positivity : 0 ≤ B * (b - a) ^ 2 / 2)
  calc _ ≤ _ := this
    _ = _ := by ring

/-- Two pieces with near data are near. -/
theorem piece_diff {a b ya yb za zb Ma Mb Na Nb δ μ x : ℝ} (hab : a < b) (h3 : a - (b - a) ≤ x) (h4 : x ≤ b + (b - a))
    (hya : |ya - za| ≤ δ) (hyb : |yb - zb| ≤ δ) (hMa : |Ma - Na| ≤ μ) (hMb : |Mb - Nb| ≤ μ) :
    |piece a b ya yb Ma Mb x - piece a b za zb Na Nb x| ≤ 3 * δ + 2 * (b - a) ^ 2 * μ := by
  have hg : 0 < b - a := by linarith
  have hδ : 0 ≤ δ := (abs_nonneg _).trans hya
  have hμ : 0 ≤ μ := (abs_nonneg _).trans hMa
  obtain ⟨t, ht⟩ : ∃ t, x = a + t * (b - a) := ⟨(x - a) / (b - a), by rw [div_mul_cancel₀ _ hg.ne']; ring⟩
  have ht1 : -1 ≤ t := by nlinarith
  have ht2 : t ≤ 2 := by nlinarith
  have e : piece a b ya yb Ma Mb x - piece a b za zb Na Nb x = ((1 - t) * (ya - za) + t * (yb - zb)) +
      (b - a) ^ 2 / 6 * (-(t * (1 - t))) * ((2 - t) * (Ma - Na) + (1 + t) * (Mb - Nb)) := by
    unfold piece
    have e1 : b - x = (1 - t) * (b - a) := by rw [ht]; ring
    have e2 : x - a = t * (b - a) := by rw [ht]; ring
    rw [e1, e2]
    field_simp
    ring
  rw [e]
  refine (abs_add_le _ _).trans (add_le_add ?_ ?_)
  · refine (abs_add_le _ _).trans ?_
    rw [abs_mul, abs_mul]
    have q : |1 - t| + |t| ≤ 3 := by
      rcases abs_cases (1 - t) with h | h <;> rcases abs_cases t with h' | h' <;> linarith
    calc |1 - t| * |ya - za| + |t| * |yb - zb| ≤ |1 - t| * δ + |t| * δ :=
          add_le_add (mul_le_mul_of_nonneg_left hya (abs_nonneg _)) (mul_le_mul_of_nonneg_left hyb (abs_nonneg _))
      _ = (|1 - t| + |t|) * δ := by ring
      _ ≤ 3 * δ := mul_le_mul_of_nonneg_right q hδ
  · rw [abs_mul, abs_mul, abs_neg, abs_of_nonneg (by positivity : 0 ≤ (b - a) ^ 2 / 6)]
    have q1 : |t * (1 - t)| ≤ 2 := by
      rw [abs_le]
      constructor <;> nlinarith [sq_nonneg (t - 1 / 2)]
    have q2 : |(2 - t) * (Ma - Na) + (1 + t) * (Mb - Nb)| ≤ 6 * μ := by
      refine (abs_add_le _ _).trans ?_
      rw [abs_mul, abs_mul]
      have a1 : |2 - t| ≤ 3 := by rw [abs_le]; constructor <;> linarith
      have a2 : |1 + t| ≤ 3 := by rw [abs_le]; constructor <;> linarith
      have b1 := mul_le_mul a1 hMa (abs_nonneg _) (by norm_num)
      have b2 := mul_le_mul a2 hMb (abs_nonneg _) (by norm_num)
      linarith
    calc (b - a) ^ 2 / 6 * |t * (1 - t)| * |(2 - t) * (Ma - Na) + (1 + t) * (Mb - Nb)| ≤ (b - a) ^ 2 / 6 * 2 * (6 * μ) :=
          mul_le_mul (mul_le_mul_of_nonneg_left q1 (by positivity)) q2 (abs_nonneg _) (by positivity)
      _ = 2 * (b - a) ^ 2 * μ := by ring

end Shgpy
