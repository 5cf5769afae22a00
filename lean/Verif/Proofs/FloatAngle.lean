import Verif.Model.FloatAngle
import Verif.Proofs.Angle
import Mathlib.Data.Int.Log
import Mathlib.Tactic.Linarith
import Mathlib.Tactic.Positivity
import Mathlib.Tactic.FieldSimp
import Mathlib.Tactic.Ring
import Mathlib.Algebra.Order.Round

/-!
# Lemmas on floating point numbers
-/

namespace Shgpy

/-- A float that is not smaller than `2^e` is a multiple of `2^(e+1-p)`. -/
theorem float_multiple {p : ℕ} {y : ℝ} (hy : IsFloat p y) {e : ℤ} (he : (2 : ℝ) ^ e ≤ |y|) :
    ∃ n : ℤ, y = n * (2 : ℝ) ^ (e + 1 - p) := by
  obtain ⟨m, k, hm, rfl⟩ := hy
  have h1 : |(m : ℝ) * (2 : ℝ) ^ k| < (2 : ℝ) ^ (p + k : ℤ) := by
    rw [abs_mul, abs_of_pos (by positivity : (0 : ℝ) < 2 ^ k), zpow_add₀ (by norm_num), zpow_natCast]
    refine mul_lt_mul_of_pos_right ?_ (by positivity)
    have : ((|m| : ℤ) : ℝ) < ((2 ^ p : ℤ) : ℝ) := by exact_mod_cast hm
    simpa using this
  have h2 : e < p + k := (zpow_lt_zpow_iff_right₀ (by norm_num : (1 : ℝ) < 2)).1 (lt_of_le_of_lt he h1)
  refine ⟨m * 2 ^ (k - (e + 1 - p)).toNat, ?_⟩
  push_cast
  rw [mul_assoc, ← zpow_natCast, ← zpow_add₀ (by norm_num)]
  congr 2
  omega

theorem float_one {p : ℕ} {b : ℝ} (hb : IsFloat p b) (h : b ≠ 0) : 1 ≤ p := by
  by_contra hp
  obtain ⟨m, e, hm, rfl⟩ := hb
  have : p = 0 := by omega
  subst this
  have : m = 0 := by
    rw [pow_zero] at hm
    have := abs_nonneg m
    exact abs_eq_zero.1 (by omega)
  subst this
  simp at h

theorem float_pow {p : ℕ} (hp : 1 ≤ p) (e : ℤ) : IsFloat p ((2 : ℝ) ^ e) ∧ IsFloat p (-(2 : ℝ) ^ e) := by
  have : (1 : ℤ) < 2 ^ p := one_lt_pow₀ (by norm_num) (by omega)
  exact ⟨⟨1, e, by simpa using this, by simp⟩, ⟨-1, e, by simpa using this, by simp⟩⟩

theorem float_zero {p : ℕ} : IsFloat p 0 := ⟨0, 0, by simp, by simp⟩

/-- There is a gap below every positive float. -/
theorem float_gap {p : ℕ} {b : ℝ} (hb : IsFloat p b) (h0 : 0 < b) :
    ∃ g : ℤ, (2 : ℝ) ^ g ≤ b ∧ ∀ y, IsFloat p y → y < b → y ≤ b - (2 : ℝ) ^ g := by
  have hp := float_one hb h0.ne'
  set e := Int.log 2 b with he
  have h1 : (2 : ℝ) ^ e ≤ b := by exact_mod_cast Int.zpow_log_le_self (b := 2) (by norm_num) h0
  have h2 : (2 : ℝ) ^ (e - 1) ≤ 2 ^ e := zpow_le_zpow_right₀ (by norm_num) (by omega)
  have h3 : (2 : ℝ) ^ (e - p) ≤ 2 ^ (e - 1) := zpow_le_zpow_right₀ (by norm_num) (by omega)
  refine ⟨e - p, by linarith, fun y hy hlt => ?_⟩
  by_cases hc : (2 : ℝ) ^ (e - 1) ≤ y
  · obtain ⟨n, hn⟩ := float_multiple hy (e := e - 1) (le_trans hc (le_abs_self y))
    obtain ⟨m, hm⟩ := float_multiple hb (e := e - 1) (le_trans (le_trans h2 h1) (le_abs_self b))
    have hE : e - 1 + 1 - (p : ℤ) = e - p := by ring
    rw [hE] at hn hm
    have hpos : (0 : ℝ) < 2 ^ (e - (p : ℤ)) := by positivity
    rw [hn, hm] at hlt
    have : n < m := by exact_mod_cast (mul_lt_mul_iff_of_pos_right hpos).1 hlt
    have h4 : (n : ℝ) + 1 ≤ m := by exact_mod_cast this
    rw [hn, hm]
    nlinarith
  · rw [not_le] at hc
    have h4 : (2 : ℝ) ^ e = 2 * 2 ^ (e - 1) := by
      rw [← zpow_one_add₀ (by norm_num)]; congr 1; ring
    linarith

section
variable {p : ℕ} (A : FloatArith p)

theorem rnd_float {x : ℝ} (hx : IsFloat p x) : A.rnd x = x := by
  have := A.nearest x x hx
  rw [sub_self, abs_zero] at this
  exact sub_eq_zero.1 (abs_eq_zero.1 (le_antisymm this (abs_nonneg _)))

theorem rnd_le {x b : ℝ} (hb : IsFloat p b) (h : x ≤ b) : A.rnd x ≤ b := by
  by_contra hc
  rw [not_le] at hc
  have := A.nearest x b hb
  rw [abs_of_nonneg (by linarith), abs_of_nonneg (by linarith)] at this
  linarith

theorem le_rnd {x b : ℝ} (hb : IsFloat p b) (h : b ≤ x) : b ≤ A.rnd x := by
  by_contra hc
  rw [not_le] at hc
  have := A.nearest x b hb
  rw [abs_of_nonpos (by linarith), abs_of_nonpos (by linarith)] at this
  linarith

theorem fmod_nonneg {x b : ℝ} (hb : 0 < b) (hx : 0 ≤ x) : 0 ≤ fmod x b ∧ fmod x b < b := by
  unfold fmod
  rw [if_pos hx]
  have h1 := Int.floor_le (x / b)
  have h2 := Int.lt_floor_add_one (x / b)
  rw [le_div_iff₀ hb] at h1
  rw [div_lt_iff₀ hb] at h2
  constructor <;> nlinarith

theorem fmod_neg {x b : ℝ} (hb : 0 < b) (hx : x < 0) : -b < fmod x b ∧ fmod x b ≤ 0 := by
  unfold fmod
  rw [if_neg (by linarith)]
  have h1 := Int.le_ceil (x / b)
  have h2 := Int.ceil_lt_add_one (x / b)
  rw [div_le_iff₀ hb] at h1
  have h3 : (⌈x / b⌉ : ℝ) - 1 < x / b := by linarith
  rw [lt_div_iff₀ hb] at h3
  constructor <;> nlinarith

theorem fmod_gt {x b : ℝ} (hb : 0 < b) : -b < fmod x b := by
  by_cases hx : 0 ≤ x
  · have := (fmod_nonneg hb hx).1; linarith
  · exact (fmod_neg hb (not_le.1 hx)).1

theorem npMod_range {x b : ℝ} (hb : 0 < b) (hf : IsFloat p b) : 0 ≤ npMod A x b ∧ npMod A x b ≤ b := by
  unfold npMod
  split_ifs with h
  · have := fmod_gt (x := x) hb
    exact ⟨le_rnd A float_zero (by linarith), rnd_le A hf (by linarith)⟩
  · refine ⟨not_lt.1 h, ?_⟩
    by_cases hx : 0 ≤ x
    · exact (fmod_nonneg hb hx).2.le
    · have := (fmod_neg hb (not_le.1 hx)).2
      linarith

theorem npMod_nonneg {x b : ℝ} (hb : 0 < b) (hx : 0 ≤ x) : npMod A x b = x - b * ⌊x / b⌋ ∧ npMod A x b < b := by
  have h := fmod_nonneg hb hx
  unfold npMod
  rw [if_neg (by linarith)]
  exact ⟨by unfold fmod; rw [if_pos hx], h.2⟩

/-- The remainder is a nearest float to the exact one. -/
theorem npMod_nearest {x b : ℝ} (hb : 0 < b) {y : ℝ} (hy : IsFloat p y) :
    |npMod A x b - (x - b * ⌊x / b⌋)| ≤ |y - (x - b * ⌊x / b⌋)| := by
  by_cases hx : 0 ≤ x
  · rw [(npMod_nonneg A hb hx).1, sub_self, abs_zero]
    exact abs_nonneg _
  · have hx' := not_le.1 hx
    unfold npMod
    split_ifs with h
    · have : fmod x b + b = x - b * ⌊x / b⌋ := by
        have h1 := fmod_neg hb hx'
        have h2 : ⌊x / b⌋ = ⌈x / b⌉ - 1 := by
          rw [Int.floor_eq_iff]
          unfold fmod at h h1
          rw [if_neg hx] at h h1
          push_cast
          constructor
          · rw [le_div_iff₀ hb]; nlinarith
          · rw [div_lt_iff₀ hb]; nlinarith
        unfold fmod
        rw [if_neg hx, h2]
        push_cast
        ring
      rw [this]
      exact A.nearest _ y hy
    · have h1 := fmod_neg hb hx'
      have h0 : fmod x b = 0 := le_antisymm h1.2 (not_lt.1 h)
      have h2 : x - b * ⌊x / b⌋ = 0 := by
        unfold fmod at h0
        rw [if_neg hx] at h0
        have h3 : x / b = (⌈x / b⌉ : ℝ) := by
          rw [div_eq_iff hb.ne']; linarith
        have h4 : ⌊x / b⌋ = ⌈x / b⌉ := by
          conv_lhs => rw [h3]
          exact Int.floor_intCast _
        rw [h4]; exact h0
      rw [h0, h2, sub_self, abs_zero]
      exact abs_nonneg _

/-- There are negative floats whose remainder is `b`. -/
theorem npMod_turn {b : ℝ} (hb : 0 < b) (hf : IsFloat p b) : ∃ x, IsFloat p x ∧ x < 0 ∧ -b < x ∧ npMod A x b = b := by
  obtain ⟨g, hg, hgap⟩ := float_gap hf hb
  have hp := float_one hf hb.ne'
  set t : ℝ := 2 ^ (g - 2) with ht
  have ht0 : 0 < t := by positivity
  have h4 : (2 : ℝ) ^ g = 4 * t := by
    rw [ht, show (4 : ℝ) = 2 ^ (2 : ℤ) by norm_num, ← zpow_add₀ (by norm_num)]; congr 1; ring
  refine ⟨-t, (float_pow hp _).2, by linarith, by linarith, ?_⟩
  have hfm : fmod (-t) b = -t := by
    unfold fmod
    rw [if_neg (by linarith)]
    have : ⌈-t / b⌉ = 0 := by
      rw [Int.ceil_eq_iff]
      constructor
      · rw [Int.cast_zero, zero_sub, lt_div_iff₀ hb]; linarith
      · rw [Int.cast_zero, div_le_iff₀ hb]; linarith
    rw [this]; simp
  unfold npMod
  rw [hfm, if_pos (by linarith)]
  have h5 := A.nearest (-t + b) b hf
  have h6 := A.float (-t + b)
  have h7 : b - (-t + b) = t := by ring
  rw [h7, abs_of_pos ht0] at h5
  rcases lt_trichotomy (A.rnd (-t + b)) b with h | h | h
  · have := hgap _ h6 h
    have h8 := (abs_le.1 h5).1
    linarith
  · exact h
  · have h8 := (abs_le.1 h5).2
    linarith

end

/-! ## An arithmetic exists -/

/-- Rounding to the nearest float with `p` binary digits. -/
noncomputable def roundFloat (p : ℕ) (x : ℝ) : ℝ :=
  round (x / (2 : ℝ) ^ (Int.log 2 |x| + 1 - p)) * (2 : ℝ) ^ (Int.log 2 |x| + 1 - p)

/-- Floating point arithmetic with `p` binary digits, ties rounded upwards. -/
noncomputable def nearestArith (p : ℕ) (hp : 1 ≤ p) : FloatArith p where
  rnd := roundFloat p
  float x := by
    unfold roundFloat
    set u : ℤ := Int.log 2 |x| + 1 - p with hu
    have hpos : (0 : ℝ) < 2 ^ u := by positivity
    have h1 : |x / (2 : ℝ) ^ u| < (2 : ℝ) ^ p := by
      rw [abs_div, abs_of_pos hpos, div_lt_iff₀ hpos, ← zpow_natCast, ← zpow_add₀ (by norm_num)]
      have := Int.lt_zpow_succ_log_self (b := 2) (by norm_num) |x|
      have h2 : (p : ℤ) + u = Int.log 2 |x| + 1 := by omega
      rw [h2]
      exact_mod_cast this
    obtain ⟨h2, h3⟩ := abs_lt.1 h1
    have h4 : |round (x / (2 : ℝ) ^ u)| ≤ 2 ^ p := by
      have q1 : round (x / (2 : ℝ) ^ u) ≤ 2 ^ p := by
        rw [round_eq]
        have : ⌊x / (2 : ℝ) ^ u + 1 / 2⌋ < 2 ^ p + 1 := by
          rw [Int.floor_lt]
          push_cast
          linarith
        omega
      have q2 : -2 ^ p ≤ round (x / (2 : ℝ) ^ u) := by
        rw [round_eq, Int.le_floor]
        push_cast
        linarith
      exact abs_le.2 ⟨q2, q1⟩
    rcases lt_or_eq_of_le h4 with h5 | h5
    · exact ⟨_, u, h5, rfl⟩
    · have h6 : (1 : ℤ) < 2 ^ p := one_lt_pow₀ (by norm_num) (by omega)
      rcases abs_cases (round (x / (2 : ℝ) ^ u)) with ⟨h7, _⟩ | ⟨h7, _⟩
      · refine ⟨1, p + u, by simpa using h6, ?_⟩
        rw [← h7, h5]
        push_cast
        rw [zpow_add₀ (by norm_num), zpow_natCast, one_mul]
      · refine ⟨-1, p + u, by simpa using h6, ?_⟩
        have : round (x / (2 : ℝ) ^ u) = -2 ^ p := by omega
        rw [this]
        push_cast
        rw [zpow_add₀ (by norm_num), zpow_natCast]
        ring
  nearest x y hy := by
    unfold roundFloat
    set e : ℤ := Int.log 2 |x| with he
    set u : ℤ := e + 1 - p with hu
    have hpos : (0 : ℝ) < 2 ^ u := by positivity
    have key : ∀ n : ℤ, |(round (x / (2 : ℝ) ^ u) : ℝ) * 2 ^ u - x| ≤ |(n : ℝ) * 2 ^ u - x| := by
      intro n
      have h1 := round_le (x / (2 : ℝ) ^ u) n
      have h2 : ∀ m : ℤ, |(m : ℝ) * 2 ^ u - x| = |x / (2 : ℝ) ^ u - m| * 2 ^ u := by
        intro m
        have h3 : x - (m : ℝ) * 2 ^ u = (x / (2 : ℝ) ^ u - m) * 2 ^ u := by
          rw [sub_mul, div_mul_cancel₀ _ hpos.ne']
        rw [abs_sub_comm, h3, abs_mul, abs_of_pos hpos]
      rw [h2, h2]
      exact mul_le_mul_of_nonneg_right h1 hpos.le
    by_cases hx : x = 0
    · rw [hx]
      simp only [zero_div, round_zero, Int.cast_zero, zero_mul, sub_zero, abs_zero]
      exact abs_nonneg y
    have hx' : 0 < |x| := abs_pos.2 hx
    have hle : (2 : ℝ) ^ e ≤ |x| := by exact_mod_cast Int.zpow_log_le_self (b := 2) (by norm_num) hx'
    by_cases hc : (2 : ℝ) ^ e ≤ |y|
    · obtain ⟨n, hn⟩ := float_multiple hy hc
      rw [hn]
      exact key n
    · rw [not_le] at hc
      have hpe : (2 : ℝ) ^ e = ((2 ^ (p - 1) : ℤ) : ℝ) * 2 ^ u := by
        push_cast
        rw [← zpow_natCast, ← zpow_add₀ (by norm_num)]
        congr 1
        omega
      obtain ⟨hc1, hc2⟩ := abs_lt.1 hc
      rcases abs_cases x with ⟨h1, h2⟩ | ⟨h1, h2⟩
      · refine le_trans (key (2 ^ (p - 1))) ?_
        rw [← hpe, abs_of_nonpos (by linarith), abs_of_nonpos (by linarith)]
        linarith
      · refine le_trans (key (-2 ^ (p - 1))) ?_
        have : ((-2 ^ (p - 1) : ℤ) : ℝ) * 2 ^ u = -(2 : ℝ) ^ e := by rw [hpe]; push_cast; ring
        rw [this, abs_of_nonneg (by linarith), abs_of_nonneg (by linarith)]
        linarith

end Shgpy
