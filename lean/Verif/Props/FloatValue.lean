import Verif.Model.FloatValue
import Verif.Props.FloatFourier
import Verif.Proofs.DataExt

/-!
# Values in floating point arithmetic (C100)
-/

namespace Shgpy
open Spec DataContainer

/-! ## Rounding -/

section
variable {p : ℕ} (A : FloatArith p)

theorem rnd_mono : Monotone A.rnd := by
  intro x y hxy
  by_contra h
  rw [not_le] at h
  have h1 : A.rnd y < x := by
    by_contra hc
    exact absurd (rnd_le A (A.float y) (not_lt.1 hc)) (not_le.2 h)
  have h2 : y < A.rnd x := by
    by_contra hc
    exact absurd (le_rnd A (A.float x) (not_lt.1 hc)) (not_le.2 h)
  have h3 := A.nearest x _ (A.float y)
  have h4 := A.nearest y _ (A.float x)
  rw [abs_of_nonneg (by linarith), abs_of_nonpos (by linarith)] at h3
  rw [abs_of_nonpos (by linarith), abs_of_nonneg (by linarith)] at h4
  have : x = y := by linarith
  rw [this] at h
  exact lt_irrefl _ h

theorem rnd_zero_iff (hp : 1 ≤ p) (x : ℝ) : A.rnd x = 0 ↔ x = 0 := by
  constructor
  · intro h
    have := A.rnd_rel hp x
    rw [h, zero_sub, abs_neg] at this
    have hu : (2⁻¹ : ℝ) ^ p ≤ 2⁻¹ := by
      calc (2⁻¹ : ℝ) ^ p ≤ 2⁻¹ ^ 1 := pow_le_pow_of_le_one (by norm_num) (by norm_num) hp
        _ = 2⁻¹ := pow_one _
    have h0 := abs_nonneg x
    have : |x| ≤ 2⁻¹ * |x| := this.trans (mul_le_mul_of_nonneg_right hu h0)
    exact abs_eq_zero.1 (by linarith)
  · rintro rfl
    exact rnd_float A float_zero

end

/-! ## Exact arithmetic -/

/-- Without rounding these are the operations of the other models. -/
theorem C100_exact (c : DataContainer ℝ) (x : ℝ) :
    scaleDataWith id c x = c.scaleData x ∧ subtractMinWith id c = c.subtractMin ∧ normalizeDataWith id c x = c.normalizeData x := by
  refine ⟨rfl, ?_, ?_⟩
  · unfold subtractMinWith subtractMin
    congr 1
    funext o
    rcases o with _ | ⟨k, m⟩ <;> rfl
  unfold normalizeDataWith normalizeData
  congr 1
  funext o
  rcases o with _ | ⟨k, m⟩
  · rfl
  · dsimp only
    split_ifs <;> rfl

/-! ## C100 -/

/-- A container with combinations, each of which has points. -/
def Filled (c : DataContainer ℝ) : Prop := c.data ≠ [] ∧ ∀ it ∈ c.data, it.2 ≠ []

theorem filled_mapY {c : DataContainer ℝ} (h : Filled c) (g : ℝ → ℝ) (s : ℝ) (o : Option ℝ) :
    Filled { c with data := c.data.mapVals (fun v => v.map (fun p => (p.1, g p.2))), scale := s, offset := o } := by
  refine ⟨fun he => h.1 (List.map_eq_nil_iff.1 he), ?_⟩
  rintro ⟨k, v⟩ hit
  obtain ⟨v', hv', rfl⟩ := Dict.mem_mapVals.1 hit
  intro he
  exact h.2 _ hv' (List.map_eq_nil_iff.1 he)

theorem minval_of_first {c : DataContainer ℝ} (h : Filled c) {k : Key} {m : ℝ}
    (hf : FirstExtremum (fun x y : ℝ => x < y) c.data k m) : c.getMinval = .ok (some (k, m)) := by
  rcases getMinval_spec h.2 with ⟨h0, _⟩ | ⟨k', m', h1, h2⟩
  · exact absurd h0 h.1
  rw [h1]
  obtain ⟨pre, v, post, e, ⟨q, hq, hqm⟩, hv, hpre, hpost⟩ := hf
  obtain ⟨pre', v', post', e', ⟨q', hq', hqm'⟩, hv', hpre', hpost'⟩ := h2
  have hle : ∀ it ∈ c.data, ∀ p ∈ it.2, m ≤ p.2 := by
    rw [e]
    intro it hit p hp
    rcases List.mem_append.1 hit with hit | hit
    · exact (hpre it hit p hp).le
    · rcases List.mem_cons.1 hit with rfl | hit
      · exact not_lt.1 (hv p hp)
      · exact not_lt.1 (hpost it hit p hp)
  have hle' : ∀ it ∈ c.data, ∀ p ∈ it.2, m' ≤ p.2 := by
    rw [e']
    intro it hit p hp
    rcases List.mem_append.1 hit with hit | hit
    · exact (hpre' it hit p hp).le
    · rcases List.mem_cons.1 hit with rfl | hit
      · exact not_lt.1 (hv' p hp)
      · exact not_lt.1 (hpost' it hit p hp)
  have hm : m = m' := le_antisymm (hqm' ▸ hle (k', v') (by rw [e']; simp) _ hq') (hqm ▸ hle' (k, v) (by rw [e]; simp) _ hq)
  subst hm
  have key : (k, v) = (k', v') ∨ False := by
    rw [e] at e'
    rcases List.append_eq_append_iff.1 e' with ⟨w, h3, h4⟩ | ⟨w, h3, h4⟩
    · cases w with
      | nil => simp only [List.nil_append, List.cons.injEq] at h4; exact Or.inl h4.1
      | cons x w =>
        rw [List.cons_append, List.cons.injEq] at h4
        have := hpre' (k, v) (by rw [h3, ← h4.1]; simp) q hq
        rw [hqm] at this
        exact absurd this (lt_irrefl _)
    · cases w with
      | nil => simp only [List.nil_append, List.cons.injEq] at h4; exact Or.inl h4.1.symm
      | cons x w =>
        rw [List.cons_append, List.cons.injEq] at h4
        have := hpre (k', v') (by rw [h3, ← h4.1]; simp) q' hq'
        rw [hqm'] at this
        exact absurd this (lt_irrefl _)
  rcases key with key | key
  · cases key; rfl
  · exact key.elim

section
variable {p : ℕ} (A : FloatArith p)

theorem getPc_mapY {c : DataContainer ℝ} (g : ℝ → ℝ) (s : ℝ) (o : Option ℝ) {k : Key} {pts : List (ℝ × ℝ)}
    (h : c.getPc k sRadians = .ok pts) :
    DataContainer.getPc { c with data := c.data.mapVals (fun v => v.map (fun p => (p.1, g p.2))), scale := s, offset := o } k sRadians =
      .ok (pts.map (fun q => (q.1, g q.2))) := by
  rw [getPc_radians] at h ⊢
  unfold Dict.get at h ⊢
  rw [Dict.get?_mapVals]
  cases hg : Dict.get? c.data k with
  | none => rw [hg] at h; cases h
  | some v => rw [hg] at h; cases h; rfl

/-- C100, `subtract_min`.  In floating point arithmetic with any number of digits and any rule for ties, the new minimum is exactly 0 and
belongs to the same combination, no value is negative, a value is 0 exactly when it was minimal, the order of the values is kept, every
value has the relative error of one rounding, and the recorded offset is minus the old minimum for new data. -/
theorem C100_subtract_min (hp : 1 ≤ p) {c : DataContainer ℝ} (hc : Filled c) (hfl : ∀ it ∈ c.data, ∀ q ∈ it.2, IsFloat p q.2) :
    ∃ k m c' f, c.getMinval = .ok (some (k, m)) ∧ subtractMinWith A.rnd c = .ok c' ∧ c'.getMinval = .ok (some (k, 0)) ∧
      (c.getOffset = some 0 → c'.getOffset = some (-m)) ∧ Monotone f ∧
      (∀ y, m ≤ y → 0 ≤ f y ∧ (f y = 0 ↔ y = m) ∧ |f y - (y - m)| ≤ 2⁻¹ ^ p * |y - m|) ∧
      ∀ k pts, c.getPc k sRadians = .ok pts →
        (∀ q ∈ pts, m ≤ q.2) ∧ c'.getPc k sRadians = .ok (pts.map (fun q => (q.1, f q.2))) := by
  rcases getMinval_spec hc.2 with ⟨h0, _⟩ | ⟨k, m, h1, h2⟩
  · exact absurd h0 hc.1
  have hf : ∀ y, m ≤ y → 0 ≤ A.rnd (y - m) ∧ (A.rnd (y - m) = 0 ↔ y = m) ∧ |A.rnd (y - m) - (y - m)| ≤ 2⁻¹ ^ p * |y - m| := by
    intro y hy
    exact ⟨le_rnd A float_zero (by linarith), (rnd_zero_iff A hp _).trans sub_eq_zero, A.rnd_rel hp _⟩
  obtain ⟨pre, v, post, e, ⟨q, hq, hqm⟩, hv, hpre, hpost⟩ := h2
  have hle : ∀ it ∈ c.data, ∀ q ∈ it.2, m ≤ q.2 := by
    rw [e]
    intro it hit p hp
    rcases List.mem_append.1 hit with hit | hit
    · exact (hpre it hit p hp).le
    · rcases List.mem_cons.1 hit with rfl | hit
      · exact not_lt.1 (hv p hp)
      · exact not_lt.1 (hpost it hit p hp)
  have hmf : IsFloat p m := hqm ▸ hfl (k, v) (by rw [e]; simp) q hq
  refine ⟨k, m, _, fun y => A.rnd (y - m), h1, by unfold subtractMinWith; rw [h1]; rfl, ?_, ?_,
    fun x y h => rnd_mono A (by linarith), hf, fun k' pts hk => ⟨?_, getPc_mapY (fun y => A.rnd (y - m)) _ _ hk⟩⟩
  · refine minval_of_first (filled_mapY hc (fun y => A.rnd (y - m)) _ _) ?_
    have hpos : ∀ it ∈ c.data, ∀ q ∈ it.2, ¬ A.rnd (q.2 - m) < 0 := fun it hit q hq => not_lt.2 (hf q.2 (hle it hit q hq)).1
    refine ⟨Dict.mapVals (fun v => v.map (fun p => (p.1, A.rnd (p.2 - m)))) pre, v.map (fun p => (p.1, A.rnd (p.2 - m))),
      Dict.mapVals (fun v => v.map (fun p => (p.1, A.rnd (p.2 - m)))) post, ?_, ⟨_, List.mem_map.2 ⟨q, hq, rfl⟩, ?_⟩, ?_, ?_, ?_⟩
    · show Dict.mapVals _ c.data = _
      rw [e]
      simp [Dict.mapVals]
    · show A.rnd (q.2 - m) = 0
      rw [hqm, sub_self]
      exact rnd_float A float_zero
    · intro x hx
      obtain ⟨y, hy, rfl⟩ := List.mem_map.1 hx
      exact hpos (k, v) (by rw [e]; simp) y hy
    · rintro ⟨k2, v2⟩ hit x hx
      obtain ⟨v', hv', rfl⟩ := Dict.mem_mapVals.1 hit
      obtain ⟨y, hy, rfl⟩ := List.mem_map.1 hx
      have h3 := hpre _ hv' y hy
      have h4 := hf y.2 h3.le
      exact lt_of_le_of_ne h4.1 (fun h5 => absurd (h4.2.1.1 h5.symm) h3.ne')
    · rintro ⟨k2, v2⟩ hit x hx
      obtain ⟨v', hv', rfl⟩ := Dict.mem_mapVals.1 hit
      obtain ⟨y, hy, rfl⟩ := List.mem_map.1 hx
      exact hpos (k2, v') (by rw [e]; simp [hv']) y hy
  · intro ho
    show (c.offset.map (fun o => A.rnd (o - m))) = some (-m)
    rw [show c.offset = some 0 from ho, Option.map_some, zero_sub]
    congr 1
    refine rnd_float A ?_
    obtain ⟨a, b, hab, rfl⟩ := hmf
    exact ⟨-a, b, by rwa [abs_neg], by push_cast; ring⟩
  · intro q hq
    rw [getPc_radians] at hk
    exact hle (k', pts) (Dict.mem_of_get? (Dict.get_ok_iff.1 hk)) q hq

/-- Two roundings in a row. -/
theorem rnd_rnd_rel (hp : 1 ≤ p) {z x e : ℝ} (h : |z - x| ≤ e * |x|) :
    |A.rnd z - x| ≤ ((1 + 2⁻¹ ^ p) * (1 + e) - 1) * |x| := by
  have h1 := A.rnd_rel hp z
  have h2 : |z| ≤ (1 + e) * |x| := by
    have := abs_sub_abs_le_abs_sub z x
    linarith
  have hu : (0 : ℝ) ≤ 2⁻¹ ^ p := by positivity
  calc |A.rnd z - x| ≤ |A.rnd z - z| + |z - x| := abs_sub_le _ _ _
    _ ≤ 2⁻¹ ^ p * ((1 + e) * |x|) + e * |x| := add_le_add (h1.trans (mul_le_mul_of_nonneg_left h2 hu)) h
    _ = _ := by ring

theorem scaleDataWith_ok (rnd : ℝ → ℝ) (c : DataContainer ℝ) {s : ℝ} (hs : 0 ≤ s) :
    scaleDataWith rnd c s = .ok { c with data := c.data.mapVals (fun v => v.map (fun p => (p.1, rnd (s * p.2)))), scale := rnd (c.scale * s) } := by
  unfold scaleDataWith
  rw [if_neg (not_lt.2 hs)]

/-- C100, `normalize_data`.  In floating point arithmetic every value has the relative error of two roundings, and so has the new
maximum, which is the image of the old one; the order of the values is kept and none changes its sign.  Missing: the new maximum is not
always the requested one, see `C100_normalize_broken`. -/
theorem C100_normalize_partial (hp : 1 ≤ p) {c : DataContainer ℝ} (hc : Filled c) {k : Key} {m d : ℝ}
    (hmax : c.getMaxval = .ok (some (k, m))) (hm : 0 < m) (hd : 0 < d) :
    ∃ c' k' f, normalizeDataWith A.rnd c d = .ok c' ∧ c'.getMaxval = .ok (some (k', f m)) ∧
      |f m - d| ≤ ((1 + 2⁻¹ ^ p) ^ 2 - 1) * d ∧ Monotone f ∧ (∀ y, f y = 0 ↔ y = 0) ∧
      (∀ y, |f y - d / m * y| ≤ ((1 + 2⁻¹ ^ p) ^ 2 - 1) * |d / m * y|) ∧
      ∀ k pts, c.getPc k sRadians = .ok pts → c'.getPc k sRadians = .ok (pts.map (fun q => (q.1, f q.2))) := by
  have hdm : 0 < d / m := div_pos hd hm
  have hs0 : 0 ≤ A.rnd (d / m) := le_rnd A float_zero hdm.le
  have hs : 0 < A.rnd (d / m) := lt_of_le_of_ne hs0 (fun h => hdm.ne' ((rnd_zero_iff A hp _).1 h.symm))
  have hmono : Monotone (fun y => A.rnd (A.rnd (d / m) * y)) := fun x y h => rnd_mono A (mul_le_mul_of_nonneg_left h hs0)
  have hrel : ∀ y, |A.rnd (A.rnd (d / m) * y) - d / m * y| ≤ ((1 + 2⁻¹ ^ p) ^ 2 - 1) * |d / m * y| := by
    intro y
    have h1 := A.rnd_rel hp (d / m)
    have h2 : |A.rnd (d / m) * y - d / m * y| ≤ 2⁻¹ ^ p * |d / m * y| := by
      rw [← sub_mul, abs_mul, abs_mul, ← mul_assoc]
      exact mul_le_mul_of_nonneg_right h1 (abs_nonneg _)
    refine (rnd_rnd_rel A hp h2).trans (le_of_eq ?_)
    ring
  have hok : normalizeDataWith A.rnd c d = scaleDataWith A.rnd c (A.rnd (d / m)) := by
    unfold normalizeDataWith
    rw [hmax]
    show (if m = 0 then _ else _) = _
    rw [if_neg hm.ne']
  have hbound : (∀ it ∈ c.data, ∀ q ∈ it.2, q.2 ≤ m) ∧ ∃ it ∈ c.data, ∃ q ∈ it.2, q.2 = m := by
    rcases getMaxval_spec hc.2 with ⟨h0, _⟩ | ⟨k1, m1, h1, h2⟩
    · exact absurd h0 hc.1
    rw [hmax] at h1
    cases h1
    obtain ⟨pre, v, post, e, hq, hv, hpre, hpost⟩ := h2
    refine ⟨?_, (k, v), by rw [e]; simp, hq⟩
    rw [e]
    intro it hit p hp
    rcases List.mem_append.1 hit with hit | hit
    · exact (hpre it hit p hp).le
    · rcases List.mem_cons.1 hit with rfl | hit
      · exact not_lt.1 (hv p hp)
      · exact not_lt.1 (hpost it hit p hp)
  have hc' := filled_mapY hc (fun y => A.rnd (A.rnd (d / m) * y)) (A.rnd (c.scale * A.rnd (d / m))) c.offset
  obtain ⟨k', hk'⟩ : ∃ k', DataContainer.getMaxval { c with data := c.data.mapVals (fun v => v.map (fun p => (p.1, A.rnd (A.rnd (d / m) * p.2)))), scale := A.rnd (c.scale * A.rnd (d / m)) } =
      .ok (some (k', A.rnd (A.rnd (d / m) * m))) := by
    rcases getMaxval_spec hc'.2 with ⟨h0, _⟩ | ⟨k1, m1, h1, h2⟩
    · exact absurd h0 hc'.1
    refine ⟨k1, ?_⟩
    rw [h1]
    suffices m1 = A.rnd (A.rnd (d / m) * m) by rw [this]
    obtain ⟨pre, v, post, e, ⟨q, hq, hqm⟩, hv, hpre, hpost⟩ := h2
    apply le_antisymm
    · obtain ⟨v', hv', rfl⟩ := Dict.mem_mapVals.1 (show (k1, v) ∈ Dict.mapVals _ c.data by
        have : (k1, v) ∈ pre ++ (k1, v) :: post := by simp
        rw [← e] at this
        exact this)
      obtain ⟨y, hy, rfl⟩ := List.mem_map.1 hq
      rw [← hqm]
      exact hmono (hbound.1 _ hv' y hy)
    · obtain ⟨⟨k2, v2⟩, hit, q2, hq2, rfl⟩ := hbound.2
      have hmem : (k2, v2.map (fun p => (p.1, A.rnd (A.rnd (d / q2.2) * p.2)))) ∈ pre ++ (k1, v) :: post := by
        rw [← e]
        exact Dict.mem_mapVals.2 ⟨v2, hit, rfl⟩
      have hq3 : (q2.1, A.rnd (A.rnd (d / q2.2) * q2.2)) ∈ v2.map (fun p => (p.1, A.rnd (A.rnd (d / q2.2) * p.2))) :=
        List.mem_map.2 ⟨q2, hq2, rfl⟩
      rcases List.mem_append.1 hmem with hit' | hit'
      · exact (hpre _ hit' _ hq3).le
      · rcases List.mem_cons.1 hit' with h5 | hit'
        · cases h5
          exact not_lt.1 (hv _ hq3)
        · exact not_lt.1 (hpost _ hit' _ hq3)
  refine ⟨_, k', fun y => A.rnd (A.rnd (d / m) * y), hok.trans (scaleDataWith_ok A.rnd c hs0), hk', ?_, hmono, fun y => ?_, hrel,
    fun k2 pts h => getPc_mapY (fun y => A.rnd (A.rnd (d / m) * y)) _ _ h⟩
  · have := hrel m
    rwa [div_mul_cancel₀ _ hm.ne', abs_of_pos hd] at this
  · exact (rnd_zero_iff A hp _).trans ⟨fun h => (mul_eq_zero.1 h).resolve_left hs.ne', fun h => by rw [h, mul_zero]⟩

/-- C100, `scale_data`.  After any list of factors, the recorded scale and every value have at most the relative error of as many
roundings. -/
theorem C100_scale_history (hp : 1 ≤ p) (l : List ℝ) (hl : ∀ s ∈ l, 0 ≤ s) (c : DataContainer ℝ) :
    ∃ c' f, l.foldlM (scaleDataWith A.rnd) c = .ok c' ∧
      |c'.getScale - c.getScale * l.prod| ≤ ((1 + 2⁻¹ ^ p) ^ l.length - 1) * |c.getScale * l.prod| ∧
      (∀ y, |f y - l.prod * y| ≤ ((1 + 2⁻¹ ^ p) ^ l.length - 1) * |l.prod * y|) ∧ Monotone f ∧
      ∀ k pts, c.getPc k sRadians = .ok pts → c'.getPc k sRadians = .ok (pts.map (fun q => (q.1, f q.2))) := by
  induction l using List.reverseRecOn with
  | nil => exact ⟨c, id, rfl, by simp, by simp, monotone_id, fun k pts h => by rw [h]; simp⟩
  | append_singleton l s ih =>
    obtain ⟨c', f, h1, h2, h3, h4, h5⟩ := ih (fun x hx => hl x (by simp [hx]))
    have hs : 0 ≤ s := hl s (by simp)
    have hu : (0 : ℝ) ≤ (1 + 2⁻¹ ^ p) ^ l.length - 1 := by
      have h0 : (0 : ℝ) ≤ 2⁻¹ ^ p := by positivity
      have : (1 : ℝ) ≤ (1 + 2⁻¹ ^ p) ^ l.length := one_le_pow₀ (by linarith)
      linarith
    have step : ∀ a b : ℝ, |a - b| ≤ ((1 + 2⁻¹ ^ p) ^ l.length - 1) * |b| →
        |A.rnd (s * a) - s * b| ≤ ((1 + 2⁻¹ ^ p) ^ (l.length + 1) - 1) * |s * b| := by
      intro a b hab
      have h6 : |s * a - s * b| ≤ ((1 + 2⁻¹ ^ p) ^ l.length - 1) * |s * b| := by
        rw [← mul_sub, abs_mul, abs_mul]
        calc |s| * |a - b| ≤ |s| * (((1 + 2⁻¹ ^ p) ^ l.length - 1) * |b|) := mul_le_mul_of_nonneg_left hab (abs_nonneg _)
          _ = _ := by ring
      refine (rnd_rnd_rel A hp h6).trans (le_of_eq ?_)
      ring
    refine ⟨{ c' with data := c'.data.mapVals (fun v => v.map (fun p => (p.1, A.rnd (s * p.2)))), scale := A.rnd (c'.scale * s) },
      fun y => A.rnd (s * f y), ?_, ?_, ?_, fun x y h => rnd_mono A (mul_le_mul_of_nonneg_left (h4 h) hs), fun k pts h => ?_⟩
    · rw [List.foldlM_append, h1]
      have h6 := scaleDataWith_ok A.rnd c' hs
      rw [ok_bind, List.foldlM_cons, h6, ok_bind]
      rfl
    · rw [List.length_append, List.length_singleton, List.prod_append, List.prod_singleton]
      have := step _ _ h2
      rw [show c.getScale * (l.prod * s) = s * (c.getScale * l.prod) by ring]
      rwa [mul_comm s c'.getScale] at this
    · intro y
      rw [List.length_append, List.length_singleton, List.prod_append, List.prod_singleton,
        show l.prod * s * y = s * (l.prod * y) by ring]
      exact step _ _ (h3 y)
    · have := getPc_mapY (fun y => A.rnd (s * y)) (A.rnd (c'.scale * s)) c'.offset (h5 k pts h)
      rw [List.map_map] at this
      exact this

end

/-- Data with the single value 49. -/
noncomputable def fortyNine : DataContainer ℝ := ⟨[(['P', 'P'], [(0, 49)])], 1, 0, some 0, false, sRadians⟩

theorem fortyNine_filled : Filled fortyNine := ⟨by simp [fortyNine], by simp [fortyNine]⟩

theorem fortyNine_max : fortyNine.getMaxval = .ok (some (['P', 'P'], 49)) := rfl

theorem rnd_inv_49 (A : FloatArith 53) : A.rnd (1 / 49) = 5882252574524729 / 2 ^ 58 := by
  have h1 : (2 : ℝ) ^ (-6 : ℤ) ≤ A.rnd (1 / 49) := le_rnd A (float_pow (by norm_num) _).1 (by norm_num)
  obtain ⟨n, hn⟩ := float_multiple (A.float (1 / 49)) (e := -6) (by rwa [abs_of_nonneg (le_trans (by positivity) h1)])
  have h2 := A.nearest (1 / 49) (5882252574524729 / 2 ^ 58) ⟨5882252574524729, -58, by norm_num, by norm_num⟩
  rw [hn] at h2 ⊢
  norm_num at h2 ⊢
  rw [abs_le] at h2
  have h3 : (288230376151711744 - 23 : ℝ) ≤ 49 * n := by linarith [h2.1]
  have h4 : (49 * n : ℝ) ≤ 288230376151711744 + 23 := by linarith [h2.2]
  have h5 : (288230376151711744 - 23 : ℤ) ≤ 49 * n := by exact_mod_cast h3
  have h6 : (49 * n : ℤ) ≤ 288230376151711744 + 23 := by exact_mod_cast h4
  have : n = 5882252574524729 := by omega
  rw [this]
  norm_num

theorem rnd_norm_49 (A : FloatArith 53) : A.rnd (A.rnd (1 / 49) * 49) = 1 - 1 / 2 ^ 53 := by
  rw [rnd_inv_49]
  have h1 : (2 : ℝ) ^ (-1 : ℤ) ≤ A.rnd (5882252574524729 / 2 ^ 58 * 49) := le_rnd A (float_pow (by norm_num) _).1 (by norm_num)
  obtain ⟨n, hn⟩ := float_multiple (A.float (5882252574524729 / 2 ^ 58 * 49)) (e := -1)
    (by rwa [abs_of_nonneg (le_trans (by positivity) h1)])
  have h2 := A.nearest (5882252574524729 / 2 ^ 58 * 49) (1 - 1 / 2 ^ 53) ⟨2 ^ 53 - 1, -53, by norm_num, by norm_num⟩
  rw [hn] at h2 ⊢
  norm_num at h2 ⊢
  rw [abs_le] at h2
  have h3 : (288230376151711744 - 32 : ℝ) ≤ 32 * n := by linarith [h2.1]
  have h4 : (32 * n : ℝ) ≤ 288230376151711744 - 14 := by linarith [h2.2]
  have h5 : (288230376151711744 - 32 : ℤ) ≤ 32 * n := by exact_mod_cast h3
  have h6 : (32 * n : ℤ) ≤ 288230376151711744 - 14 := by exact_mod_cast h4
  have : n = 9007199254740991 := by omega
  rw [this]
  norm_num

/-- C100: with the 53 digits of a Python float, whatever the rule for ties, `normalize_data(1)` of data whose maximum is 49 leaves the
maximum `1 - 2^-53`. -/
theorem C100_normalize_broken (A : FloatArith 53) :
    ∃ c', normalizeDataWith A.rnd fortyNine 1 = .ok c' ∧ c'.getMaxval = .ok (some (['P', 'P'], 1 - 1 / 2 ^ 53)) := by
  have h : normalizeDataWith A.rnd fortyNine 1 = scaleDataWith A.rnd fortyNine (A.rnd (1 / 49)) := by
    unfold normalizeDataWith
    rw [fortyNine_max, ok_bind]
    show (if (49 : ℝ) = 0 then _ else _) = _
    rw [if_neg (by norm_num)]
  have h1 := scaleDataWith_ok A.rnd fortyNine (le_rnd A (float_zero (p := 53)) (show (0 : ℝ) ≤ 1 / 49 by norm_num))
  refine ⟨_, h.trans h1, ?_⟩
  show DataContainer.getMaxval ⟨[(['P', 'P'], [(0, A.rnd (A.rnd (1 / 49) * 49))])], _, _, _, _, _⟩ = _
  rw [rnd_norm_49]
  rfl

/-- The hypotheses hold for `fortyNine` and Python floats. -/
example : Nonempty (FloatArith 53) ∧ ∃ k m, Filled fortyNine ∧ fortyNine.getMaxval = .ok (some (k, m)) ∧ 0 < m ∧
    ∀ it ∈ fortyNine.data, ∀ q ∈ it.2, IsFloat 53 q.2 := by
  refine ⟨⟨nearestArith 53 (by norm_num)⟩, _, _, fortyNine_filled, fortyNine_max, by norm_num, ?_⟩
  intro it hit q hq
  simp only [fortyNine, List.mem_singleton] at hit
  subst hit
  simp only [List.mem_singleton] at hq
  subst hq
  exact ⟨49, 0, by norm_num, by norm_num⟩

end Shgpy
