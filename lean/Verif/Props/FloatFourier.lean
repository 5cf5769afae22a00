import Verif.Spec.FloatFourier
import Verif.Props.LeastSquares
import Verif.Proofs.FloatAngle

/-!
# Fourier data in floating point arithmetic (C98)
-/

namespace Shgpy
open Spec

/-! ## Rounding errors -/

theorem exists_float_near {p : ℕ} (hp : 1 ≤ p) (x : ℝ) : ∃ y, IsFloat p y ∧ |y - x| ≤ 2⁻¹ ^ p * |x| := by
  by_cases hx : x = 0
  · exact ⟨0, ⟨0, 0, by simp, by simp⟩, by simp [hx]⟩
  have hpos : 0 < |x| := abs_pos.2 hx
  -- 2^n ≤ |x| < 2^(n+1)
  obtain ⟨n, hn1, hn2⟩ := exists_mem_Ico_zpow hpos (one_lt_two (α := ℝ))
  -- the unit in the last place
  set u : ℝ := (2 : ℝ) ^ (n + 1 - p) with hu
  have hu0 : 0 < u := by positivity
  have hup : u * 2 ^ p = 2 ^ (n + 1) := by
    rw [hu, ← zpow_natCast (2 : ℝ) p, ← zpow_add₀ (by norm_num)]
    congr 1
    omega
  have hdist : |round (x / u) * u - x| ≤ u / 2 := by
    have h := abs_sub_round (x / u)
    have e : round (x / u) * u - x = -((x / u - round (x / u)) * u) := by field_simp; ring
    rw [e, abs_neg, abs_mul, abs_of_pos hu0]
    nlinarith
  have hhalf : u / 2 ≤ 2⁻¹ ^ p * |x| := by
    have h1 : u / 2 = 2⁻¹ ^ p * 2 ^ n := by
      have : u = 2⁻¹ ^ p * 2 ^ (n + 1) := by rw [← hup, inv_pow]; field_simp
      rw [this, zpow_add_one₀ (by norm_num)]
      ring
    rw [h1]
    exact mul_le_mul_of_nonneg_left hn1 (by positivity)
  refine ⟨round (x / u) * u, ?_, hdist.trans hhalf⟩
  have hle : |round (x / u)| ≤ 2 ^ p := by
    have h1 : |x / u| < 2 ^ p := by
      rw [abs_div, abs_of_pos hu0, div_lt_iff₀ hu0, mul_comm, hup]
      exact hn2
    have h2 := abs_sub_round (x / u)
    have h3 : (|round (x / u)| : ℝ) < 2 ^ p + 1 := by
      have : |(round (x / u) : ℝ)| ≤ |x / u| + |x / u - round (x / u)| := by
        have := abs_sub (x / u) (x / u - round (x / u))
        simpa using this
      linarith
    have h4 : |round (x / u)| < 2 ^ p + 1 := by exact_mod_cast h3
    omega
  rcases lt_or_eq_of_le hle with h | h
  · exact ⟨round (x / u), n + 1 - p, h, by rw [hu]⟩
  · have hp2 : (2 : ℤ) ^ p = 2 ^ (p - 1) * 2 := by rw [← pow_succ]; congr 1; omega
    have hp0 : (0 : ℤ) < 2 ^ (p - 1) := by positivity
    have hlt : (2 : ℤ) ^ (p - 1) < 2 ^ p := by omega
    have hz : (2 : ℝ) ^ (n + 1 - p + 1) = u * 2 := by rw [zpow_add_one₀ (by norm_num), hu]
    rcases abs_choice (round (x / u)) with hc | hc
    · rw [hc] at h
      refine ⟨2 ^ (p - 1), n + 1 - p + 1, by rw [abs_of_pos (by positivity)]; exact hlt, ?_⟩
      rw [hz, h, hp2]
      push_cast
      ring
    · rw [hc] at h
      have h' : round (x / u) = -2 ^ p := by omega
      refine ⟨-2 ^ (p - 1), n + 1 - p + 1, by rw [abs_neg, abs_of_pos (by positivity)]; exact hlt, ?_⟩
      rw [hz, h', hp2]
      push_cast
      ring

theorem FloatArith.rnd_rel {p : ℕ} (A : FloatArith p) (hp : 1 ≤ p) (x : ℝ) : |A.rnd x - x| ≤ 2⁻¹ ^ p * |x| := by
  obtain ⟨y, h1, h2⟩ := exists_float_near hp x
  exact (A.nearest x y h1).trans h2

theorem FloatArith.rndC_rel {p : ℕ} (A : FloatArith p) (hp : 1 ≤ p) (z : ℂ) : ‖A.rndC z - z‖ ≤ 2⁻¹ ^ p * ‖z‖ := by
  have h1 := A.rnd_rel hp z.re
  have h2 := A.rnd_rel hp z.im
  have hpos : (0 : ℝ) ≤ 2⁻¹ ^ p := by positivity
  refine abs_le_of_sq_le_sq' ?_ (by positivity) |>.2
  rw [mul_pow, ← Complex.normSq_eq_norm_sq, ← Complex.normSq_eq_norm_sq, Complex.normSq_apply, Complex.normSq_apply]
  have e1 : (A.rndC z - z).re = A.rnd z.re - z.re := rfl
  have e2 : (A.rndC z - z).im = A.rnd z.im - z.im := rfl
  rw [e1, e2]
  have s1 := mul_self_le_mul_self (abs_nonneg _) h1
  have s2 := mul_self_le_mul_self (abs_nonneg _) h2
  rw [abs_mul_abs_self] at s1 s2
  have t1 : 2⁻¹ ^ p * |z.re| * (2⁻¹ ^ p * |z.re|) = (2⁻¹ ^ p) ^ 2 * (z.re * z.re) := by
    rw [← abs_mul_abs_self z.re]; ring
  have t2 : 2⁻¹ ^ p * |z.im| * (2⁻¹ ^ p * |z.im|) = (2⁻¹ ^ p) ^ 2 * (z.im * z.im) := by
    rw [← abs_mul_abs_self z.im]; ring
  rw [t1] at s1
  rw [t2] at s2
  linarith

/-- An approximation with relative error `c - 1` of a number of size at most `B`, rounded, has relative error `(1 + u) c - 1`. -/
theorem rndC_step {p : ℕ} (A : FloatArith p) (hp : 1 ≤ p) {a a' : ℂ} {c B : ℝ} (ha : ‖a‖ ≤ B) (h : ‖a' - a‖ ≤ (c - 1) * B) :
    ‖A.rndC a' - a‖ ≤ ((1 + 2⁻¹ ^ p) * c - 1) * B := by
  have h1 := A.rndC_rel hp a'
  have h2 : ‖a'‖ ≤ c * B := by
    have : ‖a'‖ ≤ ‖a' - a‖ + ‖a‖ := by simpa using norm_add_le (a' - a) a
    linarith
  have h3 : ‖A.rndC a' - a‖ ≤ ‖A.rndC a' - a'‖ + ‖a' - a‖ := by
    have : A.rndC a' - a = (A.rndC a' - a') + (a' - a) := by ring
    rw [this]; exact norm_add_le _ _
  have hpos : (0 : ℝ) ≤ 2⁻¹ ^ p := by positivity
  have h4 := mul_le_mul_of_nonneg_left h2 hpos
  nlinarith

/-- Adding up rounded. -/
theorem foldl_rnd {p : ℕ} (A : FloatArith p) (hp : 1 ≤ p) {ι : Type} (l : List ι) (t τ : ι → ℂ) (B : ι → ℝ) {c : ℝ} (hc : 1 ≤ c)
    (hB : ∀ i ∈ l, ‖τ i‖ ≤ B i) (ht : ∀ i ∈ l, ‖t i - τ i‖ ≤ (c - 1) * B i) {s σ : ℂ} {S : ℝ} (hS : ‖σ‖ ≤ S)
    (hs : ‖s - σ‖ ≤ (c - 1) * S) :
    ‖(l.map t).foldl (fun s t => A.rndC (s + t)) s - (σ + (l.map τ).sum)‖ ≤
      ((1 + 2⁻¹ ^ p) ^ l.length * c - 1) * (S + (l.map B).sum) := by
  induction l generalizing c s σ S with
  | nil => simpa using hs
  | cons i l ih =>
    have hu : (0 : ℝ) ≤ 2⁻¹ ^ p := by positivity
    have hB0 : ∀ j ∈ i :: l, 0 ≤ B j := fun j hj => (norm_nonneg _).trans (hB j hj)
    have h1 : ‖σ + τ i‖ ≤ S + B i := (norm_add_le _ _).trans (add_le_add hS (hB i (by simp)))
    have h2 : ‖s + t i - (σ + τ i)‖ ≤ (c - 1) * (S + B i) := by
      have e : s + t i - (σ + τ i) = (s - σ) + (t i - τ i) := by ring
      rw [e, mul_add]
      exact (norm_add_le _ _).trans (add_le_add hs (ht i (by simp)))
    have h3 := rndC_step A hp h1 h2
    have hc' : 1 ≤ (1 + 2⁻¹ ^ p) * c := by nlinarith
    have := ih hc' (fun j hj => hB j (by simp [hj])) (fun j hj => (ht j (by simp [hj])).trans (by
      have := hB0 j (by simp [hj])
      refine mul_le_mul_of_nonneg_right ?_ this
      nlinarith)) h1 h3
    simp only [List.map_cons, List.foldl_cons, List.sum_cons, List.length_cons]
    have e1 : σ + (τ i + (l.map τ).sum) = σ + τ i + (l.map τ).sum := by ring
    have e2 : S + (B i + (l.map B).sum) = S + B i + (l.map B).sum := by ring
    rw [e1, e2, pow_succ, mul_assoc]
    exact this

/-! ## The transform -/

theorem datToFdatWith_ok {component : List (ℝ × ℝ) → ℤ → Except Err ℂ} {dat : DataContainer ℝ} (hwf : Dict.WF dat.data) {M : ℕ}
    {g : List (ℝ × ℝ) → ℤ → ℂ} (h : ∀ it ∈ dat.data, ∀ m ∈ freqs M, component it.2 m = .ok (g it.2 m)) :
    datToFdatWith component dat M = .ok ⟨dat.data.mapVals (fun pts => (freqs M).map (g pts)), M, 1, .num 0⟩ := by
  unfold datToFdatWith
  have hnd : ((dat.getKeys.map (fun k => (k, List.replicate (2 * M + 1) (0 : ℂ)))).map Prod.fst).Nodup := by
    rw [List.map_map]
    simpa [Function.comp_def, DataContainer.getKeys, Dict.WF] using hwf
  rw [Dict.ofPairs_of_nodup hnd]
  have hkeys : ∀ k ∈ dat.getKeys, (fillFreqs M 0 (2 * M + 1) (fun m => do
      let pts ← dat.getPc k sRadians
      component pts m)) = .ok ((freqs M).map (g ((Dict.get? dat.data k).getD []))) := by
    intro k hk
    obtain ⟨v, hv⟩ := Dict.mem_keys.1 hk
    have hget := (Dict.get?_eq_some_iff hwf).2 hv
    rw [hget]
    apply fillFreqs_ok
    intro m hm
    rw [getPc_radians, Dict.get_ok_iff.2 hget]
    exact h _ hv m hm
  have := foldlM_set_keys _ _ (List.replicate (2 * M + 1) (0 : ℂ)) dat.getKeys [] (by simpa [DataContainer.getKeys, Dict.WF] using hwf) hkeys
  simp only [List.nil_append] at this
  show Except.bind _ _ = _
  rw [this]
  simp only [Except.bind]
  have heq : dat.getKeys.map (fun k => (k, (freqs M).map (g ((Dict.get? dat.data k).getD [])))) =
      dat.data.mapVals (fun pts => (freqs M).map (g pts)) := by
    unfold DataContainer.getKeys Dict.keys Dict.mapVals
    rw [List.map_map]
    apply List.map_congr_left
    rintro ⟨k, v⟩ hkv
    simp [(Dict.get?_eq_some_iff hwf).2 hkv]
  rw [heq]
  exact FDataContainer.init_items .complex64 (Or.inl rfl) (by simpa [Dict.WF] using hwf) (by
    rintro ⟨k, v⟩ hit
    obtain ⟨a, _, rfl⟩ := Dict.mem_mapVals.1 hit
    simp [length_freqs])

theorem fourierSumFloat_ok {p q : ℕ} (E : FloatFourier p q) (hp : 1 ≤ p) (hq : 1 ≤ q) {interp : Interp} {pts : List (ℝ × ℝ)}
    (hN : 2 ≤ pts.length) {f y : ℝ → ℝ} (hf : interp pts = .ok f)
    (hy : ∀ j < pts.length, f ((E.grid pts.length).getD j 0) = y (gridAngle pts.length j)) {M : ℕ} {ω η : ℝ} (hω : 0 ≤ ω) (hη : 0 ≤ η)
    (hE : Accurate E M pts.length ω η) {m : ℤ} (hm1 : -(M : ℤ) ≤ m) (hm2 : m ≤ M) :
    ∃ z, fourierSumFloat E interp pts m = .ok z ∧ IsFloat q z.re ∧ IsFloat q z.im ∧
      ‖z - dft pts.length y m‖ ≤ fourierError p q pts.length ω η * gridMean pts.length (fun x => |y x|) := by
  set N := pts.length with hNdef
  have hN0 : (0 : ℝ) < N := by exact_mod_cast (by omega : 0 < N)
  have hlen := hE.len
  set w := E.weight ((E.grid N).getD 1 0) ((E.grid N).getD 0 0) with hw
  let t : ℕ → ℂ := fun j => E.work.rndC ((E.work.rnd (w * f ((E.grid N).getD j 0)) : ℂ) * E.expm m ((E.grid N).getD j 0))
  have hget : ∀ j < N, pyGet (E.grid N) j = .ok ((E.grid N).getD j 0) := by
    intro j hj
    rw [pyGet_natCast (by omega), List.getD_eq_getElem?_getD, List.getElem?_eq_getElem (by omega)]
    rfl
  have hgety : ∀ j < N, pyGet ((E.grid N).map f) j = .ok (f ((E.grid N).getD j 0)) := by
    intro j hj
    rw [pyGet_natCast (by simp; omega), List.getElem_map, List.getD_eq_getElem?_getD, List.getElem?_eq_getElem (by omega)]
    rfl
  have hsum : fourierSumFloat E interp pts m =
      .ok (E.store.rndC (((List.range N).map t).foldl (fun s t => E.work.rndC (s + t)) 0)) := by
    unfold fourierSumFloat
    rw [hf, ok_bind]
    dsimp only
    rw [← hNdef]
    have g1 := hget 1 (by omega)
    have g0 := hget 0 (by omega)
    rw [Nat.cast_one] at g1
    rw [Nat.cast_zero] at g0
    rw [g1, ok_bind, g0, ok_bind, hlen]
    rw [mapM_ok (g := t) (fun j hj => by
      have hj' := List.mem_range.1 hj
      rw [hgety j hj', ok_bind, hget j hj', ok_bind]
      rfl)]
    rfl
  refine ⟨_, hsum, E.store.float _, E.store.float _, ?_⟩
  -- the exact terms and their sizes
  let τ : ℕ → ℂ := fun j => (1 / (N : ℂ)) * ((y (gridAngle N j) : ℂ) * Complex.exp (-(Complex.I * (m * gridAngle N j))))
  let B : ℕ → ℝ := fun j => |y (gridAngle N j)| / N
  have hexp : ∀ j, ‖Complex.exp (-(Complex.I * (m * gridAngle N j)))‖ = 1 := by
    intro j
    rw [Complex.norm_exp]
    simp
  have hB : ∀ j ∈ List.range N, ‖τ j‖ ≤ B j := by
    intro j _
    simp only [τ, B, norm_mul, norm_div, norm_one, Complex.norm_natCast, hexp, Complex.norm_real, Real.norm_eq_abs, mul_one]
    rw [one_div, inv_mul_eq_div]
  have hu : (0 : ℝ) ≤ 2⁻¹ ^ p := by positivity
  have hc1 : 1 ≤ (1 + 2⁻¹ ^ p) ^ 2 * (1 + ω) * (1 + η) := by
    have := one_le_pow₀ (n := 2) (by linarith : (1 : ℝ) ≤ 1 + 2⁻¹ ^ p)
    nlinarith [mul_nonneg hω hη]
  have ht : ∀ j ∈ List.range N, ‖t j - τ j‖ ≤ ((1 + 2⁻¹ ^ p) ^ 2 * (1 + ω) * (1 + η) - 1) * B j := by
    intro j hj
    have hj' := List.mem_range.1 hj
    have hyj := hy j hj'
    have hBj : 0 ≤ B j := (norm_nonneg _).trans (hB j hj)
    -- the product of factor and value
    have h1 : |w * y (gridAngle N j) - y (gridAngle N j) / N| ≤ ω * B j := by
      have := hE.weight
      rw [← hw] at this
      have e : w * y (gridAngle N j) - y (gridAngle N j) / N = (w * N - 1) * (y (gridAngle N j) / N) := by field_simp
      rw [e, abs_mul, abs_div, abs_of_pos hN0]
      exact mul_le_mul_of_nonneg_right this hBj
    have h2 : |E.work.rnd (w * y (gridAngle N j)) - y (gridAngle N j) / N| ≤ ((1 + 2⁻¹ ^ p) * (1 + ω) - 1) * B j := by
      have r := E.work.rnd_rel hp (w * y (gridAngle N j))
      have hwy : |w * y (gridAngle N j)| ≤ (1 + ω) * B j := by
        have : |w * y (gridAngle N j)| ≤ |w * y (gridAngle N j) - y (gridAngle N j) / N| + |y (gridAngle N j) / N| := by
          simpa using abs_add_le (w * y (gridAngle N j) - y (gridAngle N j) / N) (y (gridAngle N j) / N)
        have hb : |y (gridAngle N j) / N| = B j := by rw [abs_div, abs_of_pos hN0]
        rw [hb] at this
        linarith
      have := abs_sub_le (E.work.rnd (w * y (gridAngle N j))) (w * y (gridAngle N j)) (y (gridAngle N j) / N)
      have := mul_le_mul_of_nonneg_left hwy hu
      nlinarith
    set a := E.work.rnd (w * y (gridAngle N j)) with ha
    have ha' : |a| ≤ (1 + 2⁻¹ ^ p) * (1 + ω) * B j := by
      have : |a| ≤ |a - y (gridAngle N j) / N| + |y (gridAngle N j) / N| := by
        simpa using abs_add_le (a - y (gridAngle N j) / N) (y (gridAngle N j) / N)
      have hb : |y (gridAngle N j) / N| = B j := by rw [abs_div, abs_of_pos hN0]
      rw [hb] at this
      linarith
    have h3 : ‖(a : ℂ) * E.expm m ((E.grid N).getD j 0) - τ j‖ ≤ ((1 + 2⁻¹ ^ p) * (1 + ω) * (1 + η) - 1) * B j := by
      have e : (a : ℂ) * E.expm m ((E.grid N).getD j 0) - τ j =
          (a : ℂ) * (E.expm m ((E.grid N).getD j 0) - Complex.exp (-(Complex.I * (m * gridAngle N j)))) +
          ((a - y (gridAngle N j) / N : ℝ) : ℂ) * Complex.exp (-(Complex.I * (m * gridAngle N j))) := by
        simp only [τ]
        push_cast
        ring
      rw [e]
      refine (norm_add_le _ _).trans ?_
      rw [norm_mul, norm_mul, hexp, mul_one, Complex.norm_real, Complex.norm_real, Real.norm_eq_abs, Real.norm_eq_abs]
      have h4 := mul_le_mul ha' (hE.exp m hm1 hm2 j hj') (norm_nonneg _) ((abs_nonneg _).trans ha')
      nlinarith
    have h5 := rndC_step E.work hp (hB j hj) h3
    have e : t j = E.work.rndC ((a : ℂ) * E.expm m ((E.grid N).getD j 0)) := by
      simp only [t, ha, hyj]
    rw [e]
    refine h5.trans (le_of_eq ?_)
    ring
  have hfold := foldl_rnd E.work hp (List.range N) t τ B hc1 hB ht (s := 0) (σ := 0) (S := 0) (by simp) (by simp)
  have hdft : (0 : ℂ) + ((List.range N).map τ).sum = dft N y m := by
    rw [zero_add]
    unfold dft
    rw [Finset.mul_sum, ← List.sum_toFinset _ List.nodup_range, List.toFinset_range]
  have hmean : (0 : ℝ) + ((List.range N).map B).sum = gridMean N (fun x => |y x|) := by
    rw [zero_add]
    unfold gridMean
    rw [Finset.sum_div, ← List.sum_toFinset _ List.nodup_range, List.toFinset_range]
  rw [hdft, hmean, List.length_range] at hfold
  have hle : ‖dft N y m‖ ≤ gridMean N (fun x => |y x|) := by
    rw [← hdft, ← hmean, zero_add, zero_add]
    have : ∀ l : List ℕ, (∀ j ∈ l, ‖τ j‖ ≤ B j) → ‖(l.map τ).sum‖ ≤ (l.map B).sum := by
      intro l
      induction l with
      | nil => intro _; simp
      | cons j l ih =>
        intro h
        simp only [List.map_cons, List.sum_cons]
        exact (norm_add_le _ _).trans (add_le_add (h j (by simp)) (ih (fun i hi => h i (by simp [hi]))))
    exact this _ hB
  have hfin := rndC_step E.store hq hle hfold
  refine hfin.trans (le_of_eq ?_)
  unfold fourierError
  ring

theorem IsFloat.rational {p : ℕ} {x : ℝ} (h : IsFloat p x) : ∃ a : ℚ, x = a := by
  obtain ⟨m, e, _, rfl⟩ := h
  exact ⟨m * 2 ^ e, by push_cast; rfl⟩

/-- C98.  In floating point arithmetic `dat_to_fdat` succeeds whenever there are two points or more per combination, and every component
that it stores differs from the discrete Fourier transform of the interpolated values by at most
`(1 + 2^-q) (1 + 2^-p)^(N + 2) (1 + ω) (1 + η) - 1` times the mean of the absolute interpolated values. -/
theorem C98_accuracy {p q : ℕ} (E : FloatFourier p q) (hp : 1 ≤ p) (hq : 1 ≤ q) {interp : Interp} {dat : DataContainer ℝ}
    (hd : dat.Reachable) {y : Key → ℝ → ℝ} (hy : Interpolates E interp dat y) (M : ℕ) {ω η : ℝ} (hω : 0 ≤ ω) (hη : 0 ≤ η)
    (hE : ∀ k pts, dat.getPc k sRadians = .ok pts → Accurate E M pts.length ω η) :
    ∃ c, datToFdatFloat E interp dat M = .ok c ∧ c.Reachable ∧ c.getKeys = dat.getKeys ∧ c.getM = M ∧
      ∀ k pts, dat.getPc k sRadians = .ok pts → ∀ m : ℤ, -(M : ℤ) ≤ m → m ≤ M →
        ∃ z, DRepresents c k m z ∧ IsFloat q z.re ∧ IsFloat q z.im ∧
          ‖z - dft pts.length (y k) m‖ ≤ fourierError p q pts.length ω η * gridMean pts.length (fun x => |y k x|) := by
  have hwf := (reachable_normalForm hd).1
  let g : List (ℝ × ℝ) → ℤ → ℂ := fun pts m => match fourierSumFloat E interp pts m with | .ok z => z | .error _ => 0
  have hcomp : ∀ k pts, dat.getPc k sRadians = .ok pts → ∀ m : ℤ, -(M : ℤ) ≤ m → m ≤ M →
      fourierSumFloat E interp pts m = .ok (g pts m) ∧ IsFloat q (g pts m).re ∧ IsFloat q (g pts m).im ∧
      ‖g pts m - dft pts.length (y k) m‖ ≤ fourierError p q pts.length ω η * gridMean pts.length (fun x => |y k x|) := by
    intro k pts hk m hm1 hm2
    obtain ⟨hN, f, hf, hyy⟩ := hy k pts hk
    obtain ⟨z, h1, h2, h3, h4⟩ := fourierSumFloat_ok E hp hq hN hf hyy hω hη (hE k pts hk) hm1 hm2
    have : g pts m = z := by simp only [g, h1]
    rw [this]
    exact ⟨h1, h2, h3, h4⟩
  have hg : ∀ it ∈ dat.data, ∀ m ∈ freqs M, fourierSumFloat E interp it.2 m = .ok (g it.2 m) := by
    rintro ⟨k, pts⟩ hit m hm
    have := mem_freqs.1 hm
    exact (hcomp k pts (get_of_mem hwf hit) m (by omega) (by omega)).1
  have hok := datToFdatWith_ok hwf hg
  have hinit := FDataContainer.init_items (d := dat.data.mapVals (fun pts => (freqs M).map (g pts))) (M := M)
    .complex64 (Or.inl rfl) (by simpa [Dict.WF] using hwf) (by
      rintro ⟨k, v⟩ hit
      obtain ⟨a, _, rfl⟩ := Dict.mem_mapVals.1 hit
      simp [length_freqs])
  refine ⟨_, hok, ⟨_, _, _, [], hinit, rfl⟩, by simp [FDataContainer.getKeys, DataContainer.getKeys], rfl, ?_⟩
  intro k pts hk m hm1 hm2
  obtain ⟨_, h2, h3, h4⟩ := hcomp k pts hk m hm1 hm2
  refine ⟨g pts m, ⟨(freqs M).map (g pts), ?_, ?_⟩, h2, h3, h4⟩
  · show Dict.get _ k = _
    rw [getPc_radians, Dict.get_ok_iff] at hk
    rw [Dict.get_ok_iff, Dict.get?_mapVals, hk]
    rfl
  · refine ⟨⟨hm1, hm2⟩, ?_⟩
    show ((freqs M).map (g pts))[(m + M).toNat]? = _
    rw [List.getElem?_map, getElem?_freqs (by omega)]
    have hmm : (((m + M).toNat : ℕ) : ℤ) - M = m := by omega
    rw [hmm, Option.map_some]

/-- C98 in numbers: with `float64` for the computation, `complex64` for the result, at most 2^20 points, a factor that is accurate to
`2^-50` and exponentials that are accurate to `2^-40`, the error is below `2^-23` of the mean of the absolute values. -/
theorem C98_single {N : ℕ} (hN : N ≤ 2 ^ 20) {ω η : ℝ} (hω : ω ≤ 2⁻¹ ^ 50) (hη : η ≤ 2⁻¹ ^ 40) (hω0 : 0 ≤ ω) (hη0 : 0 ≤ η) :
    fourierError 53 24 N ω η ≤ 2⁻¹ ^ 23 := by
  unfold fourierError
  have hpow : (1 + 2⁻¹ ^ 53 : ℝ) ^ (N + 2) ≤ 1 + 2⁻¹ ^ 30 := by
    have h1 : (1 + 2⁻¹ ^ 53 : ℝ) ^ (N + 2) ≤ (1 + 2⁻¹ ^ 53) ^ (2 ^ 21) :=
      pow_le_pow_right₀ (by norm_num) (by omega)
    refine h1.trans ?_
    have key : ∀ n : ℕ, n ≤ 2 ^ 21 → (1 + 2⁻¹ ^ 53 : ℝ) ^ n ≤ 1 + n * 2⁻¹ ^ 52 := by
      intro n
      induction n with
      | zero => intro _; norm_num
      | succ n ih =>
        intro hn
        have h := ih (by omega)
        have hn' : (n : ℝ) ≤ 2 ^ 21 := by exact_mod_cast (by omega : n ≤ 2 ^ 21)
        have hn0 : (0 : ℝ) ≤ n := Nat.cast_nonneg n
        rw [pow_succ]
        have := mul_le_mul_of_nonneg_right h (by norm_num : (0 : ℝ) ≤ 1 + 2⁻¹ ^ 53)
        refine this.trans ?_
        push_cast
        have e : (2⁻¹ : ℝ) ^ 52 = 2 * 2⁻¹ ^ 53 := by norm_num
        have e' : (n : ℝ) * 2⁻¹ ^ 53 ≤ 1 / 2 := by
          refine (mul_le_mul_of_nonneg_right hn' (by positivity)).trans ?_
          norm_num
        have e0 : (0 : ℝ) < 2⁻¹ ^ 53 := by positivity
        rw [e]
        generalize (2⁻¹ : ℝ) ^ 53 = ε at *
        nlinarith
    refine (key (2 ^ 21) le_rfl).trans ?_
    norm_num
  have h1 : (1 + 2⁻¹ ^ 24 : ℝ) * (1 + 2⁻¹ ^ 53) ^ (N + 2) ≤ (1 + 2⁻¹ ^ 24) * (1 + 2⁻¹ ^ 30) :=
    mul_le_mul_of_nonneg_left hpow (by norm_num)
  have h2 : (1 + 2⁻¹ ^ 24 : ℝ) * (1 + 2⁻¹ ^ 53) ^ (N + 2) * (1 + ω) ≤ (1 + 2⁻¹ ^ 24) * (1 + 2⁻¹ ^ 30) * (1 + 2⁻¹ ^ 50) :=
    mul_le_mul h1 (by linarith) (by linarith) (by norm_num)
  have h3 := mul_le_mul h2 (by linarith : 1 + η ≤ 1 + 2⁻¹ ^ 40) (by linarith) (by norm_num)
  refine (sub_le_sub_right h3 1).trans ?_
  norm_num

section
variable (S : Sympy) (C : Compiler) {fform : FFormContainer} {F : Key → ℤ → Valuation → ℂ} {interp : Interp} {dat : DataContainer ℝ}

/-- The Fourier data that `dat_to_fdat` computes, and the bound of their errors. -/
theorem floatData {p q : ℕ} (E : FloatFourier p q) (hp : 1 ≤ p) (hq : 1 ≤ q) (hd : dat.Reachable)
    (hk : ∀ k ∈ fform.getKeys, k ∈ dat.getKeys) {y : Key → ℝ → ℝ} (hy : Interpolates E interp dat y)
    {N : ℕ} (hlen : ∀ k pts, dat.getPc k sRadians = .ok pts → pts.length = N)
    {ω η b : ℝ} (hω : 0 ≤ ω) (hη : 0 ≤ η) (hE : Accurate E fform.getM N ω η)
    (hb : ∀ k ∈ fform.getKeys, gridMean N (fun x => |y k x|) ≤ b) :
    ∃ fdat D, datToFdatFloat E interp dat fform.getM = .ok fdat ∧ fdat.getM = fform.getM ∧ DataIs fform fdat D ∧
      0 ≤ fourierError p q N ω η ∧ ∀ k ∈ fform.getKeys, ∀ m : ℤ, -(fform.getM : ℤ) ≤ m → m ≤ fform.getM →
        ‖D k m - dft N (y k) m‖ ≤ fourierError p q N ω η * b := by
  have hwf := (reachable_normalForm hd).1
  obtain ⟨fdat, h1, _, _, h2, h3⟩ := C98_accuracy E hp hq hd hy fform.getM hω hη (fun k pts h => by rw [hlen k pts h]; exact hE)
  have hpts : ∀ k ∈ fform.getKeys, ∃ pts, dat.getPc k sRadians = .ok pts := by
    intro k hkk
    obtain ⟨pts, hp⟩ := Dict.mem_keys.1 (hk k hkk)
    exact ⟨pts, get_of_mem hwf hp⟩
  classical
  let D : Key → ℤ → ℂ := fun k m => if h : ∃ z, DRepresents fdat k m z then h.choose else 0
  have hDof : ∀ k m z, DRepresents fdat k m z → D k m = z := by
    intro k m z hz
    have hex : ∃ z, DRepresents fdat k m z := ⟨z, hz⟩
    have : D k m = hex.choose := dif_pos hex
    rw [this]
    obtain ⟨v, e1, e2⟩ := hex.choose_spec
    obtain ⟨v', e3, e4⟩ := hz
    rw [e1] at e3; cases e3
    exact Option.some.inj (e2.2.symm.trans e4.2)
  have herr0 : 0 ≤ fourierError p q N ω η := by
    unfold fourierError
    have u1 : (0 : ℝ) ≤ 2⁻¹ ^ q := by positivity
    have u2 : (0 : ℝ) ≤ 2⁻¹ ^ p := by positivity
    have a1 : (1 : ℝ) ≤ 1 + 2⁻¹ ^ q := by linarith
    have a2 : (1 : ℝ) ≤ (1 + 2⁻¹ ^ p) ^ (N + 2) := one_le_pow₀ (by linarith)
    have a3 := one_le_mul_of_one_le_of_one_le a1 a2
    have a4 := one_le_mul_of_one_le_of_one_le a3 (by linarith : 1 ≤ 1 + ω)
    have a5 := one_le_mul_of_one_le_of_one_le a4 (by linarith : 1 ≤ 1 + η)
    linarith
  have hD : DataIs fform fdat D := by
    intro k hkk m hm1 hm2
    obtain ⟨pts, hp⟩ := hpts k hkk
    obtain ⟨z, e1, e2, e3, _⟩ := h3 k pts hp m hm1 hm2
    rw [hDof k m z e1]
    refine ⟨e1, ?_⟩
    obtain ⟨a, ha⟩ := e2.rational
    obtain ⟨a', ha'⟩ := e3.rational
    refine ⟨a, a', ?_⟩
    apply Complex.ext <;> simp [ha, ha']
  have hclose : ∀ k ∈ fform.getKeys, ∀ m : ℤ, -(fform.getM : ℤ) ≤ m → m ≤ fform.getM →
      ‖D k m - dft N (y k) m‖ ≤ fourierError p q N ω η * b := by
    intro k hkk m hm1 hm2
    obtain ⟨pts, hp⟩ := hpts k hkk
    obtain ⟨z, e1, _, _, e4⟩ := h3 k pts hp m hm1 hm2
    rw [hlen k pts hp] at e4
    rw [hDof k m z e1]
    exact e4.trans (mul_le_mul_of_nonneg_left (hb k hkk) herr0)
  exact ⟨fdat, D, h1, h2, hD, herr0, hclose⟩

/-- C98.  Fits to Fourier data that `dat_to_fdat` has computed and stored in floating point arithmetic: the root of the cost differs from
the root of the exact sum of squares (less a constant `R`) by at most the error of `C98_accuracy` times `√(n (2M + 1))`, for `n`
combinations whose mean absolute values are at most `b`.  Nothing is assumed of the components. -/
theorem C98_fit {p q : ℕ} (E : FloatFourier p q) (hp : 1 ≤ p) (hq : 1 ≤ q) (d : Disk) (hd : dat.Reachable) (hc : fform.Reachable S)
    (hF : FormulaIs fform F) (hk : ∀ k ∈ fform.getKeys, k ∈ dat.getKeys) {y : Key → ℝ → ℝ} (hy : Interpolates E interp dat y)
    {N : ℕ} (hlen : ∀ k pts, dat.getPc k sRadians = .ok pts → pts.length = N) (hN : 2 * fform.getM < N)
    {ω η b : ℝ} (hω : 0 ≤ ω) (hη : 0 ≤ η) (hE : Accurate E fform.getM N ω η)
    (hb : ∀ k ∈ fform.getKeys, gridMean N (fun x => |y k x|) ≤ b)
    {arguments : Option (List Sym)} {l : List Sym} (hl : ArgumentOrder S fform arguments l)
    (chunk : Bool) (hne : chunk = true → fform.getKeys ≠ []) (save : Option Key) :
    ∃ fdat cost d' R, datToFdatFloat E interp dat fform.getM = .ok fdat ∧
      genCostFunc S C d fform fdat arguments chunk save = .ok (cost, d') ∧ 0 ≤ R ∧
      ∀ r, R ≤ squares fform.getKeys fform.getM F (fun _ => N) y r ∧
        |√(cost (l.map r)) - √(squares fform.getKeys fform.getM F (fun _ => N) y r - R)| ≤
          fourierError p q N ω η * b * √(fform.getKeys.length * (2 * fform.getM + 1)) := by
  obtain ⟨fdat, D, h1, h2, hD, herr0, hclose⟩ := floatData E hp hq hd hk hy hlen hω hη hE hb
  obtain ⟨cost, d', g1, g2⟩ := C57_cost S C d hc hl h2 hF hD chunk hne save
  obtain ⟨R, hR, hsq⟩ := squares_misfit fform.getKeys fform.getM F (N := fun _ => N) y (fun _ _ => hN)
  refine ⟨fdat, cost, d', R, h1, g1, hR, fun r => ⟨?_, ?_⟩⟩
  · rw [hsq]
    have := (C57_zero_iff fform.getKeys fform.getM F (fun k m => dft N (y k) m) r).1
    linarith
  · rw [hsq, add_sub_cancel_right, g2]
    by_cases hkeys : fform.getKeys = []
    · rw [hkeys]; simp [misfit]
    · obtain ⟨k, hkk⟩ := List.exists_mem_of_ne_nil _ hkeys
      have hb0 : 0 ≤ b := by
        refine le_trans ?_ (hb k hkk)
        unfold gridMean
        positivity
      exact sqrt_misfit fform.getKeys fform.getM F (mul_nonneg herr0 hb0) hclose r

end

/-- Without rounding it is the transform of the other models. -/
theorem datToFdatWith_exact (interp : Interp) (dat : DataContainer ℝ) (M : ℕ) :
    datToFdatWith (fourierSum interp) dat M = datToFdat interp dat M := rfl

/-- Arithmetic with 53 and 24 digits, and exact functions. -/
noncomputable def doubleSingle : FloatFourier 53 24 where
  work := nearestArith 53 (by decide)
  store := nearestArith 24 (by decide)
  grid := linspace2pi
  weight := fun x1 x0 => 1 / 2 / Real.pi * (x1 - x0)
  expm := fun m x => Complex.exp (-1 * Complex.I * m * x)

theorem doubleSingle_grid {N j : ℕ} (h : j < N) : (doubleSingle.grid N).getD j 0 = gridAngle N j := by
  show (linspace2pi N).getD j 0 = _
  unfold linspace2pi gridAngle
  rw [List.getD_eq_getElem?_getD, List.getElem?_map, List.getElem?_range h]
  simp
  ring

theorem doubleSingle_accurate {M N : ℕ} (hN : 2 ≤ N) : Accurate doubleSingle M N 0 0 := by
  have hpi := Real.pi_pos
  have hN0 : (0 : ℝ) < N := by exact_mod_cast (by omega : 0 < N)
  refine ⟨by simp [doubleSingle, linspace2pi], ?_, ?_⟩
  · rw [doubleSingle_grid (by omega), doubleSingle_grid (by omega)]
    simp only [doubleSingle, gridAngle]
    have : 1 / 2 / Real.pi * (2 * Real.pi * ((1 : ℕ) : ℝ) / N - 2 * Real.pi * ((0 : ℕ) : ℝ) / N) * N - 1 = 0 := by
      push_cast
      field_simp
      ring
    rw [abs_nonpos_iff]
    convert this using 2
  · intro m _ _ j hj
    rw [doubleSingle_grid hj]
    simp only [doubleSingle]
    rw [norm_le_zero_iff, sub_eq_zero]
    congr 1
    ring

/-- The hypotheses of C98 are met: four points, the formula `b, a, b` with three components. -/
example (d : Disk) : ∃ fdat cost d' R, datToFdatFloat doubleSingle pulseInterp pulse FitCases.formula.getM = .ok fdat ∧
    genCostFunc Sympy.plain FitCases.compiler d FitCases.formula fdat none false none = .ok (cost, d') ∧ 0 ≤ R ∧
    ∀ r, R ≤ squares FitCases.formula.getKeys 1 FitCases.F (fun _ => 4) (fun _ x => if x = 0 then 1 else 0) r ∧
      |√(cost ([FitCases.symA, FitCases.symB].map r)) -
        √(squares FitCases.formula.getKeys 1 FitCases.F (fun _ => 4) (fun _ x => if x = 0 then 1 else 0) r - R)| ≤
          fourierError 53 24 4 0 0 * (1 / 4) * √(FitCases.formula.getKeys.length * (2 * (1 : ℕ) + 1)) := by
  refine C98_fit Sympy.plain FitCases.compiler doubleSingle (by decide) (by decide) d pulse_reachable FitCases.formula_reachable
    FitCases.formulaIs (interp := pulseInterp) (y := fun _ x => if x = 0 then 1 else 0) (N := 4) ?_ ?_ ?_ (by decide) le_rfl le_rfl
    (doubleSingle_accurate (by decide)) ?_ (Or.inr ⟨rfl, FitCases.free_symbols⟩) false (by simp) none
  · intro k hk
    have : k = kPP := by simpa [FitCases.formula, FFormContainer.getKeys, Dict.keys] using hk
    rw [this]; simp [pulse, DataContainer.getKeys, Dict.keys]
  · intro k pts hk
    obtain ⟨h1, h2, h3⟩ := pulse_interp k pts hk
    refine ⟨h1, _, h2, fun j hj => ?_⟩
    rw [doubleSingle_grid hj]
  · intro k pts hk
    exact (pulse_interp k pts hk).2.2
  · intro k _
    refine le_of_eq ?_
    have h := dft_pulse 0
    rw [dft_zero] at h
    have e : (fun x : ℝ => |if x = 0 then (1 : ℝ) else 0|) = fun x => if x = 0 then 1 else 0 := by
      funext x; split <;> simp
    rw [e]
    exact Complex.ofReal_injective (h.trans (by push_cast; rfl))

end Shgpy
