import Verif.Spec.FloatSynth
import Verif.Props.FloatFourier
import Verif.Props.FloatAngle
import Verif.Props.FitCurve

/-!
# `fdat_to_dat` in floating point arithmetic (C120)
-/

namespace Shgpy
open Spec

/-! ## The constructor -/

theorem dedupWith_id {mod : ℝ → ℝ} {pts : List (ℝ × ℝ)} (hm : ∀ q ∈ pts, mod q.1 = q.1) :
    ∀ kept : List (ℝ × ℝ), ((kept ++ pts).map Prod.fst).Nodup → dedupWith mod kept pts = kept ++ pts := by
  induction pts with
  | nil => intro kept _; simp [dedupWith]
  | cons a r ih =>
    intro kept h
    unfold dedupWith
    rw [hm a (by simp), if_neg]
    · rw [ih (fun q hq => hm q (by simp [hq])) _ (by simpa using h)]
      simp
    · intro hmem
      rw [List.map_append, List.nodup_append] at h
      exact h.2.2 _ hmem a.1 (by simp) rfl

/-- An array whose angles are increasing and not changed by the remainder is kept. -/
theorem arrayWith_id {mod : ℝ → ℝ} {pts : List (ℝ × ℝ)} (hne : pts ≠ []) (hm : ∀ q ∈ pts, mod q.1 = q.1)
    (hs : (pts.map Prod.fst).Pairwise (· < ·)) : arrayWith mod pts = .ok pts := by
  have hd : dedupWith mod [] pts = pts := by
    have := dedupWith_id hm [] (by rw [List.nil_append]; exact hs.imp (fun h => ne_of_lt h))
    simpa using this
  unfold arrayWith
  rw [hd, if_neg hne]
  have hmap : pts.map (fun q => (mod q.1, q.2)) = pts := by
    conv_rhs => rw [← List.map_id pts]
    refine List.map_congr_left (fun q hq => ?_)
    rw [hm q hq]
    rfl
  rw [hmap, sortPts_of_sorted]
  exact (List.pairwise_map.1 hs).imp (fun h => le_of_lt h)

/-! ## The sum -/

theorem invFourierWith_ok (grid : List ℝ) (add mul : ℂ → ℂ → ℂ) (trig : ℤ → ℝ → ℂ) {M : ℕ} {v : List ℂ} (hv : v.length = 2 * M + 1) :
    invFourierWith grid add mul trig M v = .ok (grid.map (fun x =>
      (x, (((freqs M).map (fun m : ℤ => mul (v.getD (m + (M : ℤ)).toNat 0) (trig m x))).foldl add 0).re))) := by
  have key : ∀ (ms : List ℤ), (∀ m ∈ ms, m ∈ freqs M) → ∀ g : ℝ → ℂ,
      ms.foldlM (fun ydata m => (do
        let z ← pyGet v (n2i m M)
        return List.zipWith add ydata (grid.map (fun x => mul z (trig m x))) : Except Err (List ℂ))) (grid.map g) =
      .ok (grid.map (fun x => (ms.map (fun m : ℤ => mul (v.getD (m + (M : ℤ)).toNat 0) (trig m x))).foldl add (g x))) := by
    intro ms
    induction ms with
    | nil => intro _ g; simp; rfl
    | cons m ms ih =>
      intro hms g
      obtain ⟨z, h1, h2⟩ := pyGet_n2i_ok hv (hms m List.mem_cons_self)
      rw [List.foldlM_cons, h1]
      have hz : v.getD (m + (M : ℤ)).toNat 0 = z := by rw [List.getD_eq_getElem?_getD, h2]; rfl
      show List.foldlM _ (List.zipWith add (grid.map g) (grid.map (fun x => mul z (trig m x)))) ms = _
      have hzip : List.zipWith add (grid.map g) (grid.map (fun x => mul z (trig m x))) =
          grid.map (fun x => add (g x) (mul z (trig m x))) := by
        rw [List.zipWith_map, List.zipWith_self]
      rw [hzip, ih (fun m' h => hms m' (List.mem_cons_of_mem _ h))]
      simp only [List.map_cons, List.foldl_cons, hz]
  unfold invFourierWith
  have h0 : List.replicate grid.length (0 : ℂ) = grid.map (fun _ => 0) := by rw [List.map_const']
  rw [h0, key (freqs M) (fun _ h => h), ok_bind, List.map_map]
  show Except.ok _ = _
  congr 1
  generalize hf : (fun x : ℝ => ((freqs M).map (fun m : ℤ => mul (v.getD (m + (M : ℤ)).toNat 0) (trig m x))).foldl add 0) = f
  have : ∀ l : List ℝ, l.zip (l.map (Complex.re ∘ f)) = l.map (fun x => (x, (f x).re)) := by
    intro l
    induction l with
    | nil => rfl
    | cons a r ih => simp only [List.map_cons, List.zip_cons_cons, ih]; rfl
  rw [this, ← hf]

theorem fdatToDatWith_ok {grid : List ℝ} (add mul : ℂ → ℂ → ℂ) (trig : ℤ → ℝ → ℂ) {mod : ℝ → ℝ} {c : FDataContainer} (hg : c.Good)
    (hne : grid ≠ []) (hm : ∀ x ∈ grid, mod x = x) (hs : grid.Pairwise (· < ·)) :
    fdatToDatWith grid add mul trig mod c = .ok ⟨c.fdata.mapVals (fun v => grid.map (fun x =>
      (x, (((freqs c.M).map (fun m : ℤ => mul (v.getD (m + (c.M : ℤ)).toNat 0) (trig m x))).foldl add 0).re))),
      1, 0, some 0, false, sRadians⟩ := by
  unfold fdatToDatWith FDataContainer.getItems FDataContainer.getM
  rw [foldlM_set_items (invFourierWith grid add mul trig c.M) (fun v => grid.map (fun x =>
      (x, (((freqs c.M).map (fun m : ℤ => mul (v.getD (m + (c.M : ℤ)).toNat 0) (trig m x))).foldl add 0).re))) c.fdata [] (by simpa [Dict.WF] using hg.wf)
    (fun it hit => invFourierWith_ok grid add mul trig (hg.len it hit))]
  rw [ok_bind, List.nil_append, Dict.mapValsM_of_forall (g := fun v => v)]
  · rw [ok_bind, Dict.mapVals_id]
    rfl
  · rintro ⟨k, v⟩ hit
    obtain ⟨a, _, rfl⟩ := Dict.mem_mapVals.1 hit
    refine arrayWith_id (by simpa using hne) ?_ ?_
    · intro q hq
      obtain ⟨x, hx, rfl⟩ := List.mem_map.1 hq
      exact hm x hx
    · rw [List.map_map]
      simpa [Function.comp_def] using hs

/-- C120.  With exact numbers this is the `fdat_to_dat` of the other properties. -/
theorem C120_exact {c : FDataContainer} (hc : c.Reachable) {n : ℕ} (hn : 1 ≤ n) :
    fdatToDatWith (linspace2pi n) (· + ·) (· * ·) (fun m x => (Real.cos (m * x) : ℂ) + Complex.I * (Real.sin (m * x) : ℂ)) pmod c =
      (fdatToDat c n).map Prod.fst := by
  have hg := hc.good
  have hne : linspace2pi n ≠ [] := by
    intro h
    have := congrArg List.length h
    simp [linspace2pi] at this
    omega
  rw [fdatToDatWith_ok _ _ _ hg hne, fdatToDat_ok hg hn]
  · show Except.ok _ = Except.ok _
    congr 2
    refine Dict.mapVals_congr (fun it hit => ?_)
    rw [linspace2pi_eq]
    unfold sampled
    rw [List.map_map]
    refine List.map_congr_left (fun j _ => ?_)
    simp only [Function.comp_apply]
    rw [← series_eq_sum, ← List.sum_eq_foldl]
    simp only [harmonic_eq]
  · intro x hx
    rw [linspace2pi_eq] at hx
    obtain ⟨j, hj, rfl⟩ := List.mem_map.1 hx
    exact pmod_of_inTurn (gridAngle_inTurn (List.mem_range.1 hj))
  · rw [linspace2pi_eq]
    exact gridAngle_sorted hn

/-! ## Rounding errors -/

theorem FloatArith.rndC_ofReal {p : ℕ} (A : FloatArith p) (x : ℝ) : A.rndC (x : ℂ) = (A.rnd x : ℂ) := by
  apply Complex.ext
  · simp [FloatArith.rndC]
  · simp [FloatArith.rndC, rnd_float A float_zero]

theorem foldl_re {p : ℕ} (A : FloatArith p) (l : List ℂ) : ∀ (s : ℂ),
    (((l.foldl (fun s t => A.rndC (s + t)) s).re : ℝ) : ℂ) =
      (l.map (fun t => (t.re : ℂ))).foldl (fun s t => A.rndC (s + t)) (s.re : ℂ) := by
  induction l with
  | nil => intro s; rfl
  | cons t l ih =>
    intro s
    rw [List.map_cons, List.foldl_cons, List.foldl_cons, ih, ← Complex.ofReal_add, A.rndC_ofReal]
    rfl

/-- C120.  Products of complex numbers, with rounded or with fused operations, are as accurate as `AccurateSynth` says. -/
theorem C120_products {p : ℕ} (A : FloatArith p) (hp : 1 ≤ p) (z w : ℂ) :
    |(A.mulC z w - z * w).re| ≤ ((1 + 2⁻¹ ^ p) ^ 2 - 1) * (‖z‖ * ‖w‖) ∧
    |(A.mulFused z w - z * w).re| ≤ ((1 + 2⁻¹ ^ p) ^ 2 - 1) * (‖z‖ * ‖w‖) := by
  set u : ℝ := 2⁻¹ ^ p with hu
  have hu0 : 0 ≤ u := by positivity
  set a := z.re * w.re
  set b := z.im * w.im
  have hcs : |a| + |b| ≤ ‖z‖ * ‖w‖ := by
    refine abs_le_of_sq_le_sq' ?_ (by positivity) |>.2
    rw [mul_pow, ← Complex.normSq_eq_norm_sq, ← Complex.normSq_eq_norm_sq, Complex.normSq_apply, Complex.normSq_apply]
    have e1 : |a| = |z.re| * |w.re| := abs_mul _ _
    have e2 : |b| = |z.im| * |w.im| := abs_mul _ _
    rw [e1, e2, ← abs_mul_abs_self z.re, ← abs_mul_abs_self z.im, ← abs_mul_abs_self w.re, ← abs_mul_abs_self w.im]
    nlinarith [sq_nonneg (|z.re| * |w.im| - |z.im| * |w.re|)]
  have ha := A.rnd_rel hp a
  have hb := A.rnd_rel hp b
  rw [← hu] at ha hb
  have hre : (z * w).re = a - b := by simp [a, b]
  have fin : ∀ x : ℝ, |x - (a - b)| ≤ u * (|a| + |b|) → |A.rnd x - (a - b)| ≤ ((1 + u) ^ 2 - 1) * (‖z‖ * ‖w‖) := by
    intro x hx
    have h1 := A.rnd_rel hp x
    rw [← hu] at h1
    have h2 : |x| ≤ (1 + u) * (|a| + |b|) := by
      have : |x| ≤ |x - (a - b)| + |a - b| := by simpa using abs_add_le (x - (a - b)) (a - b)
      have := abs_sub a b
      linarith
    have h3 := abs_sub_le (A.rnd x) x (a - b)
    have h4 := mul_le_mul_of_nonneg_left h2 hu0
    have h5 : |A.rnd x - (a - b)| ≤ ((1 + u) ^ 2 - 1) * (|a| + |b|) := by nlinarith
    exact h5.trans (mul_le_mul_of_nonneg_left hcs (by nlinarith))
  constructor
  · rw [Complex.sub_re, hre]
    refine fin _ ?_
    have e : A.rnd a - A.rnd b - (a - b) = (A.rnd a - a) - (A.rnd b - b) := by ring
    rw [e]
    refine (abs_sub _ _).trans ?_
    linarith
  · rw [Complex.sub_re, hre]
    refine fin _ ?_
    have e : z.re * w.re - A.rnd b - (a - b) = -(A.rnd b - b) := by simp only [a]; ring
    rw [e, abs_neg]
    nlinarith [abs_nonneg a]

/-- The sum of a Fourier array at one angle, rounded. -/
theorem synthesis_error {p : ℕ} (E : FloatSynth p) (hp : 1 ≤ p) {M n : ℕ} {η : ℝ} (hη : 0 ≤ η) (hE : AccurateSynth E M n η)
    (z : ℤ → ℂ) {j : ℕ} (hj : j < n) :
    |(((freqs M).map (fun m : ℤ => E.mul (z m) (E.trig m ((E.grid n).getD j 0)))).foldl (fun s t => E.work.rndC (s + t)) 0).re -
      (pattern M z (gridAngle n j)).re| ≤ synthesisError p M η * ∑ m ∈ Finset.Icc (-(M : ℤ)) M, ‖z m‖ := by
  set x := (E.grid n).getD j 0
  set θ := gridAngle n j
  have hu : (0 : ℝ) ≤ 2⁻¹ ^ p := by positivity
  let t : ℤ → ℂ := fun m => ((E.mul (z m) (E.trig m x)).re : ℂ)
  let τ : ℤ → ℂ := fun m => ((z m * harmonic m θ).re : ℂ)
  let B : ℤ → ℝ := fun m => ‖z m‖
  have hharm : ∀ m, ‖harmonic m θ‖ = 1 := by
    intro m
    unfold harmonic
    rw [Complex.norm_exp]
    simp
  have hc1 : 1 ≤ (1 + 2⁻¹ ^ p) ^ 2 * (1 + η) := by
    have := one_le_pow₀ (n := 2) (by linarith : (1 : ℝ) ≤ 1 + 2⁻¹ ^ p)
    nlinarith
  have hB : ∀ m ∈ freqs M, ‖τ m‖ ≤ B m := by
    intro m _
    simp only [τ, B, Complex.norm_real, Real.norm_eq_abs]
    refine (Complex.abs_re_le_norm _).trans ?_
    rw [norm_mul, hharm, mul_one]
  have ht : ∀ m ∈ freqs M, ‖t m - τ m‖ ≤ ((1 + 2⁻¹ ^ p) ^ 2 * (1 + η) - 1) * B m := by
    intro m hm
    have hm' := mem_freqs.1 hm
    have h1 := hE.trig m (by omega) (by omega) j hj
    set w := E.trig m x
    have h2 := hE.mul (z m) w
    have hw : ‖w‖ ≤ 1 + η := by
      have : ‖w‖ ≤ ‖w - harmonic m θ‖ + ‖harmonic m θ‖ := by simpa using norm_add_le (w - harmonic m θ) (harmonic m θ)
      rw [hharm] at this
      linarith
    have h3 : |(z m * w - z m * harmonic m θ).re| ≤ ‖z m‖ * η := by
      refine (Complex.abs_re_le_norm _).trans ?_
      rw [← mul_sub, norm_mul]
      exact mul_le_mul_of_nonneg_left h1 (norm_nonneg _)
    simp only [t, τ, B]
    rw [← Complex.ofReal_sub, Complex.norm_real, Real.norm_eq_abs, ← Complex.sub_re]
    have e : E.mul (z m) w - z m * harmonic m θ = (E.mul (z m) w - z m * w) + (z m * w - z m * harmonic m θ) := by ring
    rw [e, Complex.add_re]
    refine (abs_add_le _ _).trans ?_
    have hz := norm_nonneg (z m)
    have hk : (0 : ℝ) ≤ (1 + 2⁻¹ ^ p) ^ 2 - 1 := by nlinarith
    have h4 := mul_le_mul_of_nonneg_left (mul_le_mul_of_nonneg_left hw hz) hk
    nlinarith
  have hfold := foldl_rnd E.work hp (freqs M) t τ B hc1 hB ht (s := 0) (σ := 0) (S := 0) (by simp) (by simp)
  rw [length_freqs, zero_add, zero_add] at hfold
  have hsumB : ((freqs M).map B).sum = ∑ m ∈ Finset.Icc (-(M : ℤ)) M, ‖z m‖ := sum_freqs_Icc M B
  have hsumτ : ((freqs M).map τ).sum = (((pattern M z θ).re : ℝ) : ℂ) := by
    have := sum_freqs_Icc M (fun m => (z m * harmonic m θ).re)
    unfold pattern
    rw [Complex.re_sum, ← this]
    have hl : ∀ l : List ℤ, (l.map τ).sum = (((l.map (fun m => (z m * harmonic m θ).re)).sum : ℝ) : ℂ) := by
      intro l
      induction l with
      | nil => simp
      | cons m l ih => rw [List.map_cons, List.sum_cons, ih, List.map_cons, List.sum_cons, Complex.ofReal_add]
    exact hl _
  have hre := foldl_re E.work ((freqs M).map (fun m : ℤ => E.mul (z m) (E.trig m x))) 0
  rw [List.map_map] at hre
  have hre' : (((freqs M).map (fun m : ℤ => E.mul (z m) (E.trig m x))).foldl (fun s t => E.work.rndC (s + t)) 0).re =
      ((freqs M).map t).foldl (fun s t => E.work.rndC (s + t)) 0 := by
    rw [hre]
    rfl
  rw [← hre', hsumτ, hsumB, ← Complex.ofReal_sub, Complex.norm_real, Real.norm_eq_abs] at hfold
  refine hfold.trans (le_of_eq ?_)
  unfold synthesisError
  ring

theorem norm_dft_le (N : ℕ) (f : ℝ → ℝ) (m : ℤ) : ‖dft N f m‖ ≤ gridMean N (fun x => |f x|) := by
  unfold dft gridMean
  rw [norm_mul, norm_div, norm_one, Complex.norm_natCast, one_div, inv_mul_eq_div]
  refine div_le_div_of_nonneg_right ?_ (Nat.cast_nonneg N)
  refine (norm_sum_le _ _).trans (le_of_eq (Finset.sum_congr rfl (fun j _ => ?_)))
  rw [norm_mul, Complex.norm_real, Real.norm_eq_abs, Complex.norm_exp]
  simp

/-! ## C120 -/

/-- C120.  In floating point arithmetic `fdat_to_dat` succeeds for every Fourier data and every number of points; each combination has the
computed angles, and at the angle `j` a value that differs from the real part of `Σ_m z_m e^{i m 2π j / n}` by at most
`(1 + 2^-p)^(2M + 3) (1 + η) - 1` times the sum of the absolute values of the components. -/
theorem C120_accuracy {p : ℕ} (E : FloatSynth p) (hp : 1 ≤ p) {c : FDataContainer} (hc : c.Reachable) {n : ℕ} (hn : 1 ≤ n) {η : ℝ}
    (hη : 0 ≤ η) (hE : AccurateSynth E c.getM n η) :
    ∃ dat, fdatToDatFloat E c n = .ok dat ∧ dat.getKeys = c.getKeys ∧
      ∀ k ∈ c.getKeys, ∀ z : ℤ → ℂ, (∀ m : ℤ, -(c.getM : ℤ) ≤ m → m ≤ c.getM → DRepresents c k m (z m)) →
        ∃ pts, dat.getPc k sRadians = .ok pts ∧ pts.map Prod.fst = E.grid n ∧ ∀ (j : ℕ) x y, pts[j]? = some (x, y) →
          |y - (pattern c.getM z (gridAngle n j)).re| ≤
            synthesisError p c.getM η * ∑ m ∈ Finset.Icc (-(c.getM : ℤ)) c.getM, ‖z m‖ := by
  have hg := hc.good
  have hne : E.grid n ≠ [] := by
    intro h
    have := hE.len
    rw [h] at this
    simp at this
    omega
  have hmod : ∀ x ∈ E.grid n, npMod E.work x E.turn = x := by
    intro x hx
    obtain ⟨h0, h1⟩ := hE.turn x hx
    have ht : 0 < E.turn := lt_of_le_of_lt h0 h1
    rw [(npMod_nonneg E.work ht h0).1]
    have : ⌊x / E.turn⌋ = 0 := by
      rw [Int.floor_eq_zero_iff]
      exact ⟨div_nonneg h0 ht.le, (div_lt_one ht).2 h1⟩
    rw [this]
    simp
  refine ⟨_, fdatToDatWith_ok _ _ _ hg hne hmod hE.increasing, by simp [DataContainer.getKeys, FDataContainer.getKeys], ?_⟩
  intro k hk z hz
  obtain ⟨v, hv⟩ := Dict.mem_keys.1 hk
  have hget := (Dict.get?_eq_some_iff hg.wf).2 hv
  refine ⟨(E.grid n).map (fun x => (x, (((freqs c.M).map (fun m : ℤ => E.mul (v.getD (m + (c.M : ℤ)).toNat 0) (E.trig m x))).foldl
    (fun s t => E.work.rndC (s + t)) 0).re)), ?_, ?_, ?_⟩
  · rw [getPc_radians, Dict.get_ok_iff, Dict.get?_mapVals, hget]
    rfl
  · rw [List.map_map]
    simp [Function.comp_def]
  · intro j x y hj
    rw [List.getElem?_map] at hj
    have hjn : j < n := by
      by_contra h
      rw [List.getElem?_eq_none (by rw [hE.len]; omega)] at hj
      simp at hj
    have hgj : (E.grid n)[j]? = some ((E.grid n).getD j 0) := by
      rw [List.getD_eq_getElem?_getD, List.getElem?_eq_getElem (by rw [hE.len]; exact hjn)]
      rfl
    rw [hgj] at hj
    simp only [Option.map_some, Option.some.injEq, Prod.mk.injEq] at hj
    rw [← hj.2]
    have hcoef : ∀ m ∈ freqs c.M, v.getD (m + (c.M : ℤ)).toNat 0 = z m := by
      intro m hm
      have hm' := mem_freqs.1 hm
      obtain ⟨v', hv', _, h2⟩ := hz m (by show -(c.M : ℤ) ≤ m; omega) (by show m ≤ (c.M : ℤ); omega)
      have : v' = v := by
        have h := Dict.get_ok_iff.1 hv'
        rw [hget] at h
        exact (Option.some.inj h).symm
      rw [this] at h2
      rw [List.getD_eq_getElem?_getD]
      have h2' : v[(m + (c.M : ℤ)).toNat]? = some (z m) := h2
      rw [h2']
      rfl
    have hmap : (freqs c.M).map (fun m : ℤ => E.mul (v.getD (m + (c.M : ℤ)).toNat 0) (E.trig m ((E.grid n).getD j 0))) =
        (freqs c.M).map (fun m : ℤ => E.mul (z m) (E.trig m ((E.grid n).getD j 0))) :=
      List.map_congr_left (fun m hm => by rw [hcoef m hm])
    rw [hmap]
    exact synthesis_error E hp hη hE z hjn

/-- C120 in numbers: with `float64`, at most 100 frequencies and cosines and sines that are accurate to `2^-44`, the error is below
`2^-43` of the sum of the absolute values of the components. -/
theorem C120_double {M : ℕ} (hM : M ≤ 100) {η : ℝ} (hη : η ≤ 2⁻¹ ^ 44) (hη0 : 0 ≤ η) : synthesisError 53 M η ≤ 2⁻¹ ^ 43 := by
  unfold synthesisError
  have h1 : (1 + 2⁻¹ ^ 53 : ℝ) ^ (2 * M + 3) ≤ (1 + 2⁻¹ ^ 53) ^ 203 := pow_le_pow_right₀ (by norm_num) (by omega)
  have h2 := mul_le_mul h1 (by linarith : 1 + η ≤ 1 + 2⁻¹ ^ 44) (by linarith) (by positivity)
  refine (sub_le_sub_right h2 1).trans ?_
  norm_num

/-- C120.  Data that are transformed with `dat_to_fdat` and transformed back with `fdat_to_dat`, both in floating point arithmetic: at each
of `n` angles the value differs from the trigonometric polynomial of the interpolated values by at most `2M + 1` times the combined relative
error of the two functions times the mean of the absolute interpolated values. -/
theorem C120_round_trip {p q : ℕ} (A : FloatFourier p q) (E : FloatSynth p) (hp : 1 ≤ p) (hq : 1 ≤ q) {interp : Interp}
    {dat : DataContainer ℝ} (hd : dat.Reachable) {y : Key → ℝ → ℝ} (hy : Interpolates A interp dat y) {M n : ℕ} (hn : 1 ≤ n)
    {ω η η' : ℝ} (hω : 0 ≤ ω) (hη : 0 ≤ η) (hη' : 0 ≤ η')
    (hA : ∀ k pts, dat.getPc k sRadians = .ok pts → Accurate A M pts.length ω η) (hE : AccurateSynth E M n η') :
    ∃ fdat dat', datToFdatFloat A interp dat M = .ok fdat ∧ fdatToDatFloat E fdat n = .ok dat' ∧ dat'.getKeys = dat.getKeys ∧
      ∀ k pts, dat.getPc k sRadians = .ok pts → ∃ pts', dat'.getPc k sRadians = .ok pts' ∧ pts'.map Prod.fst = E.grid n ∧
        ∀ (j : ℕ) x y', pts'[j]? = some (x, y') →
          |y' - (pattern M (dft pts.length (y k)) (gridAngle n j)).re| ≤
            (2 * M + 1) * ((1 + fourierError p q pts.length ω η) * (1 + synthesisError p M η') - 1) *
              gridMean pts.length (fun x => |y k x|) := by
  obtain ⟨fdat, h1, h2, h3, h4, h5⟩ := C98_accuracy A hp hq hd hy M hω hη hA
  subst h4
  obtain ⟨dat', g1, g2, g3⟩ := C120_accuracy E hp h2 hn hη' hE
  refine ⟨fdat, dat', h1, g1, g2.trans h3, ?_⟩
  intro k pts hk
  have hkey : k ∈ fdat.getKeys := by
    rw [h3]
    rw [getPc_radians, Dict.get_ok_iff] at hk
    exact Dict.mem_keys.2 ⟨pts, Dict.mem_of_get? hk⟩
  set N := pts.length
  set b := gridMean N (fun x => |y k x|) with hb
  have h6 := h5 k pts hk
  choose! z hz using h6
  obtain ⟨pts', e1, e2, e3⟩ := g3 k hkey z (fun m hm1 hm2 => (hz m hm1 hm2).1)
  refine ⟨pts', e1, e2, fun j x y' hj => ?_⟩
  have e4 := e3 j x y' hj
  set M := fdat.getM
  set fe := fourierError p q N ω η with hfe
  set se := synthesisError p M η' with hse
  have hdft : ∀ m, ‖dft N (y k) m‖ ≤ b := fun m => norm_dft_le N (y k) m
  have hb0 : 0 ≤ b := (norm_nonneg _).trans (hdft 0)
  have hse0 : 0 ≤ se := by
    rw [hse]
    unfold synthesisError
    have : (1 : ℝ) ≤ (1 + 2⁻¹ ^ p) ^ (2 * M + 3) := one_le_pow₀ (by
      have : (0 : ℝ) ≤ 2⁻¹ ^ p := by positivity
      linarith)
    nlinarith
  have hcard : ((Finset.Icc (-(M : ℤ)) M).card : ℝ) = 2 * M + 1 := by
    rw [Int.card_Icc]
    have : ((M : ℤ) + 1 - -(M : ℤ)).toNat = 2 * M + 1 := by omega
    rw [this]
    push_cast
    ring
  have hzn : ∀ m ∈ Finset.Icc (-(M : ℤ)) M, ‖z m‖ ≤ (1 + fe) * b := by
    intro m hm
    rw [Finset.mem_Icc] at hm
    have := (hz m hm.1 hm.2).2.2.2
    have hle : ‖z m‖ ≤ ‖z m - dft N (y k) m‖ + ‖dft N (y k) m‖ := by
      simpa using norm_add_le (z m - dft N (y k) m) (dft N (y k) m)
    have := hdft m
    linarith
  have hsum : ∑ m ∈ Finset.Icc (-(M : ℤ)) M, ‖z m‖ ≤ (2 * M + 1) * ((1 + fe) * b) := by
    have := Finset.sum_le_card_nsmul _ _ _ hzn
    rw [nsmul_eq_mul, hcard] at this
    exact this
  have hpat : |(pattern M z (gridAngle n j)).re - (pattern M (dft N (y k)) (gridAngle n j)).re| ≤ (2 * M + 1) * (fe * b) := by
    rw [← Complex.sub_re]
    refine (Complex.abs_re_le_norm _).trans ?_
    unfold pattern
    rw [← Finset.sum_sub_distrib]
    refine (norm_sum_le _ _).trans ?_
    have : ∀ m ∈ Finset.Icc (-(M : ℤ)) M,
        ‖z m * harmonic m (gridAngle n j) - dft N (y k) m * harmonic m (gridAngle n j)‖ ≤ fe * b := by
      intro m hm
      rw [Finset.mem_Icc] at hm
      have hh : ‖harmonic m (gridAngle n j)‖ = 1 := by
        unfold harmonic
        rw [Complex.norm_exp]
        simp
      rw [← sub_mul, norm_mul, hh, mul_one]
      exact (hz m hm.1 hm.2).2.2.2
    have := Finset.sum_le_card_nsmul _ _ _ this
    rw [nsmul_eq_mul, hcard] at this
    exact this
  have h7 := abs_sub_le y' (pattern M z (gridAngle n j)).re (pattern M (dft N (y k)) (gridAngle n j)).re
  have h8 := mul_le_mul_of_nonneg_left hsum hse0
  have : (2 * (M : ℝ) + 1) * ((1 + fe) * (1 + se) - 1) * b = se * ((2 * M + 1) * ((1 + fe) * b)) + (2 * M + 1) * (fe * b) := by ring
  rw [this]
  linarith

/-! ## A concrete case -/

/-- Arithmetic with 53 digits, and exact functions. -/
noncomputable def doubleSynth : FloatSynth 53 where
  work := nearestArith 53 (by decide)
  turn := 2 * Real.pi
  grid := linspace2pi
  cos := Real.cos
  sin := Real.sin
  mul := (nearestArith 53 (by decide)).mulC

/-- The rounding of `m * x` makes an error of `2^-53 |m x|`, and so does the exact cosine. -/
theorem doubleSynth_accurate {M n : ℕ} (hn : 1 ≤ n) : AccurateSynth doubleSynth M n (2⁻¹ ^ 53 * (M * (2 * Real.pi))) := by
  have hpi := Real.pi_pos
  have hgrid : ∀ j < n, (doubleSynth.grid n).getD j 0 = gridAngle n j := fun j hj => doubleSingle_grid hj
  refine ⟨by simp [doubleSynth, linspace2pi], ?_, ?_, ?_, fun z w => (C120_products (nearestArith 53 (by decide)) (by decide) z w).1⟩
  · show (linspace2pi n).Pairwise _
    rw [linspace2pi_eq]
    exact gridAngle_sorted hn
  · intro x hx
    have hx' : x ∈ linspace2pi n := hx
    rw [linspace2pi_eq] at hx'
    obtain ⟨j, hj, rfl⟩ := List.mem_map.1 hx'
    exact gridAngle_inTurn (List.mem_range.1 hj)
  · intro m hm1 hm2 j hj
    rw [hgrid j hj]
    set θ := gridAngle n j
    have hθ : 0 ≤ θ ∧ θ < 2 * Real.pi := gridAngle_inTurn hj
    set y := doubleSynth.work.rnd (m * θ) with hy
    have e1 : doubleSynth.trig m θ = Complex.exp (Complex.I * (y : ℂ)) := by
      rw [mul_comm, Complex.exp_mul_I, ← Complex.ofReal_cos, ← Complex.ofReal_sin]
      have h : doubleSynth.trig m θ = ⟨Real.cos y, Real.sin y⟩ := rfl
      rw [h]
      apply Complex.ext
      · rw [Complex.add_re, Complex.ofReal_re, Complex.re_ofReal_mul, Complex.I_re, mul_zero, add_zero]
      · rw [Complex.add_im, Complex.ofReal_im, Complex.im_ofReal_mul, Complex.I_im, mul_one, zero_add]
    have e2 : harmonic m θ = Complex.exp (Complex.I * ((m * θ : ℝ) : ℂ)) := by
      unfold harmonic
      push_cast
      rfl
    rw [e1, e2]
    have h1 : ‖Complex.exp (Complex.I * (y : ℂ)) - Complex.exp (Complex.I * ((m * θ : ℝ) : ℂ))‖ ≤ |y - m * θ| := by
      have e3 : Complex.exp (Complex.I * (y : ℂ)) - Complex.exp (Complex.I * ((m * θ : ℝ) : ℂ)) =
          Complex.exp (Complex.I * ((m * θ : ℝ) : ℂ)) * (Complex.exp (Complex.I * ((y - m * θ : ℝ) : ℂ)) - 1) := by
        rw [mul_sub, ← Complex.exp_add, mul_one]
        congr 2
        push_cast
        ring
      rw [e3, norm_mul, mul_comm Complex.I, Complex.norm_exp_ofReal_mul_I, one_mul]
      have := Real.norm_exp_I_mul_ofReal_sub_one_le (x := y - m * θ)
      rwa [Real.norm_eq_abs] at this
    refine h1.trans ((FloatArith.rnd_rel _ (by decide) _).trans ?_)
    refine mul_le_mul_of_nonneg_left ?_ (by positivity)
    rw [abs_mul, abs_of_nonneg hθ.1]
    refine mul_le_mul ?_ hθ.2.le hθ.1 (Nat.cast_nonneg M)
    have : |m| ≤ (M : ℤ) := abs_le.2 ⟨hm1, hm2⟩
    exact_mod_cast this

/-- The hypotheses of C120 are met: the pulse of four points, transformed with three components and sampled again at five angles. -/
example : ∃ fdat dat', datToFdatFloat doubleSingle pulseInterp pulse 1 = .ok fdat ∧ fdatToDatFloat doubleSynth fdat 5 = .ok dat' ∧
    dat'.getKeys = pulse.getKeys ∧ ∀ k pts, pulse.getPc k sRadians = .ok pts → ∃ pts', dat'.getPc k sRadians = .ok pts' ∧
      pts'.map Prod.fst = doubleSynth.grid 5 ∧ ∀ (j : ℕ) x y', pts'[j]? = some (x, y') →
        |y' - (pattern 1 (dft pts.length (fun x => if x = 0 then 1 else 0)) (gridAngle 5 j)).re| ≤
          (2 * (1 : ℕ) + 1) * ((1 + fourierError 53 24 pts.length 0 0) *
            (1 + synthesisError 53 1 (2⁻¹ ^ 53 * ((1 : ℕ) * (2 * Real.pi)))) - 1) *
            gridMean pts.length (fun x => |if x = 0 then 1 else 0|) := by
  refine C120_round_trip doubleSingle doubleSynth (by decide) (by decide) pulse_reachable (interp := pulseInterp)
    (y := fun _ x => if x = 0 then 1 else 0) ?_ (by decide) le_rfl le_rfl (by positivity) ?_ (doubleSynth_accurate (by decide))
  · intro k pts hk
    obtain ⟨h1, h2, h3⟩ := pulse_interp k pts hk
    refine ⟨h1, _, h2, fun j hj => ?_⟩
    rw [doubleSingle_grid hj]
  · intro k pts hk
    exact doubleSingle_accurate (pulse_interp k pts hk).1

end Shgpy
