import Verif.Spec.Noise
import Verif.Props.FitCurve
import Mathlib.Algebra.Order.Chebyshev

/-!
# A good fit of noisy values is near the true pattern: C108
-/

set_option linter.unusedSectionVars false

namespace Shgpy
open Spec

theorem gridMean_pattern (N M : ℕ) (hN : 2 * M < N) (z : ℤ → ℂ) :
    gridMean N (fun x => ‖pattern M z x‖ ^ 2) = ∑ m ∈ Finset.Icc (-(M : ℤ)) M, ‖z m‖ ^ 2 := by
  have h := residual N M hN (fun _ => 0) z
  have h0 : ∀ m, dft N (fun _ => 0) m = 0 := by intro m; unfold dft; simp
  simp only [h0] at h
  simpa [gridMean] using h

theorem pattern_sub (M : ℕ) (z w : ℤ → ℂ) (x : ℝ) : pattern M z x - pattern M w x = pattern M (fun m => z m - w m) x := by
  unfold pattern
  rw [← Finset.sum_sub_distrib]
  exact Finset.sum_congr rfl (fun m _ => by ring)

theorem deviation_eq (keys : List Key) (M : ℕ) (F : Key → ℤ → Valuation → ℂ) {N : Key → ℕ} (hN : ∀ k ∈ keys, 2 * M < N k)
    (r r' : Sym → ℝ) : deviation keys M F N r r' = misfit keys M F (fun k m => F k m (realVal r')) r := by
  unfold deviation misfit
  congr 1
  refine List.map_congr_left (fun k hk => ?_)
  simp only [pattern_sub]
  exact gridMean_pattern (N k) M (hN k hk) _

/-- Misfits are squares of distances. -/
theorem misfit_triangle (keys : List Key) (M : ℕ) (F : Key → ℤ → Valuation → ℂ) (D : Key → ℤ → ℂ) (r r' : Sym → ℝ) :
    √(misfit keys M F (fun k m => F k m (realVal r')) r) ≤ √(misfit keys M F D r) + √(misfit keys M F D r') := by
  let v : (Key → ℤ → ℂ) → (Key → ℤ → ℂ) → EuclideanSpace ℂ (Fin keys.length × Finset.Icc (-(M : ℤ)) M) :=
    fun G D => WithLp.toLp 2 (fun i => G keys[i.1] i.2 - D keys[i.1] i.2)
  have hv : ∀ D r, √(misfit keys M F D r) = ‖v (fun k m => F k m (realVal r)) D‖ := by
    intro D r
    rw [EuclideanSpace.norm_eq]
    congr 1
    unfold misfit
    simp only [v, Fintype.sum_prod_type]
    rw [← Fin.sum_univ_fun_getElem keys (fun k => ∑ m ∈ Finset.Icc (-(M : ℤ)) M, ‖F k m (realVal r) - D k m‖ ^ 2)]
    refine Finset.sum_congr rfl (fun i _ => ?_)
    exact (Finset.sum_coe_sort (Finset.Icc (-(M : ℤ)) M) (fun m => ‖F keys[i] m (realVal r) - D keys[i] m‖ ^ 2)).symm
  rw [hv, hv, hv]
  have : v (fun k m => F k m (realVal r)) (fun k m => F k m (realVal r')) =
      v (fun k m => F k m (realVal r)) D - v (fun k m => F k m (realVal r')) D := by
    ext i
    simp [v]
  rw [this]
  exact norm_sub_le _ _

/-- At every angle, the pattern is at most as large as the mean of its square permits. -/
theorem pattern_le (M : ℕ) (z : ℤ → ℂ) (x : ℝ) :
    ‖pattern M z x‖ ≤ √((2 * M + 1) * ∑ m ∈ Finset.Icc (-(M : ℤ)) M, ‖z m‖ ^ 2) := by
  refine Real.le_sqrt_of_sq_le ?_
  have h1 : ‖pattern M z x‖ ≤ ∑ m ∈ Finset.Icc (-(M : ℤ)) M, ‖z m‖ := by
    unfold pattern
    refine (norm_sum_le _ _).trans (Finset.sum_le_sum (fun m _ => ?_))
    rw [norm_mul]
    have : ‖harmonic m x‖ = 1 := by
      unfold harmonic
      rw [Complex.norm_exp]
      simp
    rw [this, mul_one]
  have h2 := sq_sum_le_card_mul_sum_sq (s := Finset.Icc (-(M : ℤ)) M) (f := fun m => ‖z m‖)
  have h3 : ((Finset.Icc (-(M : ℤ)) M).card : ℝ) = 2 * M + 1 := by
    have : (Finset.Icc (-(M : ℤ)) M).card = 2 * M + 1 := by rw [Int.card_Icc]; omega
    rw [this]; push_cast; ring
  rw [h3] at h2
  exact (pow_le_pow_left₀ (norm_nonneg _) h1 2).trans h2

theorem pattern_le_deviation (keys : List Key) (M : ℕ) (F : Key → ℤ → Valuation → ℂ) {N : Key → ℕ} (hN : ∀ k ∈ keys, 2 * M < N k)
    (r r' : Sym → ℝ) {k : Key} (hk : k ∈ keys) (x : ℝ) :
    ‖pattern M (fun m => F k m (realVal r)) x - pattern M (fun m => F k m (realVal r')) x‖ ≤
      √(2 * M + 1) * √(deviation keys M F N r r') := by
  rw [deviation_eq keys M F hN, pattern_sub, ← Real.sqrt_mul (by positivity)]
  refine (pattern_le M _ x).trans (Real.sqrt_le_sqrt (mul_le_mul_of_nonneg_left ?_ (by positivity)))
  unfold misfit
  refine List.single_le_sum (fun a ha => ?_) _ (List.mem_map.2 ⟨k, hk, rfl⟩)
  obtain ⟨k', _, rfl⟩ := List.mem_map.1 ha
  exact Finset.sum_nonneg (fun _ _ => by positivity)

/-- Two patterns are not farther from each other than the sum of their distances to the values. -/
theorem deviation_squares (keys : List Key) (M : ℕ) (F : Key → ℤ → Valuation → ℂ) {N N' : Key → ℕ} (f : Key → ℝ → ℝ)
    (hN : ∀ k ∈ keys, 2 * M < N k) (hN' : ∀ k ∈ keys, 2 * M < N' k) (r r' : Sym → ℝ) :
    √(deviation keys M F N' r r') ≤ √(squares keys M F N f r) + √(squares keys M F N f r') := by
  obtain ⟨R, hR, hsq⟩ := squares_misfit keys M F f hN
  rw [deviation_eq _ _ _ hN']
  refine (misfit_triangle keys M F (fun k m => dft (N k) (f k) m) r r').trans (add_le_add ?_ ?_) <;>
    exact Real.sqrt_le_sqrt (by rw [hsq]; linarith)

/-- Taking away the same part of two squares makes their roots differ more. -/
theorem sqrt_add_le {a b R ε : ℝ} (hR : 0 ≤ R) (ha : R ≤ a) (hb : R ≤ b) (hε : 0 ≤ ε) (h : √(a - R) ≤ √(b - R) + ε) : √a ≤ √b + ε := by
  have h1 := Real.sqrt_nonneg (a - R)
  have h2 := Real.sqrt_nonneg (b - R)
  have h3 := Real.sqrt_nonneg b
  have e1 := Real.sq_sqrt (sub_nonneg.2 ha)
  have e2 := Real.sq_sqrt (sub_nonneg.2 hb)
  have e3 := Real.sq_sqrt (hR.trans hb)
  have hle : √(b - R) ≤ √b := Real.sqrt_le_sqrt (by linarith)
  refine Real.sqrt_le_iff.2 ⟨by linarith, ?_⟩
  nlinarith [mul_le_mul_of_nonneg_left hle hε]

section
variable (S : Sympy) (C : Compiler) {fform : FFormContainer} {F : Key → ℤ → Valuation → ℂ} {interp : Interp} {dat : DataContainer ℝ}
  {f : Key → ℝ → ℝ} {N N' : Key → ℕ} {fdat : FDataContainer} {l : List Sym} {st : FitState} {guess : Dict Sym ℝ} {g : Sym → ℝ}
  {boundsDict : Option (Dict Sym (ℝ × ℝ))} {lo hi : Sym → ℝ} {ε : ℝ} {res : OptResult}

/-- C108.  Parameters `r` that the cost function does not find worse than the parameters `r₀` (the true ones, say) give a pattern
that is, in the root mean square over the angles of any grid that is fine enough, at most twice as far from the pattern for `r₀` as
the measured values are; at every single angle, at most `2√(2M+1)` times as far. -/
theorem C108_cost (d : Disk) (hd : dat.Reachable) (hc : fform.Reachable S) (hF : FormulaIs fform F)
    (hk : ∀ k ∈ fform.getKeys, k ∈ dat.getKeys)
    (hi : ∀ k pts, dat.getPc k sRadians = .ok pts → 2 ≤ pts.length ∧ interp pts = .ok (f k) ∧ pts.length = N k)
    (hN : ∀ k ∈ fform.getKeys, 2 * fform.getM < N k) (hf : datToFdat interp dat fform.getM = .ok fdat)
    (hq : ∀ k m z, DRepresents fdat k m z → MachineNumber z)
    {arguments : Option (List Sym)} (hl : ArgumentOrder S fform arguments l)
    (chunk : Bool) (hne : chunk = true → fform.getKeys ≠ []) (save : Option Key) :
    ∃ cost d', genCostFunc S C d fform fdat arguments chunk save = .ok (cost, d') ∧
      ∀ r r₀, cost (l.map r) ≤ cost (l.map r₀) →
        (∀ N', (∀ k ∈ fform.getKeys, 2 * fform.getM < N' k) →
          √(deviation fform.getKeys fform.getM F N' r r₀) ≤ 2 * √(squares fform.getKeys fform.getM F N f r₀)) ∧
        ∀ k ∈ fform.getKeys, ∀ x,
          ‖pattern fform.getM (fun m => F k m (realVal r)) x - pattern fform.getM (fun m => F k m (realVal r₀)) x‖ ≤
            2 * √(2 * fform.getM + 1) * √(squares fform.getKeys fform.getM F N f r₀) := by
  obtain ⟨cost, d', R, h1, _, _, h3⟩ := C90_least_squares S C d hd hc hF hk hi hN hf hq hl chunk hne save
  refine ⟨cost, d', h1, fun r r₀ hle => ?_⟩
  have hdev : ∀ N', (∀ k ∈ fform.getKeys, 2 * fform.getM < N' k) →
      √(deviation fform.getKeys fform.getM F N' r r₀) ≤ 2 * √(squares fform.getKeys fform.getM F N f r₀) := by
    intro N' hN'
    have h4 := deviation_squares fform.getKeys fform.getM F f hN hN' r r₀
    have h5 := Real.sqrt_le_sqrt ((h3 r r₀).1 hle)
    linarith
  refine ⟨hdev, fun k hkk x => ?_⟩
  have := hdev N hN
  calc _ ≤ √(2 * fform.getM + 1) * √(deviation fform.getKeys fform.getM F N r r₀) := pattern_le_deviation _ _ _ hN r r₀ hkk x
    _ ≤ √(2 * fform.getM + 1) * (2 * √(squares fform.getKeys fform.getM F N f r₀)) := by gcongr
    _ = _ := by ring

/-- C108 for `least_squares_fit` and `least_squares_fit_with_bounds`: if the optimizer finds the least residual up to `ε`, and the
true parameters are allowed, the pattern for the reported parameters is at most twice as far from the true one as the measured values
are, up to `ε`. -/
theorem C108_least_squares (hd : dat.Reachable) (hc : fform.Reachable S) (hF : FormulaIs fform F)
    (hk : ∀ k ∈ fform.getKeys, k ∈ dat.getKeys)
    (hi' : ∀ k pts, dat.getPc k sRadians = .ok pts → 2 ≤ pts.length ∧ interp pts = .ok (f k) ∧ pts.length = N k)
    (hN : ∀ k ∈ fform.getKeys, 2 * fform.getM < N k) (hf : datToFdat interp dat fform.getM = .ok fdat)
    (hq : ∀ k m z, DRepresents fdat k m z → MachineNumber z) (chunk : Bool) (hne : chunk = true → fform.getKeys ≠ [])
    {opt : Optimizer LSCall} (ho : LeastSquaresTo ε opt) (hl : fform.getFreeSymbols S = .ok l) (hl0 : l ≠ []) (save : Option Key)
    (hg : ∀ s ∈ l, Dict.get guess s = .ok (g s)) (hb : BoundsAre boundsDict l lo hi)
    (hw : Without st.kwargs ([sFun, sX0] ++ if boundsDict.isSome then [sBounds] else []))
    (hr : (leastSquaresFit S C opt fform fdat guess boundsDict chunk save none st).1 = .ok res)
    (hN' : ∀ k ∈ fform.getKeys, 2 * fform.getM < N' k) :
    ∃ r, Reports res l r ∧ ∀ r₀, Allowed boundsDict l lo hi r₀ →
      √(deviation fform.getKeys fform.getM F N' r r₀) ≤ 2 * √(squares fform.getKeys fform.getM F N f r₀) + ε := by
  obtain ⟨r, R, h1, h2, hR, h3⟩ := C103_least_squares S C hd hc hF hk hi' hN hf hq chunk hne ho hl hl0 save hg hb hw hr
  refine ⟨r, h1, fun r₀ hr₀ => ?_⟩
  have hε : 0 ≤ ε := by
    have := (h3 r h2).2.1
    linarith
  have h4 := deviation_squares fform.getKeys fform.getM F f hN hN' r r₀
  have h5 := sqrt_add_le hR (h3 r h2).1 (h3 r₀ hr₀).1 hε (h3 r₀ hr₀).2.1
  linarith

/-- C108 for `dual_annealing_fit_with_bounds`, in the same way; the optimizer finds the least sum of squares up to `ε`. -/
theorem C108_dual_annealing (hd : dat.Reachable) (hc : fform.Reachable S) (hF : FormulaIs fform F)
    (hk : ∀ k ∈ fform.getKeys, k ∈ dat.getKeys)
    (hi' : ∀ k pts, dat.getPc k sRadians = .ok pts → 2 ≤ pts.length ∧ interp pts = .ok (f k) ∧ pts.length = N k)
    (hN : ∀ k ∈ fform.getKeys, 2 * fform.getM < N k) (hf : datToFdat interp dat fform.getM = .ok fdat)
    (hq : ∀ k m z, DRepresents fdat k m z → MachineNumber z) (chunk : Bool) (hne : chunk = true → fform.getKeys ≠ [])
    {opt : Optimizer DACall} (ho : AnnealsTo ε opt) (hl : fform.getFreeSymbols S = .ok l) (hl0 : l ≠ []) (save : Option Key)
    (hg : ∀ s ∈ l, Dict.get guess s = .ok (g s)) (hb : BoundsAre boundsDict l lo hi) (options : ℕ)
    (hr : (dualAnnealingFit S C opt fform fdat guess boundsDict options chunk save none st).1 = .ok res)
    (hN' : ∀ k ∈ fform.getKeys, 2 * fform.getM < N' k) :
    ∃ r, Reports res l r ∧ ∀ r₀, Allowed boundsDict l lo hi r₀ →
      √(deviation fform.getKeys fform.getM F N' r r₀) ≤
        √(squares fform.getKeys fform.getM F N f r₀) + √(squares fform.getKeys fform.getM F N f r₀ + ε) := by
  obtain ⟨r, h1, h2, h3⟩ := C103_dual_annealing S C hd hc hF hk hi' hN hf hq chunk hne ho hl hl0 save hg hb options hr
  refine ⟨r, h1, fun r₀ hr₀ => ?_⟩
  have h4 := deviation_squares fform.getKeys fform.getM F f hN hN' r r₀
  have h5 := Real.sqrt_le_sqrt (h3 r₀ hr₀)
  linarith

/-- C108 for `basinhopping_fit_with_bounds`, in the same way. -/
theorem C108_basinhopping_with_bounds (hd : dat.Reachable) (hc : fform.Reachable S) (hF : FormulaIs fform F)
    (hk : ∀ k ∈ fform.getKeys, k ∈ dat.getKeys)
    (hi' : ∀ k pts, dat.getPc k sRadians = .ok pts → 2 ≤ pts.length ∧ interp pts = .ok (f k) ∧ pts.length = N k)
    (hN : ∀ k ∈ fform.getKeys, 2 * fform.getM < N k) (hf : datToFdat interp dat fform.getM = .ok fdat)
    (hq : ∀ k m z, DRepresents fdat k m z → MachineNumber z) (chunk : Bool) (hne : chunk = true → fform.getKeys ≠ [])
    {opt : Optimizer BHCall} (ho : HopsTo ε opt) (hl : fform.getFreeSymbols S = .ok l) (hl0 : l ≠ []) (save : Option Key)
    (hg : ∀ s ∈ l, Dict.get guess s = .ok (g s)) (hb : BoundsAre boundsDict l lo hi)
    (niter method args : ℕ) (stepsize : ℝ) {user : Dict Key OptVal}
    (hu : UserOptions st.kwargs user) (hub : Dict.get? user sBounds = none)
    (hw : Without st.kwargs [sFunc, sX0, sNiter, sStepsize])
    (hr : (basinhoppingFitWithBounds S C opt fform fdat guess boundsDict niter method args stepsize chunk save none st).1 =
      .ok res)
    (hN' : ∀ k ∈ fform.getKeys, 2 * fform.getM < N' k) :
    ∃ r, Reports res l r ∧ ∀ r₀, Allowed boundsDict l lo hi r₀ →
      √(deviation fform.getKeys fform.getM F N' r r₀) ≤
        √(squares fform.getKeys fform.getM F N f r₀) + √(squares fform.getKeys fform.getM F N f r₀ + ε) := by
  obtain ⟨r, h1, h2, h3⟩ := C103_basinhopping_with_bounds S C hd hc hF hk hi' hN hf hq chunk hne ho hl hl0 save hg hb niter method
    args stepsize hu hub hw hr
  refine ⟨r, h1, fun r₀ hr₀ => ?_⟩
  have h4 := deviation_squares fform.getKeys fform.getM F f hN hN' r r₀
  have h5 := Real.sqrt_le_sqrt (h3 r₀ hr₀)
  linarith

end

/-! ## A concrete case -/

namespace FitCases

/-- The hypotheses of `C108_cost` are met: the pulse, which no pattern of three components has exactly. -/
example (d : Disk) : ∃ fdat cost d', datToFdat pulseInterp pulse 1 = .ok fdat ∧
    genCostFunc Sympy.plain compiler d formula fdat none false none = .ok (cost, d') ∧
    ∀ r r₀, cost ([symA, symB].map r) ≤ cost ([symA, symB].map r₀) →
      √(deviation formula.getKeys 1 F (fun _ => 5) r r₀) ≤
        2 * √(squares formula.getKeys 1 F (fun _ => 4) (fun _ x => if x = 0 then 1 else 0) r₀) := by
  obtain ⟨fdat, h1, hq⟩ := pulse_fdat
  obtain ⟨cost, d', h2, h3⟩ := C108_cost Sympy.plain compiler (f := fun _ x => if x = 0 then 1 else 0) (N := fun _ => 4) d
    pulse_reachable formula_reachable formulaIs pulse_keys pulse_interp (fun k _ => by decide) h1 hq (.inr ⟨rfl, free_symbols⟩) false
    (by simp) none
  exact ⟨fdat, cost, d', h1, h2, fun r r₀ h => (h3 r r₀ h).1 (fun _ => 5) (fun k _ => by decide)⟩

/-- The hypotheses of `C108_least_squares` are met, with bounds and with success: the pulse, and both parameters between 0 and 1. -/
example : ∃ fdat res r, datToFdat pulseInterp pulse 1 = .ok fdat ∧
    (leastSquaresFit Sympy.plain compiler exactLeastSquares formula fdat [(symA, 0), (symB, 0)]
      (some [(symA, (0, 1)), (symB, (0, 1))]) false none none ⟨noFiles, []⟩).1 = .ok res ∧ Reports res [symA, symB] r ∧
    √(deviation formula.getKeys 1 F (fun _ => 5) r quarter) ≤
      2 * √(squares formula.getKeys 1 F (fun _ => 4) (fun _ x => if x = 0 then 1 else 0) quarter) := by
  obtain ⟨fdat, h1, hq⟩ := pulse_fdat
  have hg : ∀ s ∈ [symA, symB], Dict.get [(symA, (0 : ℝ)), (symB, 0)] s = .ok ((fun _ => 0 : Sym → ℝ) s) := by
    intro s hs
    rcases List.mem_cons.1 hs with rfl | hs
    · rfl
    · rw [List.mem_singleton.1 hs]; rfl
  have hb : BoundsAre (some [(symA, ((0 : ℝ), (1 : ℝ))), (symB, (0, 1))]) [symA, symB] (fun _ => 0) (fun _ => 1) := by
    intro b hb s hs
    cases hb
    rcases List.mem_cons.1 hs with rfl | hs
    · rfl
    · rw [List.mem_singleton.1 hs]; rfl
  have hw : Without ([] : Kwargs) ([sFun, sX0] ++ if (some [(symA, ((0 : ℝ), (1 : ℝ))), (symB, (0, 1))]).isSome then [sBounds] else []) :=
    fun _ _ h => by cases h
  obtain ⟨hs, _⟩ := measured_source (f := fun _ x => if x = 0 then 1 else 0) (N := fun _ => 4) pulse_reachable formulaIs pulse_keys
    pulse_interp (fun k _ => by decide) h1 hq [symA, symB] false (by simp) noFiles
  obtain ⟨call, c1, c2, c3, c4, c5⟩ := C60_least_squares Sympy.plain compiler exactLeastSquares (st := ⟨noFiles, []⟩) formula_reachable
    free_symbols (by simp) hs none hg hb hw
  have hx : ∃ x, exactLeastSquares call = .ok x := by
    unfold exactLeastSquares
    dsimp only
    rw [dif_pos]
    · exact ⟨_, rfl⟩
    · refine ⟨[symA, symB].map quarter, ⟨by rw [c2]; simp, fun b hb' => ?_⟩, fun y _ => ?_⟩
      · rw [c3] at hb'
        cases hb'
        rw [List.zip_map', between_map]
        intro s _
        unfold quarter
        norm_num
      · rw [c1, misfit_quarter]
        simp
  obtain ⟨x, hx⟩ := hx
  obtain ⟨⟨o1, _⟩, _⟩ := exactLeastSquares_spec call x hx
  obtain ⟨r₀, rfl⟩ := exists_map_eq (l := [symA, symB]) (by decide) (x := x) (by rw [o1, c2]; simp)
  obtain ⟨res, e1, _⟩ := c5.1 r₀ hx
  have hq' : Allowed (some [(symA, ((0 : ℝ), (1 : ℝ))), (symB, (0, 1))]) [symA, symB] (fun _ => 0) (fun _ => 1) quarter := by
    intro _ s _
    unfold quarter
    norm_num
  obtain ⟨r, g1, g2⟩ := C108_least_squares (N' := fun _ => 5) Sympy.plain compiler pulse_reachable formula_reachable formulaIs pulse_keys
    pulse_interp (fun k _ => by decide) h1 hq false (by simp) exactLeastSquares_spec free_symbols (by simp) none hg hb hw e1
    (fun k _ => by decide)
  exact ⟨fdat, res, r, h1, e1, g1, (g2 quarter hq').trans (add_zero _).le⟩

/-- The hypotheses of `C108_dual_annealing` are met, with success. -/
example : ∃ fdat res r, datToFdat pulseInterp pulse 1 = .ok fdat ∧
    (dualAnnealingFit Sympy.plain compiler exactAnnealing formula fdat [(symA, 0), (symB, 0)]
      (some [(symA, (0, 1)), (symB, (0, 1))]) 0 false none none ⟨noFiles, []⟩).1 = .ok res ∧ Reports res [symA, symB] r ∧
    √(deviation formula.getKeys 1 F (fun _ => 5) r quarter) ≤
      2 * √(squares formula.getKeys 1 F (fun _ => 4) (fun _ x => if x = 0 then 1 else 0) quarter) := by
  obtain ⟨fdat, h1, hq⟩ := pulse_fdat
  have hg : ∀ s ∈ [symA, symB], Dict.get [(symA, (0 : ℝ)), (symB, 0)] s = .ok ((fun _ => 0 : Sym → ℝ) s) := by
    intro s hs
    rcases List.mem_cons.1 hs with rfl | hs
    · rfl
    · rw [List.mem_singleton.1 hs]; rfl
  have hb : BoundsAre (some [(symA, ((0 : ℝ), (1 : ℝ))), (symB, (0, 1))]) [symA, symB] (fun _ => 0) (fun _ => 1) := by
    intro b hb s hs
    cases hb
    rcases List.mem_cons.1 hs with rfl | hs
    · rfl
    · rw [List.mem_singleton.1 hs]; rfl
  obtain ⟨hs, _⟩ := measured_source (f := fun _ x => if x = 0 then 1 else 0) (N := fun _ => 4) pulse_reachable formulaIs pulse_keys
    pulse_interp (fun k _ => by decide) h1 hq [symA, symB] false (by simp) noFiles
  obtain ⟨call, c1, c2, c3, c4, c5⟩ := C60_dual_annealing Sympy.plain compiler exactAnnealing (st := ⟨noFiles, []⟩) formula_reachable
    free_symbols (by simp) hs none hg hb 0
  have hx : ∃ x, exactAnnealing call = .ok x := by
    unfold exactAnnealing
    dsimp only
    rw [dif_pos]
    · exact ⟨_, rfl⟩
    · refine ⟨[symA, symB].map quarter, ⟨by rw [c2]; simp, fun b hb' => ?_⟩, fun y hy => ?_⟩
      · rw [c3] at hb'
        cases hb'
        rw [between_map]
        intro s _
        unfold quarter
        norm_num
      · obtain ⟨ry, rfl⟩ := exists_map_eq (l := [symA, symB]) (by decide) (x := y) (by rw [hy.1, c2]; simp)
        rw [c1, c1, misfit_quarter]
        exact (C57_zero_iff _ _ _ _ _).1
  obtain ⟨x, hx⟩ := hx
  obtain ⟨⟨o1, _⟩, _⟩ := exactAnnealing_spec call x hx
  obtain ⟨r₀, rfl⟩ := exists_map_eq (l := [symA, symB]) (by decide) (x := x) (by rw [o1, c2]; simp)
  obtain ⟨res, e1, _⟩ := c5.1 r₀ hx
  have hq' : Allowed (some [(symA, ((0 : ℝ), (1 : ℝ))), (symB, (0, 1))]) [symA, symB] (fun _ => 0) (fun _ => 1) quarter := by
    intro _ s _
    unfold quarter
    norm_num
  obtain ⟨r, g1, g2⟩ := C108_dual_annealing (N' := fun _ => 5) Sympy.plain compiler pulse_reachable formula_reachable formulaIs pulse_keys
    pulse_interp (fun k _ => by decide) h1 hq false (by simp) exactAnnealing_spec free_symbols (by simp) none hg hb 0 e1
    (fun k _ => by decide)
  have := g2 quarter hq'
  rw [add_zero] at this
  exact ⟨fdat, res, r, h1, e1, g1, this.trans (two_mul _).ge⟩

/-- The hypotheses of `C108_basinhopping_with_bounds` are met, with success. -/
example : ∃ fdat res r, datToFdat pulseInterp pulse 1 = .ok fdat ∧
    (basinhoppingFitWithBounds Sympy.plain compiler exactHopping formula fdat [(symA, 0), (symB, 0)]
      (some [(symA, (0, 1)), (symB, (0, 1))]) 10 0 0 1 false none none ⟨noFiles, []⟩).1 = .ok res ∧ Reports res [symA, symB] r ∧
    √(deviation formula.getKeys 1 F (fun _ => 5) r quarter) ≤
      2 * √(squares formula.getKeys 1 F (fun _ => 4) (fun _ x => if x = 0 then 1 else 0) quarter) := by
  obtain ⟨fdat, h1, hq⟩ := pulse_fdat
  obtain ⟨hs, _⟩ := measured_source (f := fun _ x => if x = 0 then 1 else 0) (N := fun _ => 4) pulse_reachable formulaIs pulse_keys
    pulse_interp (fun k _ => by decide) h1 hq [symA, symB] false (by simp) noFiles
  obtain ⟨call, fn, c0, c1, c2, c5, _⟩ := C60_basinhopping_with_bounds Sympy.plain compiler exactHopping (st := ⟨noFiles, []⟩)
    formula_reachable free_symbols (by simp) hs none zero_guess unit_bounds 10 0 0 1 no_options (without_options _)
  obtain ⟨res, e1⟩ := hopping_finds rfl (fun r => by unfold bhValue; rw [c0]; exact c1 r) c2.1
    (fun b hb => by rw [c2.2.2.2.1] at hb; cases hb; rfl) c5
  have hq' : Allowed (some [(symA, ((0 : ℝ), (1 : ℝ))), (symB, (0, 1))]) [symA, symB] (fun _ => 0) (fun _ => 1) quarter := by
    intro _ s _
    unfold quarter
    norm_num
  obtain ⟨r, g1, g2⟩ := C108_basinhopping_with_bounds (N' := fun _ => 5) Sympy.plain compiler pulse_reachable formula_reachable formulaIs
    pulse_keys pulse_interp (fun k _ => by decide) h1 hq false (by simp) exactHopping_spec free_symbols (by simp) none zero_guess
    unit_bounds 10 0 0 1 no_options rfl (without_options _) e1 (fun k _ => by decide)
  have := g2 quarter hq'
  rw [add_zero] at this
  exact ⟨fdat, res, r, h1, e1, g1, this.trans (two_mul _).ge⟩

end FitCases

end Shgpy
