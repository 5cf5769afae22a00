import Verif.Spec.FitCurve
import Verif.Props.LeastSquares
import Verif.Props.MergeFit
import Verif.Props.FFormFitCases

/-!
# The curve drawn from a fit is the best curve: C103
-/

set_option linter.unusedSectionVars false

namespace Shgpy
open Spec

theorem series_pattern {v : List ℂ} {M : ℕ} {c : ℤ → ℂ} (h : ∀ m : ℤ, -(M : ℤ) ≤ m → m ≤ M → Component v M m (c m)) (x : ℝ) :
    series v M x = pattern M c x := by
  unfold series pattern
  refine Finset.sum_bij (fun i _ => (i : ℤ) - M) ?_ ?_ ?_ ?_
  · intro i hi
    rw [Finset.mem_range] at hi
    rw [Finset.mem_Icc]
    omega
  · intro i _ j _ h
    simpa using h
  · intro m hm
    rw [Finset.mem_Icc] at hm
    exact ⟨(m + M).toNat, by rw [Finset.mem_range]; omega, by omega⟩
  · intro i hi
    rw [Finset.mem_range] at hi
    have h1 := (h ((i : ℤ) - M) (by omega) (by omega)).2
    have h2 : ((i : ℤ) - M + M).toNat = i := by omega
    rw [h2] at h1
    rw [List.getD_eq_getElem?_getD, h1]
    rfl

theorem between_map {l : List Sym} {lo hi r : Sym → ℝ} :
    Between (l.map (fun s => (lo s, hi s))) (l.map r) ↔ ∀ s ∈ l, lo s ≤ r s ∧ r s ≤ hi s := by
  constructor
  · intro h s hs
    obtain ⟨i, hi'⟩ := List.mem_iff_getElem?.1 hs
    exact h i (r s) (lo s) (hi s) (by rw [List.getElem?_map, hi']; rfl) (by rw [List.getElem?_map, hi']; rfl)
  · intro h i a lo' hi' h1 h2
    rw [List.getElem?_map] at h1 h2
    cases hl : l[i]? with
    | none => rw [hl] at h1; cases h1
    | some s =>
      rw [hl] at h1 h2
      cases h1
      cases h2
      exact h s (List.mem_of_getElem? hl)

section
variable (S : Sympy) (C : Compiler) {fform : FFormContainer} {F : Key → ℤ → Valuation → ℂ} {interp : Interp} {dat : DataContainer ℝ}
  {f : Key → ℝ → ℝ} {N : Key → ℕ} {fdat : FDataContainer} {l : List Sym} {st : FitState} {guess : Dict Sym ℝ} {g : Sym → ℝ}
  {boundsDict : Option (Dict Sym (ℝ × ℝ))} {lo hi : Sym → ℝ} {ε : ℝ} {res : OptResult}

/-- The hypotheses on the data and the formula give the source of the cost function, and the constant of C90. -/
theorem measured_source (hd : dat.Reachable) (hF : FormulaIs fform F)
    (hk : ∀ k ∈ fform.getKeys, k ∈ dat.getKeys)
    (hi : ∀ k pts, dat.getPc k sRadians = .ok pts → 2 ≤ pts.length ∧ interp pts = .ok (f k) ∧ pts.length = N k)
    (hN : ∀ k ∈ fform.getKeys, 2 * fform.getM < N k) (hf : datToFdat interp dat fform.getM = .ok fdat)
    (hq : ∀ k m z, DRepresents fdat k m z → MachineNumber z) (l : List Sym) (chunk : Bool) (hne : chunk = true → fform.getKeys ≠ [])
    (d : Disk) :
    CostSource fform fdat F (fun k m => dft (N k) (f k) m) l chunk none d ∧
    ∃ R, 0 ≤ R ∧ ∀ r, squares fform.getKeys fform.getM F N f r =
      misfit fform.getKeys fform.getM F (fun k m => dft (N k) (f k) m) r + R := by
  obtain ⟨c', h1, _, _, h2, h3⟩ := C89_transform hd fform.getM (fun k pts h => ⟨(hi k pts h).1, (hi k pts h).2.1⟩)
  rw [hf] at h1; cases h1
  have hwf := (reachable_normalForm hd).1
  have hD : DataIs fform fdat (fun k m => dft (N k) (f k) m) := by
    intro k hkk m hm1 hm2
    obtain ⟨pts, hp⟩ := Dict.mem_keys.1 (hk k hkk)
    have hp' : dat.getPc k sRadians = .ok pts := by
      rw [getPc_radians, Dict.get_ok_iff]; exact (Dict.get?_eq_some_iff hwf).2 hp
    have := h3 k pts hp' m hm1 hm2
    rw [(hi k pts hp').2.2] at this
    exact ⟨this, hq _ _ _ this⟩
  exact ⟨.inl ⟨rfl, h2, hF, hD, hne⟩, squares_misfit fform.getKeys fform.getM F f hN⟩

/-- C103 for `least_squares_fit` and `least_squares_fit_with_bounds`.  If the optimizer finds the least residual up to `ε`, the
reported parameters are allowed, and no allowed parameters give a curve whose root mean square deviation from the values, taken
beyond the part `R` that no parameters can remove, is smaller by more than `ε`; for `ε = 0` no curve is nearer to the values. -/
theorem C103_least_squares (hd : dat.Reachable) (hc : fform.Reachable S) (hF : FormulaIs fform F)
    (hk : ∀ k ∈ fform.getKeys, k ∈ dat.getKeys)
    (hi' : ∀ k pts, dat.getPc k sRadians = .ok pts → 2 ≤ pts.length ∧ interp pts = .ok (f k) ∧ pts.length = N k)
    (hN : ∀ k ∈ fform.getKeys, 2 * fform.getM < N k) (hf : datToFdat interp dat fform.getM = .ok fdat)
    (hq : ∀ k m z, DRepresents fdat k m z → MachineNumber z) (chunk : Bool) (hne : chunk = true → fform.getKeys ≠ [])
    {opt : Optimizer LSCall} (ho : LeastSquaresTo ε opt) (hl : fform.getFreeSymbols S = .ok l) (hl0 : l ≠ []) (save : Option Key)
    (hg : ∀ s ∈ l, Dict.get guess s = .ok (g s)) (hb : BoundsAre boundsDict l lo hi)
    (hw : Without st.kwargs ([sFun, sX0] ++ if boundsDict.isSome then [sBounds] else []))
    (hr : (leastSquaresFit S C opt fform fdat guess boundsDict chunk save none st).1 = .ok res) :
    ∃ r R, Reports res l r ∧ Allowed boundsDict l lo hi r ∧ 0 ≤ R ∧ ∀ r', Allowed boundsDict l lo hi r' →
      R ≤ squares fform.getKeys fform.getM F N f r' ∧
      √(squares fform.getKeys fform.getM F N f r - R) ≤ √(squares fform.getKeys fform.getM F N f r' - R) + ε ∧
      (ε = 0 → squares fform.getKeys fform.getM F N f r ≤ squares fform.getKeys fform.getM F N f r') := by
  obtain ⟨hs, R, hR, hsq⟩ := measured_source hd hF hk hi' hN hf hq l chunk hne st.disk
  obtain ⟨call, c1, c2, c3, c4, c5⟩ := C60_least_squares S C opt hc hl hl0 hs save hg hb hw
  have hnd := (getFreeSymbols_lists hc.good hl).2.1
  cases hx : opt call with
  | error e => rw [c5.2 e hx] at hr; cases hr
  | ok x =>
    obtain ⟨⟨o1, o2⟩, o3⟩ := ho call x hx
    obtain ⟨r, rfl⟩ := exists_map_eq hnd (x := x) (by rw [o1, c2]; simp)
    obtain ⟨res', e1, e2⟩ := c5.1 r hx
    rw [hr] at e1
    cases e1
    have hall : ∀ r', (∀ b, call.bounds = some b → Between (b.1.zip b.2) (l.map r')) ↔ Allowed boundsDict l lo hi r' := by
      intro r'
      rw [c3]
      cases boundsDict with
      | none => simp [Allowed]
      | some b =>
        simp only [Option.map_some, Option.some.injEq, forall_eq', Allowed, Option.isSome_some, forall_const, List.zip_map']
        exact between_map
    have hm0 := fun r' => (C57_zero_iff fform.getKeys fform.getM F (fun k m => dft (N k) (f k) m) r').1
    have hle : ∀ r', Allowed boundsDict l lo hi r' →
        √(misfit fform.getKeys fform.getM F (fun k m => dft (N k) (f k) m) r) ≤
          √(misfit fform.getKeys fform.getM F (fun k m => dft (N k) (f k) m) r') + ε := by
      intro r' hr'
      have := o3 (l.map r') ⟨by rw [c2]; simp, (hall r').2 hr'⟩
      rw [c1, c1, abs_of_nonneg (Real.sqrt_nonneg _), abs_of_nonneg (Real.sqrt_nonneg _)] at this
      exact this
    refine ⟨r, R, e2, (hall r).1 o2, hR, fun r' hr' => ⟨?_, ?_, fun he => ?_⟩⟩
    · rw [hsq]
      have := hm0 r'
      linarith
    · rw [hsq, hsq, add_sub_cancel_right, add_sub_cancel_right]
      exact hle r' hr'
    · rw [hsq, hsq]
      have := hle r' hr'
      rw [he, add_zero] at this
      have := (Real.sqrt_le_sqrt_iff (hm0 r')).1 this
      linarith

/-- C103 for `dual_annealing_fit_with_bounds`.  If the optimizer finds the least value up to `ε`, the reported parameters are
allowed, and no allowed parameters give a sum of squares of the deviations from the values that is smaller by more than `ε`. -/
theorem C103_dual_annealing (hd : dat.Reachable) (hc : fform.Reachable S) (hF : FormulaIs fform F)
    (hk : ∀ k ∈ fform.getKeys, k ∈ dat.getKeys)
    (hi' : ∀ k pts, dat.getPc k sRadians = .ok pts → 2 ≤ pts.length ∧ interp pts = .ok (f k) ∧ pts.length = N k)
    (hN : ∀ k ∈ fform.getKeys, 2 * fform.getM < N k) (hf : datToFdat interp dat fform.getM = .ok fdat)
    (hq : ∀ k m z, DRepresents fdat k m z → MachineNumber z) (chunk : Bool) (hne : chunk = true → fform.getKeys ≠ [])
    {opt : Optimizer DACall} (ho : AnnealsTo ε opt) (hl : fform.getFreeSymbols S = .ok l) (hl0 : l ≠ []) (save : Option Key)
    (hg : ∀ s ∈ l, Dict.get guess s = .ok (g s)) (hb : BoundsAre boundsDict l lo hi) (options : ℕ)
    (hr : (dualAnnealingFit S C opt fform fdat guess boundsDict options chunk save none st).1 = .ok res) :
    ∃ r, Reports res l r ∧ Allowed boundsDict l lo hi r ∧ ∀ r', Allowed boundsDict l lo hi r' →
      squares fform.getKeys fform.getM F N f r ≤ squares fform.getKeys fform.getM F N f r' + ε := by
  obtain ⟨hs, R, hR, hsq⟩ := measured_source hd hF hk hi' hN hf hq l chunk hne st.disk
  obtain ⟨call, c1, c2, c3, c4, c5⟩ := C60_dual_annealing S C opt hc hl hl0 hs save hg hb options
  have hnd := (getFreeSymbols_lists hc.good hl).2.1
  cases hx : opt call with
  | error e => rw [c5.2 e hx] at hr; cases hr
  | ok x =>
    obtain ⟨⟨o1, o2⟩, o3⟩ := ho call x hx
    obtain ⟨r, rfl⟩ := exists_map_eq hnd (x := x) (by rw [o1, c2]; simp)
    obtain ⟨res', e1, e2⟩ := c5.1 r hx
    rw [hr] at e1
    cases e1
    have hall : ∀ r', (∀ b, call.bounds = some b → Between b (l.map r')) ↔ Allowed boundsDict l lo hi r' := by
      intro r'
      rw [c3]
      cases boundsDict with
      | none => simp [Allowed]
      | some b =>
        simp only [Option.map_some, Option.some.injEq, forall_eq', Allowed, Option.isSome_some, forall_const]
        exact between_map
    refine ⟨r, e2, (hall r).1 o2, fun r' hr' => ?_⟩
    have := o3 (l.map r') ⟨by rw [c2]; simp, (hall r').2 hr'⟩
    rw [c1, c1] at this
    rw [hsq, hsq]
    linarith

/-- The part that all four fits with `basinhopping` have in common. -/
theorem hops_best {opt : Optimizer BHCall} (ho : HopsTo ε opt) (hnd : l.Nodup) {call : BHCall} {misfit' cost : (Sym → ℝ) → ℝ} {R : ℝ}
    (hv : ∀ r, bhValue call (l.map r) = misfit' r) (hsq : ∀ r, cost r = misfit' r + R) (hx0 : call.x0 = l.map g)
    (hb : Dict.get? call.minimizer sBounds = none ∧ boundsDict = none ∨
      Dict.get? call.minimizer sBounds = some (boundsOption l lo hi boundsDict))
    {out : Except Err OptResult} (hf : FitOutcome opt call l out) (hr : out = .ok res) :
    ∃ r, Reports res l r ∧ Allowed boundsDict l lo hi r ∧ ∀ r', Allowed boundsDict l lo hi r' → cost r ≤ cost r' + ε := by
  subst hr
  cases hx : opt call with
  | error e => cases hf.2 e hx
  | ok x =>
    obtain ⟨⟨o1, o2⟩, o3⟩ := ho call x hx
    obtain ⟨r, rfl⟩ := exists_map_eq hnd (x := x) (by rw [o1, hx0]; simp)
    obtain ⟨res', e1, e2⟩ := hf.1 r hx
    cases e1
    have hall : ∀ r', (∀ b, Dict.get? call.minimizer sBounds = some (.bounds b) → Between b (l.map r')) ↔
        Allowed boundsDict l lo hi r' := by
      intro r'
      rcases hb with ⟨hb, rfl⟩ | hb
      · rw [hb]; simp [Allowed]
      · rw [hb]
        unfold boundsOption Allowed
        cases boundsDict with
        | none => simp
        | some b =>
          simp only [Option.isSome_some, if_true, Option.some.injEq, OptVal.bounds.injEq, forall_eq', forall_const]
          exact between_map
    refine ⟨r, e2, (hall r).1 o2, fun r' hr' => ?_⟩
    have := o3 (l.map r') ⟨by rw [hx0]; simp, (hall r').2 hr'⟩
    rw [hv, hv] at this
    rw [hsq, hsq]
    linarith

/-- C103 for `basinhopping_fit`, when the options of the caller for the local minimizer do not have bounds. -/
theorem C103_basinhopping (hd : dat.Reachable) (hc : fform.Reachable S) (hF : FormulaIs fform F)
    (hk : ∀ k ∈ fform.getKeys, k ∈ dat.getKeys)
    (hi' : ∀ k pts, dat.getPc k sRadians = .ok pts → 2 ≤ pts.length ∧ interp pts = .ok (f k) ∧ pts.length = N k)
    (hN : ∀ k ∈ fform.getKeys, 2 * fform.getM < N k) (hf : datToFdat interp dat fform.getM = .ok fdat)
    (hq : ∀ k m z, DRepresents fdat k m z → MachineNumber z) (chunk : Bool) (hne : chunk = true → fform.getKeys ≠ [])
    {opt : Optimizer BHCall} (ho : HopsTo ε opt) (hl : fform.getFreeSymbols S = .ok l) (hl0 : l ≠ []) (save : Option Key)
    (hg : ∀ s ∈ l, Dict.get guess s = .ok (g s)) (niter method args : ℕ) (stepsize : ℝ) {user : Dict Key OptVal}
    (hu : UserOptions st.kwargs user) (hub : Dict.get? user sBounds = none)
    (hw : Without st.kwargs [sFunc, sX0, sNiter, sStepsize])
    (hr : (basinhoppingFit S C opt fform fdat guess niter method args stepsize chunk save none st).1 = .ok res) :
    ∃ r, Reports res l r ∧ ∀ r',
      squares fform.getKeys fform.getM F N f r ≤ squares fform.getKeys fform.getM F N f r' + ε := by
  obtain ⟨hs, R, hR, hsq⟩ := measured_source hd hF hk hi' hN hf hq l chunk hne st.disk
  obtain ⟨call, fn, c1, c2, c3, c5, _⟩ := C60_basinhopping S C opt hc hl hl0 hs save hg niter method args stepsize hu hw
  obtain ⟨r, h1, _, h2⟩ := hops_best (boundsDict := none) (lo := fun _ => 0) (hi := fun _ => 0) ho
    (getFreeSymbols_lists hc.good hl).2.1 (call := call)
    (fun r => by unfold bhValue; rw [c1]; exact c2 r) hsq c3.1 (.inl ⟨by rw [c3.2.2.2.1, hub]; rfl, rfl⟩) c5 hr
  exact ⟨r, h1, fun r' => h2 r' (by simp [Allowed])⟩

/-- C103 for `basinhopping_fit_with_bounds`. -/
theorem C103_basinhopping_with_bounds (hd : dat.Reachable) (hc : fform.Reachable S) (hF : FormulaIs fform F)
    (hk : ∀ k ∈ fform.getKeys, k ∈ dat.getKeys)
    (hi' : ∀ k pts, dat.getPc k sRadians = .ok pts → 2 ≤ pts.length ∧ interp pts = .ok (f k) ∧ pts.length = N k)
    (hN : ∀ k ∈ fform.getKeys, 2 * fform.getM < N k) (hf : datToFdat interp dat fform.getM = .ok fdat)
    (hq : ∀ k m z, DRepresents fdat k m z → MachineNumber z) (chunk : Bool) (hne : chunk = true → fform.getKeys ≠ [])
    {opt : Optimizer BHCall} (ho : HopsTo ε opt) (hl : fform.getFreeSymbols S = .ok l) (hl0 : l ≠ []) (save : Option Key)
    (hg : ∀ s ∈ l, Dict.get guess s = .ok (g s)) (hb : BoundsAre boundsDict l lo hi)
    (niter method args : ℕ) (stepsize : ℝ) {user : Dict Key OptVal}
    (hu : UserOptions st.kwargs user) (hub : Dict.get? user sBounds = none)
    (hw : Without st.kwargs [sFunc, sX0, sNiter, sStepsize])
    (hr : (basinhoppingFitWithBounds S C opt fform fdat guess boundsDict niter method args stepsize chunk save none st).1 =
      .ok res) :
    ∃ r, Reports res l r ∧ Allowed boundsDict l lo hi r ∧ ∀ r', Allowed boundsDict l lo hi r' →
      squares fform.getKeys fform.getM F N f r ≤ squares fform.getKeys fform.getM F N f r' + ε := by
  obtain ⟨hs, R, hR, hsq⟩ := measured_source hd hF hk hi' hN hf hq l chunk hne st.disk
  obtain ⟨call, fn, c1, c2, c3, c5, _⟩ := C60_basinhopping_with_bounds S C opt hc hl hl0 hs save hg hb niter method args stepsize hu hw
  exact hops_best ho (getFreeSymbols_lists hc.good hl).2.1 (call := call)
    (fun r => by unfold bhValue; rw [c1]; exact c2 r) hsq c3.1 (.inr (by rw [c3.2.2.2.1, hub]; rfl)) c5 hr

/-- The hypotheses on the data and the formula give the source of the cost function with its gradient. -/
theorem measured_grad_source (hd : dat.Reachable) (hF : FormulaIs fform F) (hreal : RealSymbols fform)
    (hk : ∀ k ∈ fform.getKeys, k ∈ dat.getKeys)
    (hi : ∀ k pts, dat.getPc k sRadians = .ok pts → 2 ≤ pts.length ∧ interp pts = .ok (f k) ∧ pts.length = N k)
    (hN : ∀ k ∈ fform.getKeys, 2 * fform.getM < N k) (hf : datToFdat interp dat fform.getM = .ok fdat)
    (hq : ∀ k m z, DRepresents fdat k m z → MachineNumber z) {r₁ r₂ : Sym → ℝ}
    (hne : squares fform.getKeys fform.getM F N f r₁ ≠ squares fform.getKeys fform.getM F N f r₂) (l : List Sym) (d : Disk) :
    GradSource fform fdat F (fun k m => dft (N k) (f k) m) l false none none d ∧
    ∃ R, 0 ≤ R ∧ ∀ r, squares fform.getKeys fform.getM F N f r =
      misfit fform.getKeys fform.getM F (fun k m => dft (N k) (f k) m) r + R := by
  obtain ⟨hs, R, hR, hsq⟩ := measured_source hd hF hk hi hN hf hq l false (by simp) d
  refine ⟨.inl ⟨.inl rfl, rfl, ?_⟩, R, hR, hsq⟩
  rcases hs with ⟨_, h1, h2, h3, _⟩ | ⟨_, _, _, h, _⟩
  · refine ⟨h1, hreal, h2, h3, r₁, r₂, fun h => hne ?_⟩
    rw [hsq, hsq, h]
  · cases h

/-- C103 for `basinhopping_fit_jac`, when the symbols are real and the deviation depends on the parameters. -/
theorem C103_basinhopping_jac (hd : dat.Reachable) (hc : fform.Reachable S) (hF : FormulaIs fform F) (hreal : RealSymbols fform)
    (hk : ∀ k ∈ fform.getKeys, k ∈ dat.getKeys)
    (hi' : ∀ k pts, dat.getPc k sRadians = .ok pts → 2 ≤ pts.length ∧ interp pts = .ok (f k) ∧ pts.length = N k)
    (hN : ∀ k ∈ fform.getKeys, 2 * fform.getM < N k) (hf : datToFdat interp dat fform.getM = .ok fdat)
    (hq : ∀ k m z, DRepresents fdat k m z → MachineNumber z) {r₁ r₂ : Sym → ℝ}
    (hne : squares fform.getKeys fform.getM F N f r₁ ≠ squares fform.getKeys fform.getM F N f r₂)
    {opt : Optimizer BHCall} (ho : HopsTo ε opt) (hl : fform.getFreeSymbols S = .ok l) (hl0 : l ≠ []) (save gradSave : Option Key)
    (hg : ∀ s ∈ l, Dict.get guess s = .ok (g s)) (niter method args : ℕ) (stepsize : ℝ) {user : Dict Key OptVal}
    (hu : UserOptions st.kwargs user) (hub : Dict.get? user sBounds = none)
    (hw : Without st.kwargs [sFunc, sX0, sNiter, sStepsize])
    (hr : (basinhoppingFitJac S C opt fform fdat guess niter method args stepsize false save gradSave none none st).1 = .ok res) :
    ∃ r, Reports res l r ∧ ∀ r',
      squares fform.getKeys fform.getM F N f r ≤ squares fform.getKeys fform.getM F N f r' + ε := by
  obtain ⟨hs, R, hR, hsq⟩ := measured_grad_source hd hF hreal hk hi' hN hf hq hne l st.disk
  obtain ⟨call, fn, c1, c2, c3, c5, _⟩ :=
    C60_basinhopping_jac S C opt hc hl hl0 hs save gradSave hg niter method args stepsize hu hw
  obtain ⟨r, h1, _, h2⟩ := hops_best (boundsDict := none) (lo := fun _ => 0) (hi := fun _ => 0) ho
    (getFreeSymbols_lists hc.good hl).2.1 (call := call)
    (fun r => by unfold bhValue; rw [c1]; exact (c2 r).1) hsq c3.1 (.inl ⟨by rw [c3.2.2.2.1, hub]; rfl, rfl⟩) c5 hr
  exact ⟨r, h1, fun r' => h2 r' (by simp [Allowed])⟩

/-- C103 for `basinhopping_fit_jac_with_bounds`. -/
theorem C103_basinhopping_jac_with_bounds (hd : dat.Reachable) (hc : fform.Reachable S) (hF : FormulaIs fform F)
    (hreal : RealSymbols fform) (hk : ∀ k ∈ fform.getKeys, k ∈ dat.getKeys)
    (hi' : ∀ k pts, dat.getPc k sRadians = .ok pts → 2 ≤ pts.length ∧ interp pts = .ok (f k) ∧ pts.length = N k)
    (hN : ∀ k ∈ fform.getKeys, 2 * fform.getM < N k) (hf : datToFdat interp dat fform.getM = .ok fdat)
    (hq : ∀ k m z, DRepresents fdat k m z → MachineNumber z) {r₁ r₂ : Sym → ℝ}
    (hne : squares fform.getKeys fform.getM F N f r₁ ≠ squares fform.getKeys fform.getM F N f r₂)
    {opt : Optimizer BHCall} (ho : HopsTo ε opt) (hl : fform.getFreeSymbols S = .ok l) (hl0 : l ≠ []) (save gradSave : Option Key)
    (hg : ∀ s ∈ l, Dict.get guess s = .ok (g s)) (hb : BoundsAre boundsDict l lo hi)
    (niter method args : ℕ) (stepsize : ℝ) {user : Dict Key OptVal}
    (hu : UserOptions st.kwargs user) (hub : Dict.get? user sBounds = none)
    (hw : Without st.kwargs [sFunc, sX0, sNiter, sStepsize])
    (hr : (basinhoppingFitJacWithBounds S C opt fform fdat guess boundsDict niter method args stepsize false save gradSave
      none none st).1 = .ok res) :
    ∃ r, Reports res l r ∧ Allowed boundsDict l lo hi r ∧ ∀ r', Allowed boundsDict l lo hi r' →
      squares fform.getKeys fform.getM F N f r ≤ squares fform.getKeys fform.getM F N f r' + ε := by
  obtain ⟨hs, R, hR, hsq⟩ := measured_grad_source hd hF hreal hk hi' hN hf hq hne l st.disk
  obtain ⟨call, fn, c1, c2, c3, c5, _⟩ :=
    C60_basinhopping_jac_with_bounds S C opt hc hl hl0 hs save gradSave hg hb niter method args stepsize hu hw
  exact hops_best ho (getFreeSymbols_lists hc.good hl).2.1 (call := call)
    (fun r => by unfold bhValue; rw [c1]; exact (c2 r).1) hsq c3.1 (.inr (by rw [c3.2.2.2.1, hub]; rfl)) c5 hr

/-- C103.  The curve drawn with `fform_to_dat` for reported parameters has at each of its angles the real part of the pattern of
which `squares` is the deviation from the values. -/
theorem C103_curve (hc : fform.Reachable S) (hn : Symbolic fform) (hM : fform.getM = 16) (hF : FormulaIs fform F)
    {subs : Dict Sym Expr} {r : Sym → ℝ} (hv : Values fform subs r) {n : ℕ} (h1 : 1 ≤ n) :
    ∃ fit, fformToDat S fform subs n = .ok (fit, []) ∧ fit.getKeys = fform.getKeys ∧ ∀ k ∈ fform.getKeys,
      fit.getPc k sRadians = .ok (sampled n (fun x => (pattern 16 (fun m => F k m (realVal r)) x).re)) := by
  obtain ⟨c, h1', hcr, hck, h3, h2⟩ := C29_values S hc hn hM hv.numeric hv.covers
  obtain ⟨fit, k1, k2, k3⟩ := C20_inverse_sampling hcr h1
  refine ⟨fit, ?_, k2.trans hck, fun k hk => ?_⟩
  · unfold fformToDat
    rw [h1']
    exact k1
  · have hM' : (fform.getM : ℤ) = (16 : ℕ) := by rw [hM]
    obtain ⟨v, e1, _⟩ := h2 _ hv.agrees k 0 _ (hF k hk 0 (by omega) (by omega))
    rw [k3 k v e1, h3]
    congr 2
    funext x
    rw [series_pattern (c := fun m => F k m (realVal r))]
    intro m hm1 hm2
    obtain ⟨v', e3, e4⟩ := h2 _ hv.agrees k m _ (hF k hk m (by omega) (by omega))
    rw [e1] at e3
    cases e3
    exact e4

end

/-! ## A concrete case -/

open Classical in
/-- An optimizer that returns a point with the least residual, if there is one. -/
noncomputable def exactLeastSquares : Optimizer LSCall := fun call =>
  let allowed := fun y : List ℝ => y.length = call.x0.length ∧ ∀ b, call.bounds = some b → Between (b.1.zip b.2) y
  if h : ∃ x, allowed x ∧ ∀ y, allowed y → |call.func x| ≤ |call.func y| then .ok h.choose else .error .valueError

theorem exactLeastSquares_spec : LeastSquaresTo 0 exactLeastSquares := by
  intro call x hx
  unfold exactLeastSquares at hx
  dsimp only at hx
  split_ifs at hx with h
  cases hx
  simpa using h.choose_spec

open Classical in
/-- An optimizer that returns a point with the least value, if there is one. -/
noncomputable def exactAnnealing : Optimizer DACall := fun call =>
  let allowed := fun y : List ℝ => y.length = call.x0.length ∧ ∀ b, call.bounds = some b → Between b y
  if h : ∃ x, allowed x ∧ ∀ y, allowed y → call.func x ≤ call.func y then .ok h.choose else .error .valueError

theorem exactAnnealing_spec : AnnealsTo 0 exactAnnealing := by
  intro call x hx
  unfold exactAnnealing at hx
  dsimp only at hx
  split_ifs at hx with h
  cases hx
  simpa using h.choose_spec

open Classical in
/-- The same for `basinhopping`. -/
noncomputable def exactHopping : Optimizer BHCall := fun call =>
  let allowed := fun y : List ℝ => y.length = call.x0.length ∧ ∀ b, Dict.get? call.minimizer sBounds = some (.bounds b) → Between b y
  if h : ∃ x, allowed x ∧ ∀ y, allowed y → bhValue call x ≤ bhValue call y then .ok h.choose else .error .valueError

theorem exactHopping_spec : HopsTo 0 exactHopping := by
  intro call x hx
  unfold exactHopping at hx
  dsimp only at hx
  split_ifs at hx with h
  cases hx
  simpa using h.choose_spec

theorem exactHopping_ok {call : BHCall} (h : ∃ x : List ℝ, (x.length = call.x0.length ∧
    ∀ b, Dict.get? call.minimizer sBounds = some (.bounds b) → Between b x) ∧
    ∀ y : List ℝ, y.length = call.x0.length → bhValue call x ≤ bhValue call y) : ∃ x, exactHopping call = .ok x := by
  obtain ⟨x, h1, h2⟩ := h
  unfold exactHopping
  dsimp only
  rw [dif_pos ⟨x, h1, fun y hy => h2 y hy.1⟩]
  exact ⟨_, rfl⟩

namespace FitCases

/-- The parameters for which the formula `b, a, b` gives the pulse. -/
noncomputable def quarter : Sym → ℝ := fun _ => 1 / 4

theorem pulse_fdat : ∃ fdat, datToFdat pulseInterp pulse formula.getM = .ok fdat ∧
    ∀ k m z, DRepresents fdat k m z → MachineNumber z := by
  obtain ⟨fdat, h1, h2, h3, h4, h5⟩ := C89_transform (interp := pulseInterp) (f := fun _ x => if x = 0 then 1 else 0)
    pulse_reachable formula.getM (fun k pts h => ⟨(pulse_interp k pts h).1, (pulse_interp k pts h).2.1⟩)
  refine ⟨fdat, h1, ?_⟩
  rintro k m z ⟨v, e1, e2⟩
  have hk : k ∈ pulse.getKeys := by
    rw [← h3]; exact Dict.mem_keys_of_mem (Dict.mem_of_get? (Dict.get_ok_iff.1 e1))
  have hk' : k = kPP := by simpa [pulse, DataContainer.getKeys, Dict.keys] using hk
  subst hk'
  rw [h4] at e2
  obtain ⟨v', e3, e4⟩ := h5 kPP _ rfl m e2.1.1 e2.1.2
  rw [e1] at e3; cases e3
  rw [h4] at e4
  have := Option.some.inj (e2.2.symm.trans e4.2)
  rw [this]
  have h4' : (sampled 4 (fun x => if x = 0 then (1 : ℝ) else 0)).length = 4 := by simp [sampled]
  rw [h4', dft_pulse]
  exact ⟨1 / 4, 0, by push_cast; ring⟩

theorem pulse_keys : ∀ k ∈ formula.getKeys, k ∈ pulse.getKeys := by
  intro k hk
  have : k = kPP := by simpa [formula, FFormContainer.getKeys, Dict.keys] using hk
  rw [this]; simp [pulse, DataContainer.getKeys, Dict.keys]

theorem misfit_quarter : misfit formula.getKeys formula.getM F (fun _ m => dft 4 (fun x => if x = 0 then 1 else 0) m) quarter = 0 := by
  rw [(C57_zero_iff _ _ _ _ _).2]
  intro k _ m _ _
  rw [dft_pulse]
  unfold F
  split_ifs <;> simp [realVal, quarter]

/-- The hypotheses of `C103_least_squares` are met, with bounds and with success: the pulse, and both parameters between 0 and 1. -/
example : ∃ fdat res r, datToFdat pulseInterp pulse 1 = .ok fdat ∧
    (leastSquaresFit Sympy.plain compiler exactLeastSquares formula fdat [(symA, 0), (symB, 0)]
      (some [(symA, (0, 1)), (symB, (0, 1))]) false none none ⟨noFiles, []⟩).1 = .ok res ∧ Reports res [symA, symB] r ∧
    ∀ r', Allowed (some [(symA, (0, 1)), (symB, (0, 1))]) [symA, symB] (fun _ => 0) (fun _ => 1) r' →
      squares formula.getKeys 1 F (fun _ => 4) (fun _ x => if x = 0 then 1 else 0) r ≤
        squares formula.getKeys 1 F (fun _ => 4) (fun _ x => if x = 0 then 1 else 0) r' := by
  obtain ⟨fdat, h1, hq⟩ := pulse_fdat
  have hg : ∀ s ∈ [symA, symB], Dict.get [(symA, (0 : ℝ)), (symB, 0)] s = .ok ((fun _ => 0 : Sym → ℝ) s) := by
    intro s hs
    rcases List.mem_cons.1 hs with rfl | hs
    · rfl
    · rw [List.mem_singleton.1 hs]; rfl
  have hb : BoundsAre (some [(symA, ((0 : ℝ), (1 : ℝ))), (symB, (0, 1))]) [symA, symB] (fun _ => 0) (fun _ => 1) := by
    intro b hb s hs
    cases hb
    rcases List.mem_cons.1 hs with rfl | hs
    · rfl
    · rw [List.mem_singleton.1 hs]; rfl
  have hw : Without ([] : Kwargs) ([sFun, sX0] ++ if (some [(symA, ((0 : ℝ), (1 : ℝ))), (symB, (0, 1))]).isSome then [sBounds] else []) :=
    fun _ _ h => by cases h
  obtain ⟨hs, _⟩ := measured_source (f := fun _ x => if x = 0 then 1 else 0) (N := fun _ => 4) pulse_reachable formulaIs pulse_keys
    pulse_interp (fun k _ => by decide) h1 hq [symA, symB] false (by simp) noFiles
  obtain ⟨call, c1, c2, c3, c4, c5⟩ := C60_least_squares Sympy.plain compiler exactLeastSquares (st := ⟨noFiles, []⟩) formula_reachable
    free_symbols (by simp) hs none hg hb hw
  have hx : ∃ x, exactLeastSquares call = .ok x := by
    unfold exactLeastSquares
    dsimp only
    rw [dif_pos]
    · exact ⟨_, rfl⟩
    · refine ⟨[symA, symB].map quarter, ⟨by rw [c2]; simp, fun b hb' => ?_⟩, fun y _ => ?_⟩
      · rw [c3] at hb'
        cases hb'
        rw [List.zip_map', between_map]
        intro s _
        unfold quarter
        norm_num
      · rw [c1, misfit_quarter]
        simp
  obtain ⟨x, hx⟩ := hx
  obtain ⟨⟨o1, _⟩, _⟩ := exactLeastSquares_spec call x hx
  obtain ⟨r₀, rfl⟩ := exists_map_eq (l := [symA, symB]) (by decide) (x := x) (by rw [o1, c2]; simp)
  obtain ⟨res, e1, _⟩ := c5.1 r₀ hx
  obtain ⟨r, R, g1, g2, g3, g4⟩ := C103_least_squares Sympy.plain compiler pulse_reachable formula_reachable formulaIs pulse_keys
    pulse_interp (fun k _ => by decide) h1 hq false (by simp) exactLeastSquares_spec free_symbols (by simp) none hg hb hw e1
  exact ⟨fdat, res, r, h1, e1, g1, fun r' hr' => (g4 r' hr').2.2 rfl⟩

/-- The hypotheses of `C103_dual_annealing` are met, with success. -/
example : ∃ fdat res r, datToFdat pulseInterp pulse 1 = .ok fdat ∧
    (dualAnnealingFit Sympy.plain compiler exactAnnealing formula fdat [(symA, 0), (symB, 0)]
      (some [(symA, (0, 1)), (symB, (0, 1))]) 0 false none none ⟨noFiles, []⟩).1 = .ok res ∧ Reports res [symA, symB] r ∧
    ∀ r', Allowed (some [(symA, (0, 1)), (symB, (0, 1))]) [symA, symB] (fun _ => 0) (fun _ => 1) r' →
      squares formula.getKeys 1 F (fun _ => 4) (fun _ x => if x = 0 then 1 else 0) r ≤
        squares formula.getKeys 1 F (fun _ => 4) (fun _ x => if x = 0 then 1 else 0) r' := by
  obtain ⟨fdat, h1, hq⟩ := pulse_fdat
  have hg : ∀ s ∈ [symA, symB], Dict.get [(symA, (0 : ℝ)), (symB, 0)] s = .ok ((fun _ => 0 : Sym → ℝ) s) := by
    intro s hs
    rcases List.mem_cons.1 hs with rfl | hs
    · rfl
    · rw [List.mem_singleton.1 hs]; rfl
  have hb : BoundsAre (some [(symA, ((0 : ℝ), (1 : ℝ))), (symB, (0, 1))]) [symA, symB] (fun _ => 0) (fun _ => 1) := by
    intro b hb s hs
    cases hb
    rcases List.mem_cons.1 hs with rfl | hs
    · rfl
    · rw [List.mem_singleton.1 hs]; rfl
  obtain ⟨hs, _⟩ := measured_source (f := fun _ x => if x = 0 then 1 else 0) (N := fun _ => 4) pulse_reachable formulaIs pulse_keys
    pulse_interp (fun k _ => by decide) h1 hq [symA, symB] false (by simp) noFiles
  obtain ⟨call, c1, c2, c3, c4, c5⟩ := C60_dual_annealing Sympy.plain compiler exactAnnealing (st := ⟨noFiles, []⟩) formula_reachable
    free_symbols (by simp) hs none hg hb 0
  have hx : ∃ x, exactAnnealing call = .ok x := by
    unfold exactAnnealing
    dsimp only
    rw [dif_pos]
    · exact ⟨_, rfl⟩
    · refine ⟨[symA, symB].map quarter, ⟨by rw [c2]; simp, fun b hb' => ?_⟩, fun y hy => ?_⟩
      · rw [c3] at hb'
        cases hb'
        rw [between_map]
        intro s _
        unfold quarter
        norm_num
      · obtain ⟨ry, rfl⟩ := exists_map_eq (l := [symA, symB]) (by decide) (x := y) (by rw [hy.1, c2]; simp)
        rw [c1, c1, misfit_quarter]
        exact (C57_zero_iff _ _ _ _ _).1
  obtain ⟨x, hx⟩ := hx
  obtain ⟨⟨o1, _⟩, _⟩ := exactAnnealing_spec call x hx
  obtain ⟨r₀, rfl⟩ := exists_map_eq (l := [symA, symB]) (by decide) (x := x) (by rw [o1, c2]; simp)
  obtain ⟨res, e1, _⟩ := c5.1 r₀ hx
  obtain ⟨r, g1, g2, g4⟩ := C103_dual_annealing Sympy.plain compiler pulse_reachable formula_reachable formulaIs pulse_keys
    pulse_interp (fun k _ => by decide) h1 hq false (by simp) exactAnnealing_spec free_symbols (by simp) none hg hb 0 e1
  exact ⟨fdat, res, r, h1, e1, g1, fun r' hr' => (g4 r' hr').trans (add_zero _).le⟩

theorem zero_guess : ∀ s ∈ [symA, symB], Dict.get [(symA, (0 : ℝ)), (symB, 0)] s = .ok ((fun _ => 0 : Sym → ℝ) s) := by
  intro s hs
  rcases List.mem_cons.1 hs with rfl | hs
  · rfl
  · rw [List.mem_singleton.1 hs]; rfl

theorem unit_bounds :
    BoundsAre (some [(symA, ((0 : ℝ), (1 : ℝ))), (symB, (0, 1))]) [symA, symB] (fun _ => 0) (fun _ => 1) := by
  intro b hb s hs
  cases hb
  rcases List.mem_cons.1 hs with rfl | hs
  · rfl
  · rw [List.mem_singleton.1 hs]; rfl

theorem no_options : UserOptions ([] : Kwargs) [] := ⟨by simp [Dict.WF], .inr ⟨by simp [Dict.keys], rfl⟩⟩

theorem without_options (q : List Key) : Without ([] : Kwargs) q := fun _ _ h => by cases h

/-- The deviation depends on the parameters. -/
theorem pulse_squares_vary (fdat : FDataContainer) (h1 : datToFdat pulseInterp pulse formula.getM = .ok fdat)
    (hq : ∀ k m z, DRepresents fdat k m z → MachineNumber z) :
    squares formula.getKeys formula.getM F (fun _ => 4) (fun _ x => if x = 0 then 1 else 0) quarter ≠
      squares formula.getKeys formula.getM F (fun _ => 4) (fun _ x => if x = 0 then 1 else 0) (fun _ => 0) := by
  obtain ⟨_, R, hR, hsq⟩ := measured_source (f := fun _ x => if x = 0 then 1 else 0) (N := fun _ => 4) pulse_reachable formulaIs
    pulse_keys pulse_interp (fun k _ => by decide) h1 hq [symA, symB] false (by simp) noFiles
  rw [hsq, hsq, misfit_quarter]
  intro h
  have h0 : misfit formula.getKeys formula.getM F (fun _ m => dft 4 (fun x => if x = 0 then 1 else 0) m) (fun _ => 0) = 0 := by
    linarith
  have := ((C57_zero_iff _ _ _ _ _).2.1 h0) kPP (by simp [formula, FFormContainer.getKeys, Dict.keys]) 0 (by omega) (by omega)
  rw [dft_pulse] at this
  simp [F, realVal] at this

/-- The optimizer finds the parameters of the pulse. -/
theorem hopping_finds {call : BHCall} {D : Key → ℤ → ℂ} (hD : D = fun _ m => dft 4 (fun x => if x = 0 then 1 else 0) m)
    (hv : ∀ r, bhValue call ([symA, symB].map r) = misfit formula.getKeys formula.getM F D r)
    (hx0 : call.x0 = [symA, symB].map (fun _ => (0 : ℝ)))
    (hb : ∀ b, Dict.get? call.minimizer sBounds = some (.bounds b) → b = [symA, symB].map (fun _ => (0, 1))) {out : Except Err OptResult}
    (hf : FitOutcome exactHopping call [symA, symB] out) : ∃ res, out = .ok res := by
  subst hD
  obtain ⟨x, hx⟩ : ∃ x, exactHopping call = .ok x := by
    apply exactHopping_ok
    refine ⟨[symA, symB].map quarter, ⟨by rw [hx0]; simp, fun b hb' => ?_⟩, fun y hy => ?_⟩
    · rw [hb b hb']
      rw [show ([symA, symB].map (fun _ => ((0 : ℝ), (1 : ℝ)))) = [symA, symB].map (fun s => ((fun _ => 0 : Sym → ℝ) s, (fun _ => 1 : Sym → ℝ) s))
        from rfl, between_map]
      intro s _
      unfold quarter
      norm_num
    · obtain ⟨ry, rfl⟩ := exists_map_eq (l := [symA, symB]) (by decide) (x := y) (by rw [hy, hx0]; simp)
      rw [hv, hv, misfit_quarter]
      exact (C57_zero_iff _ _ _ _ _).1
  obtain ⟨⟨o1, _⟩, _⟩ := exactHopping_spec call x hx
  obtain ⟨r₀, rfl⟩ := exists_map_eq (l := [symA, symB]) (by decide) (x := x) (by rw [o1, hx0]; simp)
  obtain ⟨res, e1, _⟩ := hf.1 r₀ hx
  exact ⟨res, e1⟩

/-- The hypotheses of `C103_basinhopping` are met, with success. -/
example : ∃ fdat res r, datToFdat pulseInterp pulse 1 = .ok fdat ∧
    (basinhoppingFit Sympy.plain compiler exactHopping formula fdat [(symA, 0), (symB, 0)] 10 0 0 1 false none none
      ⟨noFiles, []⟩).1 = .ok res ∧ Reports res [symA, symB] r ∧
    ∀ r', squares formula.getKeys 1 F (fun _ => 4) (fun _ x => if x = 0 then 1 else 0) r ≤
        squares formula.getKeys 1 F (fun _ => 4) (fun _ x => if x = 0 then 1 else 0) r' := by
  obtain ⟨fdat, h1, hq⟩ := pulse_fdat
  obtain ⟨hs, _⟩ := measured_source (f := fun _ x => if x = 0 then 1 else 0) (N := fun _ => 4) pulse_reachable formulaIs pulse_keys
    pulse_interp (fun k _ => by decide) h1 hq [symA, symB] false (by simp) noFiles
  obtain ⟨call, fn, c0, c1, c2, c5, _⟩ := C60_basinhopping Sympy.plain compiler exactHopping (st := ⟨noFiles, []⟩) formula_reachable
    free_symbols (by simp) hs none zero_guess 10 0 0 1 no_options (without_options _)
  obtain ⟨res, e1⟩ := hopping_finds rfl (fun r => by unfold bhValue; rw [c0]; exact c1 r) c2.1
    (fun b hb => by rw [c2.2.2.2.1] at hb; cases hb) c5
  obtain ⟨r, g1, g4⟩ := C103_basinhopping Sympy.plain compiler pulse_reachable formula_reachable formulaIs pulse_keys
    pulse_interp (fun k _ => by decide) h1 hq false (by simp) exactHopping_spec free_symbols (by simp) none zero_guess 10 0 0 1
    no_options rfl (without_options _) e1
  exact ⟨fdat, res, r, h1, e1, g1, fun r' => (g4 r').trans (add_zero _).le⟩

/-- The hypotheses of `C103_basinhopping_with_bounds` are met, with success. -/
example : ∃ fdat res r, datToFdat pulseInterp pulse 1 = .ok fdat ∧
    (basinhoppingFitWithBounds Sympy.plain compiler exactHopping formula fdat [(symA, 0), (symB, 0)]
      (some [(symA, (0, 1)), (symB, (0, 1))]) 10 0 0 1 false none none ⟨noFiles, []⟩).1 = .ok res ∧ Reports res [symA, symB] r ∧
    ∀ r', Allowed (some [(symA, (0, 1)), (symB, (0, 1))]) [symA, symB] (fun _ => 0) (fun _ => 1) r' →
      squares formula.getKeys 1 F (fun _ => 4) (fun _ x => if x = 0 then 1 else 0) r ≤
        squares formula.getKeys 1 F (fun _ => 4) (fun _ x => if x = 0 then 1 else 0) r' := by
  obtain ⟨fdat, h1, hq⟩ := pulse_fdat
  obtain ⟨hs, _⟩ := measured_source (f := fun _ x => if x = 0 then 1 else 0) (N := fun _ => 4) pulse_reachable formulaIs pulse_keys
    pulse_interp (fun k _ => by decide) h1 hq [symA, symB] false (by simp) noFiles
  obtain ⟨call, fn, c0, c1, c2, c5, _⟩ := C60_basinhopping_with_bounds Sympy.plain compiler exactHopping (st := ⟨noFiles, []⟩)
    formula_reachable free_symbols (by simp) hs none zero_guess unit_bounds 10 0 0 1 no_options (without_options _)
  obtain ⟨res, e1⟩ := hopping_finds rfl (fun r => by unfold bhValue; rw [c0]; exact c1 r) c2.1
    (fun b hb => by rw [c2.2.2.2.1] at hb; cases hb; rfl) c5
  obtain ⟨r, g1, _, g4⟩ := C103_basinhopping_with_bounds Sympy.plain compiler pulse_reachable formula_reachable formulaIs pulse_keys
    pulse_interp (fun k _ => by decide) h1 hq false (by simp) exactHopping_spec free_symbols (by simp) none zero_guess unit_bounds
    10 0 0 1 no_options rfl (without_options _) e1
  exact ⟨fdat, res, r, h1, e1, g1, fun r' hr' => (g4 r' hr').trans (add_zero _).le⟩

/-- The hypotheses of `C103_basinhopping_jac` are met, with success. -/
example : ∃ fdat res r, datToFdat pulseInterp pulse 1 = .ok fdat ∧
    (basinhoppingFitJac Sympy.plain compiler exactHopping formula fdat [(symA, 0), (symB, 0)] 10 0 0 1 false none none none none
      ⟨noFiles, []⟩).1 = .ok res ∧ Reports res [symA, symB] r ∧
    ∀ r', squares formula.getKeys 1 F (fun _ => 4) (fun _ x => if x = 0 then 1 else 0) r ≤
        squares formula.getKeys 1 F (fun _ => 4) (fun _ x => if x = 0 then 1 else 0) r' := by
  obtain ⟨fdat, h1, hq⟩ := pulse_fdat
  have hne := pulse_squares_vary fdat h1 hq
  obtain ⟨hs, _⟩ := measured_grad_source (f := fun _ x => if x = 0 then 1 else 0) (N := fun _ => 4) pulse_reachable formulaIs
    real_symbols pulse_keys pulse_interp (fun k _ => by decide) h1 hq hne [symA, symB] noFiles
  obtain ⟨call, fn, c0, c1, c2, c5, _⟩ := C60_basinhopping_jac Sympy.plain compiler exactHopping (st := ⟨noFiles, []⟩)
    formula_reachable free_symbols (by simp) hs none none zero_guess 10 0 0 1 no_options (without_options _)
  obtain ⟨res, e1⟩ := hopping_finds rfl (fun r => by unfold bhValue; rw [c0]; exact (c1 r).1) c2.1
    (fun b hb => by rw [c2.2.2.2.1] at hb; cases hb) c5
  obtain ⟨r, g1, g4⟩ := C103_basinhopping_jac Sympy.plain compiler pulse_reachable formula_reachable formulaIs real_symbols pulse_keys
    pulse_interp (fun k _ => by decide) h1 hq hne exactHopping_spec free_symbols (by simp) none none zero_guess 10 0 0 1
    no_options rfl (without_options _) e1
  exact ⟨fdat, res, r, h1, e1, g1, fun r' => (g4 r').trans (add_zero _).le⟩

/-- The hypotheses of `C103_basinhopping_jac_with_bounds` are met, with success. -/
example : ∃ fdat res r, datToFdat pulseInterp pulse 1 = .ok fdat ∧
    (basinhoppingFitJacWithBounds Sympy.plain compiler exactHopping formula fdat [(symA, 0), (symB, 0)]
      (some [(symA, (0, 1)), (symB, (0, 1))]) 10 0 0 1 false none none none none ⟨noFiles, []⟩).1 = .ok res ∧
    Reports res [symA, symB] r ∧
    ∀ r', Allowed (some [(symA, (0, 1)), (symB, (0, 1))]) [symA, symB] (fun _ => 0) (fun _ => 1) r' →
      squares formula.getKeys 1 F (fun _ => 4) (fun _ x => if x = 0 then 1 else 0) r ≤
        squares formula.getKeys 1 F (fun _ => 4) (fun _ x => if x = 0 then 1 else 0) r' := by
  obtain ⟨fdat, h1, hq⟩ := pulse_fdat
  have hne := pulse_squares_vary fdat h1 hq
  obtain ⟨hs, _⟩ := measured_grad_source (f := fun _ x => if x = 0 then 1 else 0) (N := fun _ => 4) pulse_reachable formulaIs
    real_symbols pulse_keys pulse_interp (fun k _ => by decide) h1 hq hne [symA, symB] noFiles
  obtain ⟨call, fn, c0, c1, c2, c5, _⟩ := C60_basinhopping_jac_with_bounds Sympy.plain compiler exactHopping (st := ⟨noFiles, []⟩)
    formula_reachable free_symbols (by simp) hs none none zero_guess unit_bounds 10 0 0 1 no_options (without_options _)
  obtain ⟨res, e1⟩ := hopping_finds rfl (fun r => by unfold bhValue; rw [c0]; exact (c1 r).1) c2.1
    (fun b hb => by rw [c2.2.2.2.1] at hb; cases hb; rfl) c5
  obtain ⟨r, g1, _, g4⟩ := C103_basinhopping_jac_with_bounds Sympy.plain compiler pulse_reachable formula_reachable formulaIs
    real_symbols pulse_keys pulse_interp (fun k _ => by decide) h1 hq hne exactHopping_spec free_symbols (by simp) none none zero_guess
    unit_bounds 10 0 0 1 no_options rfl (without_options _) e1
  exact ⟨fdat, res, r, h1, e1, g1, fun r' hr' => (g4 r' hr').trans (add_zero _).le⟩

/-- The hypotheses of `C103_curve` are met. -/
example : ∃ fit, fformToDat Sympy.plain SimCase.wide SimCase.truthDict 100 = .ok (fit, []) ∧
    fit.getPc kPP sRadians = .ok (sampled 100 (fun x =>
      (pattern 16 (fun m => SimCase.wideF kPP m (realVal SimCase.truth)) x).re)) := by
  obtain ⟨fit, h1, _, h2⟩ := C103_curve Sympy.plain SimCase.wide_reachable SimCase.wide_symbolic rfl SimCase.wideIs
    SimCase.truth_values (n := 100) (by norm_num)
  exact ⟨fit, h1, h2 kPP (by simp [SimCase.wide, FFormContainer.getKeys, Dict.keys])⟩

end FitCases

end Shgpy
