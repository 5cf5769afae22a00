import Verif.Props.FitCurve
import Mathlib.Topology.Algebra.Monoid
import Mathlib.Topology.Order.Compact

/-!
# Fits with bounds have a best solution: C111
-/

set_option linter.unusedSectionVars false

namespace Shgpy
open Spec

/-! ## Values are continuous functions of the parameters -/

mutual
theorem continuous_eval : ∀ e : Expr, Continuous (fun r : Sym → ℝ => e.eval (realVal r))
  | .num q => by simp only [Expr.eval]; exact continuous_const
  | .I => by simp only [Expr.eval]; exact continuous_const
  | .sym s => by simp only [Expr.eval, realVal]; exact Complex.continuous_ofReal.comp (continuous_apply s)
  | .add l => by simp only [Expr.eval]; exact continuous_evalSum l
  | .mul l => by simp only [Expr.eval]; exact continuous_evalProd l
  | .pow b n => by simp only [Expr.eval]; exact (continuous_eval b).pow n
  | .cos e => by simp only [Expr.eval]; exact Complex.continuous_cos.comp (continuous_eval e)
  | .sin e => by simp only [Expr.eval]; exact Complex.continuous_sin.comp (continuous_eval e)
theorem continuous_evalSum : ∀ l : List Expr, Continuous (fun r : Sym → ℝ => Expr.evalSum (realVal r) l)
  | [] => by simp only [Expr.evalSum]; exact continuous_const
  | e :: l => by simp only [Expr.evalSum]; exact (continuous_eval e).add (continuous_evalSum l)
theorem continuous_evalProd : ∀ l : List Expr, Continuous (fun r : Sym → ℝ => Expr.evalProd (realVal r) l)
  | [] => by simp only [Expr.evalProd]; exact continuous_const
  | e :: l => by simp only [Expr.evalProd]; exact (continuous_eval e).mul (continuous_evalProd l)
end

theorem continuous_component {c : FFormContainer} {F : Key → ℤ → Valuation → ℂ} (hF : FormulaIs c F) {k : Key} (hk : k ∈ c.getKeys)
    {m : ℤ} (h1 : -(c.getM : ℤ) ≤ m) (h2 : m ≤ c.getM) : Continuous (fun r : Sym → ℝ => F k m (realVal r)) := by
  obtain ⟨a, o, _, _, h⟩ := hF k hk m h1 h2
  simp only [← h]
  cases o with
  | native re im => simp only [objValue]; exact continuous_const
  | sy e => exact continuous_eval e

theorem continuous_misfit {c : FFormContainer} {F : Key → ℤ → Valuation → ℂ} (hF : FormulaIs c F) (D : Key → ℤ → ℂ) :
    Continuous (misfit c.getKeys c.getM F D) := by
  unfold misfit
  have : ∀ keys : List Key, (∀ k ∈ keys, k ∈ c.getKeys) → Continuous (fun r : Sym → ℝ =>
      (keys.map (fun k => ∑ m ∈ Finset.Icc (-(c.getM : ℤ)) c.getM, ‖F k m (realVal r) - D k m‖ ^ 2)).sum) := by
    intro keys hk
    induction keys with
    | nil => simpa using continuous_const
    | cons k keys ih =>
      simp only [List.map_cons, List.sum_cons]
      refine Continuous.add (continuous_finsetSum _ (fun m hm => ?_)) (ih (fun k' hk' => hk k' (List.mem_cons_of_mem _ hk')))
      rw [Finset.mem_Icc] at hm
      exact (((continuous_component hF (hk k List.mem_cons_self) hm.1 hm.2).sub continuous_const).norm).pow 2
  exact this _ (fun _ h => h)

/-- A continuous function of finitely many parameters has a least value between bounds. -/
theorem exists_best {g : (Sym → ℝ) → ℝ} (hg : Continuous g) {l : List Sym} (hdep : ∀ r r', l.map r = l.map r' → g r = g r')
    {lo hi : Sym → ℝ} (hlh : ∀ s ∈ l, lo s ≤ hi s) :
    ∃ r, (∀ s ∈ l, lo s ≤ r s ∧ r s ≤ hi s) ∧ ∀ r', (∀ s ∈ l, lo s ≤ r' s ∧ r' s ≤ hi s) → g r ≤ g r' := by
  classical
  let K : Set (Sym → ℝ) := Set.univ.pi (fun s => if s ∈ l then Set.Icc (lo s) (hi s) else {0})
  have hK : IsCompact K := isCompact_univ_pi (fun s => by
    split_ifs
    · exact isCompact_Icc
    · exact isCompact_singleton)
  have hne : K.Nonempty := by
    refine ⟨fun s => if s ∈ l then lo s else 0, fun s _ => ?_⟩
    dsimp only
    split_ifs with h
    · exact ⟨le_rfl, hlh s h⟩
    · rfl
  obtain ⟨r, hr, hmin⟩ := hK.exists_isMinOn hne hg.continuousOn
  refine ⟨r, fun s hs => ?_, fun r' hr' => ?_⟩
  · have := hr s (Set.mem_univ s)
    dsimp only at this
    rw [if_pos hs] at this
    exact this
  · have hm : (fun s => if s ∈ l then r' s else 0) ∈ K := by
      intro s _
      dsimp only
      split_ifs with h
      · exact hr' s h
      · rfl
    have h1 := hmin hm
    have h2 : g (fun s => if s ∈ l then r' s else 0) = g r' :=
      hdep _ _ (List.map_congr_left (fun s hs => by simp [hs]))
    simpa [h2] using h1

section
variable (S : Sympy) (C : Compiler) {fform : FFormContainer} {F : Key → ℤ → Valuation → ℂ} {D : Key → ℤ → ℂ} {fdat : FDataContainer}
  {l : List Sym} {lo hi : Sym → ℝ}

/-- C111.  Between bounds there are parameters for which the cost function is least. -/
theorem C111_bounded (d : Disk) (hc : fform.Reachable S) {arguments : Option (List Sym)} (hl : ArgumentOrder S fform arguments l)
    (hM : fdat.getM = fform.getM) (hD : DataIs fform fdat D) (chunk : Bool) (hne : chunk = true → fform.getKeys ≠ [])
    (save : Option Key) (hlh : ∀ s ∈ l, lo s ≤ hi s) :
    ∃ cost d', genCostFunc S C d fform fdat arguments chunk save = .ok (cost, d') ∧
      ∃ r : Sym → ℝ, (∀ s ∈ l, lo s ≤ r s ∧ r s ≤ hi s) ∧
        ∀ r' : Sym → ℝ, (∀ s ∈ l, lo s ≤ r' s ∧ r' s ≤ hi s) → cost (l.map r) ≤ cost (l.map r') := by
  obtain ⟨F, hF⟩ := formulaIs_exists S hc
  obtain ⟨cost, d', h1, h2⟩ := C57_cost S C d hc hl hM hF hD chunk hne save
  refine ⟨cost, d', h1, ?_⟩
  obtain ⟨r, g1, g2⟩ := exists_best (continuous_misfit hF D) (l := l) (fun r r' h => by rw [← h2, ← h2, h]) hlh
  exact ⟨r, g1, fun r' hr' => by rw [h2, h2]; exact g2 r' hr'⟩

/-- C111, gradient.  At a point between the bounds where the cost is least, all partial derivatives that the function for the fits
with a gradient returns are zero. -/
theorem C111_stationary (d : Disk) (hc : fform.Reachable S) (hreal : RealSymbols fform) (hl : Lists fform l)
    (hM : fdat.getM = fform.getM) (hF : FormulaIs fform F) (hD : DataIs fform fdat D) {r₁ r₂ : Sym → ℝ}
    (hne : misfit fform.getKeys fform.getM F D r₁ ≠ misfit fform.getKeys fform.getM F D r₂) (save gradSave : Option Key) :
    ∃ f d', energyAndDenergy S C d fform fdat l false save gradSave = .ok (f, d') ∧
      ∀ r : Sym → ℝ, (∀ s ∈ l, lo s < r s ∧ r s < hi s) →
        (∀ r' : Sym → ℝ, (∀ s ∈ l, lo s ≤ r' s ∧ r' s ≤ hi s) → (f (l.map r)).1 ≤ (f (l.map r')).1) →
        (f (l.map r)).2 = l.map (fun _ => 0) := by
  obtain ⟨f, d', h1, h2⟩ := C70_gradient S C d hc hreal hl hM hF hD hne save gradSave
  refine ⟨f, d', h1, fun r hr hmin => ?_⟩
  obtain ⟨_, hlen, hder⟩ := h2 r
  refine List.ext_getElem? (fun i => ?_)
  cases hs : l[i]? with
  | none =>
    rw [List.getElem?_eq_none_iff] at hs
    rw [List.getElem?_eq_none_iff.2 (by omega), List.getElem?_eq_none_iff.2 (by simpa using hs)]
  | some s =>
    obtain ⟨y, hy, hd⟩ := hder i s hs
    have hsl := List.mem_of_getElem? hs
    have hloc : IsLocalMin (fun t => misfit fform.getKeys fform.getM F D (Function.update r s t)) (r s) := by
      have hopen : Set.Ioo (lo s) (hi s) ∈ nhds (r s) := Ioo_mem_nhds (hr s hsl).1 (hr s hsl).2
      refine Filter.mem_of_superset hopen (fun t ht => ?_)
      have := hmin (Function.update r s t) (fun s' hs' => ?_)
      · rw [(h2 r).1, (h2 _).1] at this
        simpa using this
      · by_cases e : s' = s
        · subst e
          simpa using ⟨ht.1.le, ht.2.le⟩
        · rw [Function.update_of_ne e]
          exact ⟨(hr s' hs').1.le, (hr s' hs').2.le⟩
    have h0 := hloc.hasDerivAt_eq_zero hd
    rw [hy, List.getElem?_map, hs, h0]
    rfl

/-- C111 for `least_squares_fit_with_bounds`.  If the optimizer finds a point with the least residual whenever there is one, the fit
succeeds and reports parameters for which the cost is least. -/
theorem C111_least_squares {opt : Optimizer LSCall} (ho : LeastSquaresTo 0 opt) (ho' : FindsLeastSquares opt) (hc : fform.Reachable S)
    (hl : fform.getFreeSymbols S = .ok l) (hl0 : l ≠ []) (hM : fdat.getM = fform.getM) (hF : FormulaIs fform F)
    (hD : DataIs fform fdat D) (chunk : Bool) (hne : chunk = true → fform.getKeys ≠ []) (save : Option Key) {st : FitState}
    {guess : Dict Sym ℝ} {g : Sym → ℝ} (hg : ∀ s ∈ l, Dict.get guess s = .ok (g s)) {bounds : Dict Sym (ℝ × ℝ)}
    (hb : BoundsAre (some bounds) l lo hi) (hw : Without st.kwargs [sFun, sX0, sBounds]) (hlh : ∀ s ∈ l, lo s ≤ hi s) :
    ∃ res r, (leastSquaresFit S C opt fform fdat guess (some bounds) chunk save none st).1 = .ok res ∧ Reports res l r ∧
      (∀ s ∈ l, lo s ≤ r s ∧ r s ≤ hi s) ∧ ∀ r', (∀ s ∈ l, lo s ≤ r' s ∧ r' s ≤ hi s) →
        misfit fform.getKeys fform.getM F D r ≤ misfit fform.getKeys fform.getM F D r' := by
  obtain ⟨call, c1, c2, c3, c4, c5⟩ := C60_least_squares S C opt (chunk := chunk) (load := none) (st := st) hc hl hl0
    (.inl ⟨rfl, hM, hF, hD, hne⟩) save hg hb hw
  have hnd := (getFreeSymbols_lists hc.good hl).2.1
  have hdep : ∀ r r', l.map r = l.map r' → misfit fform.getKeys fform.getM F D r = misfit fform.getKeys fform.getM F D r' := by
    intro r r' h
    obtain ⟨f, d', _, h2⟩ := C57_cost S C st.disk hc (.inr ⟨rfl, hl⟩) hM hF hD chunk hne save
    rw [← h2, ← h2, h]
  have hm0 := fun r' => (C57_zero_iff fform.getKeys fform.getM F D r').1
  have hall : ∀ r', (∀ b, call.bounds = some b → Between (b.1.zip b.2) (l.map r')) ↔ ∀ s ∈ l, lo s ≤ r' s ∧ r' s ≤ hi s := by
    intro r'
    rw [c3]
    simp only [Option.map_some, Option.some.injEq, forall_eq', List.zip_map']
    exact between_map
  obtain ⟨r₀, g1, g2⟩ := exists_best (continuous_misfit hF D) hdep hlh
  obtain ⟨x, hx⟩ := ho' call ⟨l.map r₀, ⟨by rw [c2]; simp, (hall r₀).2 g1⟩, fun y hy => by
    obtain ⟨ry, rfl⟩ := exists_map_eq hnd (x := y) (by rw [hy.1, c2]; simp)
    rw [c1, c1, abs_of_nonneg (Real.sqrt_nonneg _), abs_of_nonneg (Real.sqrt_nonneg _)]
    exact Real.sqrt_le_sqrt (g2 ry ((hall ry).1 hy.2))⟩
  obtain ⟨⟨o1, o2⟩, o3⟩ := ho call x hx
  obtain ⟨r, rfl⟩ := exists_map_eq hnd (x := x) (by rw [o1, c2]; simp)
  obtain ⟨res, e1, e2⟩ := c5.1 r hx
  refine ⟨res, r, e1, e2, (hall r).1 o2, fun r' hr' => ?_⟩
  have := o3 (l.map r') ⟨by rw [c2]; simp, (hall r').2 hr'⟩
  rw [c1, c1, abs_of_nonneg (Real.sqrt_nonneg _), abs_of_nonneg (Real.sqrt_nonneg _), add_zero] at this
  exact (Real.sqrt_le_sqrt_iff (hm0 r')).1 this

/-- C111 for `dual_annealing_fit_with_bounds`, in the same way. -/
theorem C111_dual_annealing {opt : Optimizer DACall} (ho : AnnealsTo 0 opt) (ho' : FindsAnnealing opt) (hc : fform.Reachable S)
    (hl : fform.getFreeSymbols S = .ok l) (hl0 : l ≠ []) (hM : fdat.getM = fform.getM) (hF : FormulaIs fform F)
    (hD : DataIs fform fdat D) (chunk : Bool) (hne : chunk = true → fform.getKeys ≠ []) (save : Option Key) {st : FitState}
    {guess : Dict Sym ℝ} {g : Sym → ℝ} (hg : ∀ s ∈ l, Dict.get guess s = .ok (g s)) {bounds : Dict Sym (ℝ × ℝ)}
    (hb : BoundsAre (some bounds) l lo hi) (options : ℕ) (hlh : ∀ s ∈ l, lo s ≤ hi s) :
    ∃ res r, (dualAnnealingFit S C opt fform fdat guess (some bounds) options chunk save none st).1 = .ok res ∧ Reports res l r ∧
      (∀ s ∈ l, lo s ≤ r s ∧ r s ≤ hi s) ∧ ∀ r', (∀ s ∈ l, lo s ≤ r' s ∧ r' s ≤ hi s) →
        misfit fform.getKeys fform.getM F D r ≤ misfit fform.getKeys fform.getM F D r' := by
  obtain ⟨call, c1, c2, c3, c4, c5⟩ := C60_dual_annealing S C opt (chunk := chunk) (load := none) (st := st) hc hl hl0
    (.inl ⟨rfl, hM, hF, hD, hne⟩) save hg hb options
  have hnd := (getFreeSymbols_lists hc.good hl).2.1
  have hdep : ∀ r r', l.map r = l.map r' → misfit fform.getKeys fform.getM F D r = misfit fform.getKeys fform.getM F D r' := by
    intro r r' h
    obtain ⟨f, d', _, h2⟩ := C57_cost S C st.disk hc (.inr ⟨rfl, hl⟩) hM hF hD chunk hne save
    rw [← h2, ← h2, h]
  have hall : ∀ r', (∀ b, call.bounds = some b → Between b (l.map r')) ↔ ∀ s ∈ l, lo s ≤ r' s ∧ r' s ≤ hi s := by
    intro r'
    rw [c3]
    simp only [Option.map_some, Option.some.injEq, forall_eq']
    exact between_map
  obtain ⟨r₀, g1, g2⟩ := exists_best (continuous_misfit hF D) hdep hlh
  obtain ⟨x, hx⟩ := ho' call ⟨l.map r₀, ⟨by rw [c2]; simp, (hall r₀).2 g1⟩, fun y hy => by
    obtain ⟨ry, rfl⟩ := exists_map_eq hnd (x := y) (by rw [hy.1, c2]; simp)
    rw [c1, c1]
    exact g2 ry ((hall ry).1 hy.2)⟩
  obtain ⟨⟨o1, o2⟩, o3⟩ := ho call x hx
  obtain ⟨r, rfl⟩ := exists_map_eq hnd (x := x) (by rw [o1, c2]; simp)
  obtain ⟨res, e1, e2⟩ := c5.1 r hx
  refine ⟨res, r, e1, e2, (hall r).1 o2, fun r' hr' => ?_⟩
  have := o3 (l.map r') ⟨by rw [c2]; simp, (hall r').2 hr'⟩
  rw [c1, c1, add_zero] at this
  exact this

end

/-! ## Without bounds there may be no best solution -/

namespace FitCases

/-- A formula with the components `b`, `a*b`, `b`. -/
def product : FFormContainer := ⟨[(kPP, .obj [.sym symB, .mul [.sym symA, .sym symB], .sym symB])], 1⟩

/-- Data with the components `0`, `1`, `0`. -/
noncomputable def constantData : FDataContainer := ⟨[(kPP, [0, 1, 0])], 1, 1, .num 0⟩

/-- The components of the formula. -/
noncomputable def Fp : Key → ℤ → Valuation → ℂ := fun _ m σ => if m = 0 then σ symA * σ symB else σ symB
/-- The components of the data. -/
noncomputable def Dp : Key → ℤ → ℂ := fun _ m => if m = 0 then 1 else 0

theorem product_reachable : product.Reachable Sympy.plain :=
  ⟨[(.str kPP, .objArr [.sy (.sym symB), .sy (.mul [.sym symA, .sym symB]), .sy (.sym symB)])], 1, product, [], rfl, rfl⟩

theorem constantData_reachable : constantData.Reachable := ⟨[(.str kPP, .arr1 .complex64 [0, 1, 0])], 1, constantData, [], rfl, rfl⟩

theorem product_symbols : product.getFreeSymbols Sympy.plain = .ok [symA, symB] := by
  show Except.ok (Sympy.plain.sortSyms [symB, symA, symB, symB]) = _
  congr 1
  show (List.dedup [symB, symA, symB, symB]).mergeSort _ = _
  have : List.dedup [symB, symA, symB, symB] = [symA, symB] := by decide
  rw [this]
  exact List.mergeSort_of_pairwise (by decide)

theorem productIs : FormulaIs product Fp := by
  intro k hk m h1 h2
  simp only [product, FFormContainer.getKeys, Dict.keys, List.map_cons, List.map_nil, List.mem_singleton] at hk
  subst hk
  have : m = -1 ∨ m = 0 ∨ m = 1 := by
    simp only [product, FFormContainer.getM] at h1 h2
    omega
  rcases this with rfl | rfl | rfl
  · exact ⟨_, _, rfl, ⟨⟨by decide, by decide⟩, rfl⟩, fun σ => by simp [objValue, Expr.eval, Fp]⟩
  · exact ⟨_, _, rfl, ⟨⟨by decide, by decide⟩, rfl⟩, fun σ => by simp [objValue, Expr.eval, Expr.evalProd, Fp]⟩
  · exact ⟨_, _, rfl, ⟨⟨by decide, by decide⟩, rfl⟩, fun σ => by simp [objValue, Expr.eval, Fp]⟩

theorem constantDataIs : DataIs product constantData Dp := by
  intro k hk m h1 h2
  simp only [product, FFormContainer.getKeys, Dict.keys, List.map_cons, List.map_nil, List.mem_singleton] at hk
  subst hk
  have : m = -1 ∨ m = 0 ∨ m = 1 := by
    simp only [product, FFormContainer.getM] at h1 h2
    omega
  rcases this with rfl | rfl | rfl
  · exact ⟨⟨_, rfl, ⟨by decide, by decide⟩, by simp [Dp, constantData, FDataContainer.getM]⟩, 0, 0, by simp [Dp]⟩
  · exact ⟨⟨_, rfl, ⟨by decide, by decide⟩, by simp [Dp, constantData, FDataContainer.getM]⟩, 1, 0, by simp [Dp]⟩
  · exact ⟨⟨_, rfl, ⟨by decide, by decide⟩, by simp [Dp, constantData, FDataContainer.getM]⟩, 0, 0, by simp [Dp]⟩

theorem product_misfit (r : Sym → ℝ) :
    misfit product.getKeys product.getM Fp Dp r = 2 * r symB ^ 2 + (r symA * r symB - 1) ^ 2 := by
  have h : Finset.Icc (-((1 : ℕ) : ℤ)) (1 : ℕ) = {-1, 0, 1} := by decide
  have h1 : ‖(r symB : ℂ)‖ ^ 2 = r symB ^ 2 := by rw [Complex.norm_real, Real.norm_eq_abs, sq_abs]
  have h2 : ‖(r symA : ℂ) * (r symB : ℂ) - 1‖ ^ 2 = (r symA * r symB - 1) ^ 2 := by
    rw [← Complex.ofReal_mul, ← Complex.ofReal_one, ← Complex.ofReal_sub, Complex.norm_real, Real.norm_eq_abs, sq_abs]
  simp only [misfit, product, FFormContainer.getKeys, FFormContainer.getM, Dict.keys, List.map_cons, List.map_nil, List.sum_cons,
    List.sum_nil, add_zero, h]
  rw [Finset.sum_insert (by decide), Finset.sum_insert (by decide), Finset.sum_singleton]
  simp only [Fp, Dp, realVal]
  norm_num [h1, h2]
  ring

/-- C111, without bounds.  There are a formula and data for which every set of parameters can be improved: the cost can be made as small
as one likes, but not zero. -/
theorem C111_unbounded (d : Disk) (chunk : Bool) (save : Option Key) :
    ∃ cost d', genCostFunc Sympy.plain compiler d product constantData none chunk save = .ok (cost, d') ∧
      (∀ r : Sym → ℝ, ∃ r' : Sym → ℝ, cost ([symA, symB].map r') < cost ([symA, symB].map r)) ∧
      ∀ ε > 0, ∃ r : Sym → ℝ, cost ([symA, symB].map r) < ε := by
  obtain ⟨cost, d', h1, h2⟩ := C57_cost Sympy.plain compiler d product_reachable (.inr ⟨rfl, product_symbols⟩) rfl productIs
    constantDataIs chunk (fun _ => by simp [product, FFormContainer.getKeys, Dict.keys]) save
  have hsmall : ∀ ε > 0, ∃ r : Sym → ℝ, cost ([symA, symB].map r) < ε := by
    intro ε hε
    have hδ : 0 < √ε / 2 := by positivity
    refine ⟨fun s => if s = symA then (√ε / 2)⁻¹ else √ε / 2, ?_⟩
    rw [h2, product_misfit]
    simp only [if_true, show symB ≠ symA by decide, if_false]
    rw [inv_mul_cancel₀ hδ.ne']
    have := Real.sq_sqrt hε.le
    nlinarith
  refine ⟨cost, d', h1, fun r => ?_, hsmall⟩
  apply hsmall
  rw [h2, product_misfit]
  by_cases h : r symB = 0
  · rw [h]; norm_num
  · have := sq_nonneg (r symA * r symB - 1)
    have : 0 < r symB ^ 2 := by positivity
    linarith

theorem exactLeastSquares_finds : FindsLeastSquares exactLeastSquares := by
  intro call allowed h
  unfold exactLeastSquares
  dsimp only
  rw [dif_pos h]
  exact ⟨_, rfl⟩

theorem exactAnnealing_finds : FindsAnnealing exactAnnealing := by
  intro call allowed h
  unfold exactAnnealing
  dsimp only
  rw [dif_pos h]
  exact ⟨_, rfl⟩

/-- The hypotheses of `C111_bounded` are met, for the formula and the data for which there is no best solution without bounds. -/
example (d : Disk) : ∃ cost d', genCostFunc Sympy.plain compiler d product constantData none false none = .ok (cost, d') ∧
    ∃ r : Sym → ℝ, (∀ s ∈ [symA, symB], 0 ≤ r s ∧ r s ≤ 1) ∧
      ∀ r' : Sym → ℝ, (∀ s ∈ [symA, symB], 0 ≤ r' s ∧ r' s ≤ 1) → cost ([symA, symB].map r) ≤ cost ([symA, symB].map r') :=
  C111_bounded Sympy.plain compiler (lo := fun _ => 0) (hi := fun _ => 1) d product_reachable (.inr ⟨rfl, product_symbols⟩) rfl
    constantDataIs false (by simp) none (by simp)

/-- The hypotheses of `C111_least_squares` and `C111_dual_annealing` are met. -/
example : (∃ res r, (leastSquaresFit Sympy.plain compiler exactLeastSquares product constantData [(symA, 0), (symB, 0)]
      (some [(symA, (0, 1)), (symB, (0, 1))]) false none none ⟨noFiles, []⟩).1 = .ok res ∧ Reports res [symA, symB] r) ∧
    ∃ res r, (dualAnnealingFit Sympy.plain compiler exactAnnealing product constantData [(symA, 0), (symB, 0)]
      (some [(symA, (0, 1)), (symB, (0, 1))]) 0 false none none ⟨noFiles, []⟩).1 = .ok res ∧ Reports res [symA, symB] r := by
  constructor
  · obtain ⟨res, r, h1, h2, _⟩ := C111_least_squares Sympy.plain compiler exactLeastSquares_spec exactLeastSquares_finds
      product_reachable product_symbols (by simp) rfl productIs constantDataIs false (by simp) none (st := ⟨noFiles, []⟩) zero_guess
      unit_bounds (without_options _) (by simp)
    exact ⟨res, r, h1, h2⟩
  · obtain ⟨res, r, h1, h2, _⟩ := C111_dual_annealing Sympy.plain compiler exactAnnealing_spec exactAnnealing_finds
      product_reachable product_symbols (by simp) rfl productIs constantDataIs false (by simp) none (st := ⟨noFiles, []⟩) zero_guess
      unit_bounds 0 (by simp)
    exact ⟨res, r, h1, h2⟩

/-- The hypotheses of `C111_stationary` are met: `2 (b - 1)² + (a - 2)²` between -5 and 5 is least for `a = 2`, `b = 1`. -/
example (d : Disk) : ∃ f d', energyAndDenergy Sympy.plain compiler d formula data [symA, symB] false none none = .ok (f, d') ∧
    (f [2, 1]).2 = [0, 0] := by
  obtain ⟨f, d', h1, h2⟩ := C111_stationary Sympy.plain compiler (lo := fun _ => -5) (hi := fun _ => 5) d formula_reachable real_symbols
    (getFreeSymbols_lists formula_reachable.good free_symbols).2 rfl formulaIs dataIs not_constant none none
  obtain ⟨f', d'', g1, g2⟩ := C70_gradient Sympy.plain compiler d formula_reachable real_symbols
    (getFreeSymbols_lists formula_reachable.good free_symbols).2 rfl formulaIs dataIs not_constant none none
  rw [h1] at g1
  cases g1
  have hm : [symA, symB].map (fun s => if s = symA then (2 : ℝ) else 1) = [2, 1] := by
    simp [show symB ≠ symA by decide]
  have := h2 (fun s => if s = symA then 2 else 1) (fun s _ => by split_ifs <;> norm_num) (fun r' _ => by
    rw [(g2 _).1, (g2 _).1, misfit_eq, misfit_eq]
    simp only [if_true, show symB ≠ symA by decide, if_false]
    nlinarith [sq_nonneg (r' symB - 1), sq_nonneg (r' symA - 2)])
  rw [hm] at this
  exact ⟨f, d', h1, this⟩

end FitCases

end Shgpy
