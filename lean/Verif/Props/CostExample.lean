import Verif.Spec.CostExample
import Verif.Props.FitExample

/-!
# A cost function that is saved by one script and minimized by another: C114
-/

set_option linter.unusedSectionVars false

namespace Shgpy
open Spec

theorem loadFform_same {S S' : Sympy} (h : SameSympy S S') (R : Repr) (fs : Files) (name : Key) :
    loadFform S' R fs name = loadFform S R fs name := by
  obtain ⟨n, h1, h2, h3, h4⟩ := S
  obtain ⟨n', h1', h2', h3', h4'⟩ := S'
  cases h
  rfl

theorem shiftByPsi_same {S S' : Sympy} (h : SameSympy S S') (fform : FFormContainer) : shiftByPsi S' fform = shiftByPsi S fform := by
  obtain ⟨n, h1, h2, h3, h4⟩ := S
  obtain ⟨n', h1', h2', h3', h4'⟩ := S'
  cases h
  rfl

section
variable (S : Sympy) (C : Compiler) {fform : FFormContainer} {F : Key → ℤ → Valuation → ℂ} {fdat : FDataContainer}
  {D : Key → ℤ → ℂ} {opt : Optimizer DACall} {ε : ℝ}

/-- The symbols of the turned formula. -/
theorem shifted_occurs (hc : fform.Reachable S) {c : FFormContainer} (h : shiftByPsi S fform = .ok c) {s : Sym} (hs : FOccurs c s) :
    IsParameter fform s := by
  unfold shiftByPsi at h
  rw [FFormContainer.step_shift S hc.good] at h
  cases h
  obtain ⟨k, a, m, e, h1, ⟨h2, h3⟩, h4⟩ := hs
  have h1' := Dict.get_ok_iff.1 h1
  rw [Dict.get?_mapVals] at h1'
  cases ha : Dict.get? fform.fform k with
  | none => rw [ha] at h1'; cases h1'
  | some a₀ =>
    rw [ha] at h1'
    cases h1'
    have h3' := h3
    rw [show (FFormContainer.shiftF S fform.M (.sym psi) a₀).objs = (List.zipWith (fun m o =>
      S.mul (PyObj.sympify S o) (FFormContainer.phaseFactor S (.sym psi) m)) (freqs fform.M) a₀.objs).map PyObj.sy from rfl,
      List.getElem?_map, List.getElem?_zipWith, Option.map_eq_some_iff] at h3'
    obtain ⟨e', h5, h6⟩ := h3'
    cases h6
    obtain ⟨m', o, h7, rfl⟩ : ∃ m' o, a₀.objs[(m + (fform.getM : ℤ)).toNat]? = some o ∧
        S.mul (PyObj.sympify S o) (FFormContainer.phaseFactor S (.sym psi) m') = e := by
      split at h5
      next m' o _ h7 =>
        cases h5
        exact ⟨m', o, h7, rfl⟩
      next => cases h5
    rcases S.free_mul h4 with h4 | h4
    · exact .inl (free_component (S := S) (Dict.get_ok_iff.2 ha) ⟨h2, h7⟩ h4)
    · right
      have key : s ∈ (S.mul (.num m') (.sym psi)).free → s = psi := by
        intro h
        rcases S.free_mul h with h | h
        · cases h
        · simpa [Expr.free] using h
      unfold FFormContainer.phaseFactor at h4
      rcases S.free_add h4 with h4 | h4
      · exact key (S.free_cos h4)
      · rcases S.free_mul h4 with h4 | h4
        · cases h4
        · exact key (S.free_sin h4)

/-- Drawing the curve for reported parameters. -/
theorem draw_ok (hc : fform.Reachable S) (hs : Symbolic fform) (hM : fform.getM = 16) (hF : FormulaIs fform F) {l : List Sym}
    (hl : Lists fform l) {xd : Dict Sym ℝ} {r : Sym → ℝ} (hk : Dict.keys xd = l) (hg : ∀ s ∈ l, Dict.get xd s = .ok (r s))
    (hq : ∀ s ∈ l, ∃ q : ℚ, (q : ℝ) = r s) :
    ∃ fit, fformToDat S fform (Dict.mapVals sympyFloat xd) 1000 = .ok (fit, []) ∧ (∀ s a, Dict.get xd s = .ok a → r s = a) ∧
      (∀ r', (∀ s a, Dict.get xd s = .ok a → r' s = a) → ∀ k ∈ fform.getKeys, ∀ m : ℤ, -(fform.getM : ℤ) ≤ m →
        m ≤ fform.getM → F k m (realVal r') = F k m (realVal r)) ∧
      fit.getKeys = fform.getKeys ∧
      ∀ k ∈ fform.getKeys, fit.getPc k sRadians = .ok (sampled 1000 (fun x => (pattern 16 (fun m => F k m (realVal r)) x).re)) := by
  have hget : ∀ s a, Dict.get xd s = .ok a → r s = a := by
    intro s a ha
    have hsl : s ∈ l := by
      rw [← hk]; exact Dict.mem_keys_of_mem (Dict.mem_of_get? (Dict.get_ok_iff.1 ha))
    rw [hg s hsl] at ha
    cases ha; rfl
  have hv : Values fform (Dict.mapVals sympyFloat xd) r := by
    refine ⟨?_, ?_, ?_⟩
    · rintro ⟨s, e⟩ hp
      obtain ⟨⟨s', a⟩, _, he⟩ := List.mem_map.1 hp
      cases he
      exact (sympyFloat_spec a).1
    · intro s hs'
      rw [Dict.keys_mapVals, hk]
      exact hl.2 s hs'
    · intro s v hv
      rw [Dict.get_ok_iff, Dict.get?_mapVals] at hv
      cases ha : Dict.get? xd s with
      | none => rw [ha] at hv; cases hv
      | some a =>
        rw [ha] at hv
        cases hv
        have hra := hget s a (Dict.get_ok_iff.2 ha)
        have hsl : s ∈ l := by rw [← hk]; exact Dict.mem_keys_of_mem (Dict.mem_of_get? ha)
        rw [(sympyFloat_spec a).2 (hra ▸ hq s hsl), ← hra]
        rfl
  obtain ⟨fit, f1, f2, f3⟩ := C103_curve S hc hs hM hF hv (n := 1000) (by norm_num)
  exact ⟨fit, f1, hget, fun r' hr' k hkk m h1 h2 => formulaIs_depends hF hl (fun s hsl => hr' s _ (hg s hsl)) hkk h1 h2, f2, f3⟩

theorem sqrt_add_le_sqrt_add {a : ℝ} (hε : 0 ≤ ε) : √(a + ε) ≤ √a + √ε := by
  rcases le_total 0 a with ha | ha
  · rw [Real.sqrt_le_left (by positivity)]
    nlinarith [Real.sq_sqrt ha, Real.sq_sqrt hε, mul_nonneg (Real.sqrt_nonneg a) (Real.sqrt_nonneg ε)]
  · rw [Real.sqrt_eq_zero_of_nonpos ha, zero_add]
    exact Real.sqrt_le_sqrt (by linarith)

/-- A smallest misfit of rounded components makes a best turned curve. -/
theorem best_turned {keys : List Key} {N : Key → ℕ} {y : Key → ℝ → ℝ} (hN : ∀ k ∈ keys, 32 < N k) {δ η : ℝ} (hδ : 0 ≤ δ)
    (hD : ∀ k ∈ keys, ∀ m : ℤ, -((16 : ℕ) : ℤ) ≤ m → m ≤ ((16 : ℕ) : ℤ) → ‖D k m - dft (N k) (y k) m‖ ≤ δ) (r : Sym → ℝ) :
    ∃ R, 0 ≤ R ∧ ∀ r', R ≤ turnedSquares keys 16 F N y r' ∧
      (√(misfit keys 16 (fun k m => fformEffect (.phaseShift (.sym psi)) m (F k m)) D r) ≤
        √(misfit keys 16 (fun k m => fformEffect (.phaseShift (.sym psi)) m (F k m)) D r') + η →
      √(turnedSquares keys 16 F N y r - R) ≤ √(turnedSquares keys 16 F N y r' - R) + (η + 2 * (δ * √(keys.length * 33)))) := by
  obtain ⟨R, hR, hsq⟩ := squares_misfit keys 16
    (fun k m => fformEffect (.phaseShift (.sym psi)) m (F k m)) y (N := N) (fun k hk => hN k hk)
  simp only [squares_turned] at hsq
  have hm0 := fun r' => (C57_zero_iff keys 16 (fun k m => fformEffect (.phaseShift (.sym psi)) m (F k m))
    (fun k m => dft (N k) (y k) m) r').1
  have hn := fun r' => sqrt_misfit keys 16 (fun k m => fformEffect (.phaseShift (.sym psi)) m (F k m)) hδ
    (fun k hk m h1 h2 => hD k hk m h1 h2) r'
  have h33 : ((keys.length : ℝ) * (2 * ((16 : ℕ) : ℝ) + 1)) = keys.length * 33 := by push_cast; ring
  simp only [h33] at hn
  refine ⟨R, hR, fun r' => ⟨?_, fun hr' => ?_⟩⟩
  · rw [hsq]; have := hm0 r'; linarith
  · rw [hsq, hsq, add_sub_cancel_right, add_sub_cancel_right]
    have n1 := abs_le.1 (hn r)
    have n2 := abs_le.1 (hn r')
    linarith

theorem addParameters_ok {valid : Key → Bool} (guess : ℕ → ℝ) {l : List Sym} (hv : ∀ s ∈ l, valid s.name = true)
    (hn : (l.map Sym.name).Nodup) :
    addParameters valid guess l = .ok (l.zipIdx.map (fun s => (s.1.name, (⟨guess s.2, -100, 100⟩ : Parameter)))) := by
  have h1 : ∀ (q : List (Sym × ℕ)) (acc : Dict Key Parameter), (∀ s ∈ q, valid s.1.name = true) →
      q.foldlM (fun p s => if valid s.1.name then Except.ok (Dict.set p s.1.name ⟨guess s.2, -100, 100⟩) else .error Err.keyError) acc =
        Except.ok ((q.map (fun s => (s.1.name, (⟨guess s.2, -100, 100⟩ : Parameter)))).foldl (fun d p => Dict.set d p.1 p.2) acc) := by
    intro q
    induction q with
    | nil => intro acc _; rfl
    | cons a q ih =>
      intro acc h
      rw [List.foldlM_cons, if_pos (h a (by simp)), ok_bind, ih _ (fun s hs => h s (by simp [hs]))]
      rfl
  unfold addParameters
  rw [h1 _ _ (fun s hs => hv _ (List.fst_mem_of_mem_zipIdx hs)), Dict.foldl_set_of_nodup, List.nil_append]
  have : (l.zipIdx.map (fun s => (s.1.name, (⟨guess s.2, -100, 100⟩ : Parameter)))).map Prod.fst = l.map Sym.name := by
    rw [List.map_map]
    conv_rhs => rw [← List.zipIdx_map_fst 0 l, List.map_map]
    rfl
  rw [this]
  simpa [Dict.keys] using hn

theorem setValues_map (guess : ℕ → ℝ) (l : List Sym) (r : Sym → ℝ) :
    setValues (l.zipIdx.map (fun s => (s.1.name, (⟨guess s.2, -100, 100⟩ : Parameter)))) (l.map r) =
      l.map (fun s => (s.name, (⟨r s, -100, 100⟩ : Parameter))) := by
  unfold setValues
  have h1 : l.map r = l.zipIdx.map (fun s => r s.1) := by
    conv_lhs => rw [← List.zipIdx_map_fst 0 l, List.map_map]
    rfl
  have h2 : l.map (fun s => (s.name, (⟨r s, -100, 100⟩ : Parameter))) =
      l.zipIdx.map (fun s => (s.1.name, (⟨r s.1, -100, 100⟩ : Parameter))) := by
    conv_lhs => rw [← List.zipIdx_map_fst 0 l, List.map_map]
    rfl
  rw [h1, h2, List.zipWith_map, List.zipWith_self]

theorem substitutions_ok {l : List Sym} (hl : l.Nodup) (hn : (l.map Sym.name).Nodup) (r : Sym → ℝ) :
    substitutions l (l.map (fun s => (s.name, (⟨r s, -100, 100⟩ : Parameter)))) = .ok (l.map (fun s => (s, r s))) := by
  have hget : ∀ s ∈ l, Dict.get (l.map (fun s => (s.name, (⟨r s, -100, 100⟩ : Parameter)))) s.name = .ok ⟨r s, -100, 100⟩ := by
    intro s hs
    rw [Dict.get_ok_iff, Dict.get?_eq_some_iff (by simpa [Dict.WF, Dict.keys, Function.comp_def] using hn)]
    exact List.mem_map.2 ⟨s, hs, rfl⟩
  have h1 : ∀ (q : List Sym) (acc : Dict Sym ℝ), (∀ s ∈ q, s ∈ l) →
      q.foldlM (fun d s => do
        let p ← Dict.get (l.map (fun s => (s.name, (⟨r s, -100, 100⟩ : Parameter)))) s.name
        return Dict.set d s p.value) acc =
        Except.ok ((q.map (fun s => (s, r s))).foldl (fun d p => Dict.set d p.1 p.2) acc) := by
    intro q
    induction q with
    | nil => intro acc _; rfl
    | cons a q ih =>
      intro acc h
      rw [List.foldlM_cons, hget a (h a (by simp))]
      simp only [ok_bind]
      exact ih _ (fun s hs => h s (by simp [hs]))
  unfold substitutions
  rw [h1 l [] (fun s hs => hs), Dict.foldl_set_of_nodup, List.nil_append]
  simpa [Dict.keys, Function.comp_def] using hl

/-- What lmfit makes of a function of the parameters that are in the list. -/
theorem lmfit_best (ho : AnnealsTo ε opt) (hfl : AnnealsFloats opt) (guess : ℕ → ℝ) {l : List Sym} (hl : l.Nodup) {f : CFunc}
    {g : (Sym → ℝ) → ℝ} (hf : ∀ r, f (l.map r) = g r) :
    let params := l.zipIdx.map (fun s => (s.1.name, (⟨guess s.2, -100, 100⟩ : Parameter)))
    (∀ e, lmfitMinimize opt (sanitized f) params = .error e → ∃ call, opt call = .error e ∧ call.x0.length = l.length ∧
      (∀ r, call.func (l.map r) = g r) ∧ call.bounds = some (l.map (fun _ => (-100, 100)))) ∧
    ∀ ret, lmfitMinimize opt (sanitized f) params = .ok ret → ∃ r, InHundred r ∧ (∀ s ∈ l, ∃ q : ℚ, (q : ℝ) = r s) ∧
      ret = l.map (fun s => (s.name, (⟨r s, -100, 100⟩ : Parameter))) ∧ ∀ r', InHundred r' → g r ≤ g r' + ε := by
  intro params
  let call : DACall := ⟨fun x => sanitized f (setValues params x), some (params.map (fun p => (p.2.min, p.2.max))),
    params.map (fun p => p.2.value), 0⟩
  have hx0 : call.x0.length = l.length := by simp [call, params]
  have hfun : ∀ r, call.func (l.map r) = g r := by
    intro r
    show sanitized f (setValues params (l.map r)) = _
    rw [setValues_map, ← hf]
    unfold sanitized
    rw [List.map_map]
    rfl
  have hb : call.bounds = some (l.map (fun _ => (-100, 100))) := by
    show some (params.map (fun p => (p.2.min, p.2.max))) = _
    simp only [params, List.map_map]
    congr 1
    conv_rhs => rw [← List.zipIdx_map_fst 0 l, List.map_map]
    rfl
  have hall : ∀ r' : Sym → ℝ, (∀ b, call.bounds = some b → Between b (l.map r')) ↔ ∀ s ∈ l, (-100 : ℝ) ≤ r' s ∧ r' s ≤ 100 := by
    intro r'
    rw [hb]
    simp only [Option.some.injEq, forall_eq']
    exact between_map (lo := fun _ => -100) (hi := fun _ => 100)
  unfold lmfitMinimize
  change (∀ e, (opt call >>= fun x => pure (setValues params x)) = .error e → _) ∧
    ∀ ret, (opt call >>= fun x => pure (setValues params x)) = .ok ret → _
  cases hx : opt call with
  | error e =>
    refine ⟨fun e' h => ?_, fun ret h => by cases h⟩
    cases h
    exact ⟨call, hx, hx0, hfun, hb⟩
  | ok x =>
    refine ⟨fun e' h => (by cases h), fun ret h => ?_⟩
    cases h
    obtain ⟨⟨o1, o2⟩, o3⟩ := ho call x hx
    obtain ⟨r₀, hr₀⟩ := exists_map_eq hl (x := x) (by rw [o1, hx0])
    classical
    let r : Sym → ℝ := fun s => if s ∈ l then r₀ s else 0
    have hr : l.map r = x := by
      rw [← hr₀]
      exact List.map_congr_left (fun s hs => by simp [r, hs])
    refine ⟨r, fun s => ?_, fun s hs => hfl call x hx _ (by rw [← hr]; exact List.mem_map_of_mem hs), ?_, fun r' hr' => ?_⟩
    · by_cases hsl : s ∈ l
      · exact abs_le.2 ((hall r).1 (by rw [hr]; exact o2) s hsl)
      · simp [r, hsl]
    · rw [← hr]
      exact setValues_map guess l r
    · have := o3 (l.map r') ⟨by rw [hx0]; simp, (hall r').2 (fun s _ => abs_le.1 (hr' s))⟩
      rwa [← hr, hfun, hfun] at this

/-- **C114.**  `gen_cost_func_example.py` and then `fit_cost_func_example.py`, in two processes that may iterate over sets in different
orders, for any data files and any stored formula that load: if every combination of the formula is measured, with more than 32 points,
no two parameters have the same name, and lmfit accepts the names, then the first script succeeds, and the second one fails only if the
optimizer fails (never, if the optimizer finds what there is to find).  Otherwise it returns the measured data and the best turned curve,
up to what the optimizer misses (`ε`, of the cost) and what the rounding of the Fourier components (`δ`) makes of it. -/
theorem C114_two_processes {S' : Sympy} (hsame : SameSympy S S') {R : Repr} {float : Key → Option ℝ} {csv : CsvFiles} {files : Files}
    {interp : Interp} {names : Dict Key Key} {units fformName costName : Key} {dat : DataContainer ℝ}
    (hdat : loadData float csv names units false = .ok dat) (hform : loadFform S R files fformName = .ok fform) (hF : FormulaIs fform F)
    (hk : ∀ k ∈ fform.getKeys, k ∈ dat.getKeys) (hne : fform.getKeys ≠ [])
    {N : Key → ℕ} {y : Key → ℝ → ℝ}
    (hi : ∀ k pts, dat.getPc k sRadians = .ok pts → 32 < pts.length ∧ interp pts = .ok (y k) ∧ pts.length = N k)
    (hnames : ∀ s t, IsParameter fform s → IsParameter fform t → s.name = t.name → s = t)
    {valid : Key → Bool} (hvalid : ∀ s, IsParameter fform s → valid s.name = true) (guess : ℕ → ℝ)
    (hε : 0 ≤ ε) (ho : AnnealsTo ε opt) (hfl : AnnealsFloats opt) {δ : ℝ} (hδ : 0 ≤ δ)
    {rnd : FDataContainer → FDataContainer} (hrnd : RoundsTo δ rnd) (d : Disk) (hslash : '/' ∈ costName) :
    ∃ d', genCostExample S C R float csv files interp rnd d names units fformName costName = .ok d' ∧
      ∀ d₂, LaterProcess costName d' d₂ →
      (∀ e, fitCostExample S' R float csv files interp valid guess opt d₂ names units fformName costName = .error e →
        ∃ call, opt call = .error e) ∧
      (0 < ε → FindsAnnealedFloats ε opt →
        ∃ out, fitCostExample S' R float csv files interp valid guess opt d₂ names units fformName costName = .ok out) ∧
      ∀ dat' xdict fit w, fitCostExample S' R float csv files interp valid guess opt d₂ names units fformName costName =
          .ok (dat', xdict, fit, w) →
        dat' = dat ∧ w = [] ∧ BestCurveIn InHundred (√ε + 2 * (δ * √(fform.getKeys.length * 33))) fform.getKeys F N y xdict fit := by
  classical
  have hform' : loadFform S' R files fformName = .ok fform := by rw [loadFform_same hsame, hform]
  obtain ⟨fdat, c, h1, h2, h3, h4, h5, h6, h7, h8, h9⟩ := scripts_start S hdat hform hF hi
  obtain ⟨fdat', c', h1', h2', h3', -⟩ := scripts_start S' hdat hform' hF hi
  obtain rfl : c' = c := by
    rw [shiftByPsi_same hsame, h2] at h2'
    cases h2'; rfl
  have hreach : fform.Reachable S := by
    unfold loadFform at hform
    split at hform
    · cases hform
    · obtain ⟨v, _, hform⟩ := bind_ok hform
      exact ⟨_, _, _, [], hform, rfl⟩
  have hfd : datToFdat interp dat 16 = .ok fdat := by
    obtain ⟨_, q1, q2, q3⟩ := (C35_composition float csv interp names units none 16 false false dat fdat).1 h1
    exact q3
  -- the lists of symbols
  obtain ⟨l, g1, g2, g3, g4⟩ := (C31_fform_free_symbols S h3).1 h4
  obtain ⟨l', g1', g2', g3', g4'⟩ := (C31_fform_free_symbols S' h3').1 h4
  have hinj : ∀ s ∈ l, ∀ t ∈ l, s.name = t.name → s = t := fun s hs t ht =>
    hnames s t (shifted_occurs S hreach h2 ((g4 s).1 hs)) (shifted_occurs S hreach h2 ((g4 t).1 ht))
  obtain rfl : l = l' := eq_of_sorted_syms g2 g2' g3 g3' (fun s => (g4 s).trans (g4' s).symm) hinj
  have hlists : Lists c' l := ⟨g2, fun s hs => (g4 s).2 hs⟩
  have hnn : (l.map Sym.name).Nodup := (List.nodup_map_iff_inj_on g2).2 hinj
  have hpar := addParameters_ok (valid := valid) guess (l := l)
    (fun s hs => hvalid s (shifted_occurs S hreach h2 ((g4 s).1 hs))) hnn
  -- the data
  have hD : ∃ D : Key → ℤ → ℂ, ∀ k ∈ c'.getKeys, ∀ m : ℤ, -(c'.getM : ℤ) ≤ m → m ≤ c'.getM →
      (DRepresents (rnd fdat) k m (D k m) ∧ MachineNumber (D k m)) ∧ ‖D k m - dft (N k) (y k) m‖ ≤ δ := by
    have h : ∀ (k : Key) (m : ℤ), ∃ z, k ∈ c'.getKeys → -(c'.getM : ℤ) ≤ m → m ≤ c'.getM →
        (DRepresents (rnd fdat) k m z ∧ MachineNumber z) ∧ ‖z - dft (N k) (y k) m‖ ≤ δ := by
      intro k m
      by_cases h : k ∈ c'.getKeys ∧ -(c'.getM : ℤ) ≤ m ∧ m ≤ c'.getM
      · obtain ⟨z, z1, z2, z3⟩ := (hrnd fdat).2 k m _ ((h9 k (hk k (h6 ▸ h.1))).2 m (by have := h.2.1; rw [h5] at this; exact this)
          (by have := h.2.2; rw [h5] at this; exact this))
        exact ⟨z, fun _ _ _ => ⟨⟨z1, z2⟩, z3⟩⟩
      · exact ⟨0, fun h1 h2 h3 => absurd ⟨h1, h2, h3⟩ h⟩
    choose D hD using h
    exact ⟨D, fun k hk m h1 h2 => hD k m hk h1 h2⟩
  obtain ⟨D, hD⟩ := hD
  obtain ⟨f, f1, f2⟩ := genCostFunc_ok S C d h3.good (arguments := none) (.inr ⟨rfl, g1⟩) (((hrnd fdat).1.trans h8).trans h5.symm)
    h7 (fun k hk m h1 h2 => (hD k hk m h1 h2).1) true (fun _ => by rw [h6]; exact hne) (some costName)
  refine ⟨d.save f (some costName), ?_, fun d₂ hd₂ => ?_⟩
  · unfold genCostExample
    rw [h1]
    simp only [ok_bind, hform, h2, f1]
    rfl
  have hload : ∃ d₃, loadFunc d₂ costName = .ok (f, d₃) := by
    unfold loadFunc Disk.dlopen
    rw [if_neg (by simpa using hslash)]
    have hn : Dict.get? d₂.loaded costName = none := by
      cases hg : Dict.get? d₂.loaded costName with
      | none => rfl
      | some v => exact absurd (Dict.mem_keys_of_mem (Dict.mem_of_get? hg)) hd₂.2
    have hfile : Dict.get? d₂.files costName = some (some f) := by
      rw [hd₂.1]
      show Dict.get? (Dict.set d.files costName (some f)) costName = _
      rw [Dict.get?_set, if_pos rfl]
    rw [hn, hfile]
    exact ⟨_, rfl⟩
  obtain ⟨d₃, hload⟩ := hload
  obtain ⟨m1, m2⟩ := lmfit_best ho hfl guess g2 (f := f) f2
  unfold fitCostExample
  rw [hform']
  simp only [ok_bind, h2', g1', hpar, hload, hdat, hfd]
  have hok : ∀ ret, lmfitMinimize opt (sanitized f)
      (l.zipIdx.map (fun s => (s.1.name, (⟨guess s.2, -100, 100⟩ : Parameter)))) = .ok ret →
      ∃ xd fit, substitutions l ret = .ok xd ∧ fformToDat S' c' (Dict.mapVals sympyFloat xd) 1000 = .ok (fit, []) ∧
        BestCurveIn InHundred (√ε + 2 * (δ * √(fform.getKeys.length * 33))) fform.getKeys F N y xd fit := by
    intro ret hret
    obtain ⟨r, r1, r2, rfl, r4⟩ := m2 ret hret
    obtain ⟨fit, t1, t2, t3, t4, t5⟩ := draw_ok S' h3' h4 h5 h7 hlists (xd := l.map (fun s => (s, r s))) (r := r)
      (by simp [Dict.keys, Function.comp_def]) (fun s hs => by
        rw [Dict.get_ok_iff, Dict.get?_eq_some_iff (by simpa [Dict.WF, Dict.keys, Function.comp_def] using g2)]
        exact List.mem_map.2 ⟨s, hs, rfl⟩) r2
    refine ⟨_, fit, substitutions_ok g2 hnn r, t1, r, r1, t2, ?_, t4.trans h6, fun k hkk => ?_, ?_⟩
    · intro r' hr' k hkk x
      rw [← pattern_turned, ← pattern_turned]
      unfold pattern
      refine Finset.sum_congr rfl (fun m hm => ?_)
      rw [Finset.mem_Icc] at hm
      have := t3 r' hr' k (h6 ▸ hkk) m (by rw [h5]; exact hm.1) (by rw [h5]; exact hm.2)
      congr 1
    · rw [t5 k (h6 ▸ hkk)]
      congr 2
      funext x
      rw [← pattern_turned]
      rfl
    · rw [h6, h5] at r4
      obtain ⟨R, R1, R2⟩ := best_turned (F := F) (D := D) (keys := fform.getKeys) (N := N) (y := y) (η := √ε)
        (fun k hkk => (h9 k (hk k hkk)).1) hδ (fun k hkk m hm1 hm2 => (hD k (h6 ▸ hkk) m (by rw [h5]; exact hm1) (by rw [h5]; exact hm2)).2) r
      refine ⟨R, R1, fun r' => ⟨(R2 r').1, fun hr' => (R2 r').2 ?_⟩⟩
      refine (Real.sqrt_le_sqrt (r4 r' hr')).trans (sqrt_add_le_sqrt_add hε)
  cases hmin : lmfitMinimize opt (sanitized f)
      (l.zipIdx.map (fun s => (s.1.name, (⟨guess s.2, -100, 100⟩ : Parameter)))) with
  | error e =>
    obtain ⟨call, e1, e2, e3, e4⟩ := m1 e hmin
    refine ⟨fun e' h => ?_, fun hε' hfi => ?_, fun _ _ _ _ h => by cases h⟩
    · cases h
      exact ⟨call, e1⟩
    · exfalso
      suffices hx : ∃ x, opt call = .ok x by
        obtain ⟨x, hx⟩ := hx
        rw [e1] at hx
        cases hx
      have hcont : Continuous (fun r => misfit c'.getKeys c'.getM (fun k m => fformEffect (.phaseShift (.sym psi)) m (F k m)) D r) :=
        continuous_misfit h7 D
      obtain ⟨r, r1, r2⟩ := exists_best hcont (l := l) (fun r r' h => by rw [← f2, ← f2, h]) (lo := fun _ => -100) (hi := fun _ => 100)
        (fun s _ => by norm_num)
      let r₀ : Sym → ℝ := fun s => if s ∈ l then r s else 0
      have hr₀ : l.map r₀ = l.map r := List.map_congr_left (fun s hs => by simp [r₀, hs])
      obtain ⟨r', q1, q2, q3⟩ := exists_rational_near (r := r₀) hcont (lo := fun _ => -100) (hi := fun _ => 100)
        (fun _ => by norm_num) (fun s => by
        by_cases hsl : s ∈ l
        · simpa [r₀, hsl] using r1 s hsl
        · simp [r₀, hsl]) hε'
      refine hfi call ⟨l.map r', ⟨by rw [e2]; simp, fun b hb => ?_⟩, fun a ha => ?_, fun y hy => ?_⟩
      · rw [e4] at hb
        cases hb
        exact (between_map (lo := fun _ => -100) (hi := fun _ => 100)).2 (fun s _ => q2 s)
      · obtain ⟨s, _, rfl⟩ := List.mem_map.1 ha
        exact q1 s
      · obtain ⟨ry, rfl⟩ := exists_map_eq g2 (x := y) (by rw [hy.1, e2])
        have hb := (between_map (lo := fun _ => -100) (hi := fun _ => 100)).1 (hy.2 _ e4)
        have m1 := r2 ry hb
        have m2 : misfit c'.getKeys c'.getM (fun k m => fformEffect (.phaseShift (.sym psi)) m (F k m)) D r₀ =
          misfit c'.getKeys c'.getM (fun k m => fformEffect (.phaseShift (.sym psi)) m (F k m)) D r := by rw [← f2, ← f2, hr₀]
        rw [e3, e3]
        linarith
  | ok ret =>
    obtain ⟨xd, fit, k1, k2, k3⟩ := hok ret hmin
    simp only [ok_bind, k1, k2]
    refine ⟨fun e' h => (by cases h), fun _ _ => ⟨_, rfl⟩, fun _ _ _ _ h => ?_⟩
    cases h
    exact ⟨rfl, rfl, k3⟩

/-- **C114, names.**  If a parameter has a name that lmfit does not accept, the second script raises `KeyError`. -/
theorem C114_invalid_name {R : Repr} {float : Key → Option ℝ} {csv : CsvFiles} {files : Files} {interp : Interp}
    {names : Dict Key Key} {units fformName costName : Key} {c : FFormContainer} {l : List Sym} {valid : Key → Bool} (guess : ℕ → ℝ)
    (d : Disk) (hform : loadFform S R files fformName = .ok fform) (h : shiftByPsi S fform = .ok c) (hl : c.getFreeSymbols S = .ok l)
    (hbad : ∃ s ∈ l, valid s.name = false) :
    fitCostExample S R float csv files interp valid guess opt d names units fformName costName = .error .keyError := by
  have key : ∀ (q : List (Sym × ℕ)) (acc : Dict Key Parameter), (∃ s ∈ q, valid s.1.name = false) →
      q.foldlM (fun p s => if valid s.1.name then Except.ok (Dict.set p s.1.name ⟨guess s.2, -100, 100⟩) else .error Err.keyError) acc =
        Except.error Err.keyError := by
    intro q
    induction q with
    | nil => rintro acc ⟨s, hs, _⟩; cases hs
    | cons a q ih =>
      rintro acc ⟨s, hs, hv⟩
      rw [List.foldlM_cons]
      by_cases ha : valid a.1.name = true
      · rw [if_pos ha, ok_bind]
        refine ih _ ⟨s, ?_, hv⟩
        rcases List.mem_cons.1 hs with rfl | hs
        · rw [ha] at hv; cases hv
        · exact hs
      · rw [if_neg ha]; rfl
  unfold fitCostExample
  rw [hform]
  simp only [ok_bind, h, hl]
  unfold addParameters
  obtain ⟨s, hs, hv⟩ := hbad
  obtain ⟨i, hi, rfl⟩ := List.mem_iff_getElem.1 hs
  rw [key _ _ ⟨(l[i], i), List.mk_mem_zipIdx_iff_getElem?.2 (by simp [hi]), hv⟩]
  rfl

end

/-! ## A concrete case -/

open Classical in
/-- An optimizer that returns rational numbers that are as good as any other point up to `ε`, if there are such numbers. -/
noncomputable def floatAnnealing (ε : ℝ) : Optimizer DACall := fun call =>
  let allowed := fun y : List ℝ => y.length = call.x0.length ∧ ∀ b, call.bounds = some b → Between b y
  if h : ∃ x, allowed x ∧ (∀ a ∈ x, ∃ q : ℚ, (q : ℝ) = a) ∧ ∀ y, allowed y → call.func x ≤ call.func y + ε then .ok h.choose
  else .error .valueError

theorem floatAnnealing_spec (ε : ℝ) :
    AnnealsTo ε (floatAnnealing ε) ∧ AnnealsFloats (floatAnnealing ε) ∧ FindsAnnealedFloats ε (floatAnnealing ε) := by
  have key : ∀ call x, floatAnnealing ε call = .ok x →
      (x.length = call.x0.length ∧ ∀ b, call.bounds = some b → Between b x) ∧ (∀ a ∈ x, ∃ q : ℚ, (q : ℝ) = a) ∧
      ∀ y : List ℝ, (y.length = call.x0.length ∧ ∀ b, call.bounds = some b → Between b y) → call.func x ≤ call.func y + ε := by
    intro call x hx
    unfold floatAnnealing at hx
    dsimp only at hx
    split_ifs at hx with h
    cases hx
    exact h.choose_spec
  refine ⟨fun call x hx => ⟨(key call x hx).1, (key call x hx).2.2⟩, fun call x hx => (key call x hx).2.1, fun call => ?_⟩
  intro allowed h
  unfold floatAnnealing
  dsimp only
  rw [dif_pos h]
  exact ⟨_, rfl⟩

/-- A process with the opposite order of sets. -/
def Sympy.turned : Sympy := { Sympy.plain with setOrder := fun l => l.dedup.reverse, setOrder_perm := fun _ => List.reverse_perm _ }

namespace FitCases

/-- The hypotheses of `C114_two_processes` are met, with success, for any `ε` and `δ`. -/
example {ε δ : ℝ} (hε : 0 < ε) (hδ : 0 < δ) : ∃ F d' dat xdict fit, FormulaIs exFF F ∧
    genCostExample Sympy.plain compiler exRepr unaryFloat unaryCsv (saveFform exRepr (fun _ => none) exFF ['s'])
      (fun _ => .ok (fun _ => 1 / 4)) (nearRound δ) noFiles [(kPP, ['f'])] sDegrees ['s'] ['.', '/', 'c'] = .ok d' ∧
    fitCostExample Sympy.turned exRepr unaryFloat unaryCsv (saveFform exRepr (fun _ => none) exFF ['s'])
      (fun _ => .ok (fun _ => 1 / 4)) (fun _ => true) (fun _ => 7) (floatAnnealing ε) { d' with loaded := [] } [(kPP, ['f'])] sDegrees
      ['s'] ['.', '/', 'c'] = .ok (dat, xdict, fit, []) ∧
    BestCurveIn InHundred (√ε + 2 * (δ * √(exFF.getKeys.length * 33))) exFF.getKeys F (fun _ => 36) (fun _ _ => 1 / 4) xdict fit := by
  obtain ⟨F, hF⟩ := formulaIs_exists Sympy.plain exFF_reachable
  obtain ⟨dat, l1, _, l2, l3⟩ := loadData_sampled (Or.inr rfl) (by simp [Dict.WF, Dict.keys]) (by norm_num) (unary_samples kPP)
  obtain ⟨o1, o2, o3⟩ := floatAnnealing_spec ε
  have hocc : ∀ s, IsParameter exFF s → s = symX ∨ s = psi := by
    rintro s (hs | rfl)
    · left
      obtain ⟨k, v, e, h1, h2, h3⟩ := FFormContainer.occurs_mem exFF_reachable.good
        ((FFormContainer.symbolic_iff exFF_reachable.good).1 exFF_symbolic) hs
      simp only [exFF, List.mem_singleton, Prod.mk.injEq, FArr.obj.injEq] at h1
      obtain ⟨_, rfl⟩ := h1
      rcases List.mem_cons.1 h2 with rfl | h2
      · simpa [Expr.free] using h3
      · rw [(List.mem_replicate.1 h2).2] at h3
        simp [Expr.free] at h3
    · exact .inr rfl
  obtain ⟨d', t1, t2⟩ := C114_two_processes Sympy.plain compiler (S' := Sympy.turned) rfl l1 (C33_round_trip_partial Sympy.plain exRepr
    (fun _ => none) ['s'] exFF_reachable exFF_symbolic rfl) hF (by rw [l2]; exact fun k hk => hk) (by simp [exFF, FFormContainer.getKeys, Dict.keys])
    (interp := fun _ => .ok (fun _ => 1 / 4)) (N := fun _ => 36) (y := fun _ _ => 1 / 4) (fun k pts h => by
      have hk : k ∈ dat.getKeys := by
        rw [getPc_radians] at h
        exact Dict.mem_keys_of_mem (Dict.mem_of_get? (Dict.get_ok_iff.1 h))
      rw [l3 k (l2 ▸ hk)] at h
      cases h
      simp [sampled])
    (fun s t hs ht h => by
      rcases hocc s hs with rfl | rfl <;> rcases hocc t ht with rfl | rfl <;> first | rfl | (exact absurd h (by decide)))
    (valid := fun _ => true) (fun _ _ => rfl) (fun _ => 7) hε.le o1 o2 hδ.le (nearRound_spec hδ) noFiles (costName := ['.', '/', 'c'])
    (by decide)
  obtain ⟨-, t3, t4⟩ := t2 { d' with loaded := [] } ⟨rfl, by simp [Dict.keys]⟩
  obtain ⟨⟨dat', xd, fit, w⟩, h⟩ := t3 hε o3
  obtain ⟨rfl, rfl, hb⟩ := t4 _ _ _ _ h
  exact ⟨F, d', dat', xd, fit, hF, t1, h, hb⟩

/-- The hypotheses of `C114_invalid_name` are met. -/
example : ∃ c l, shiftByPsi Sympy.plain exFF = .ok c ∧ c.getFreeSymbols Sympy.plain = .ok l ∧
    ∃ s ∈ l, (fun n : Key => decide (n ≠ symX.name)) s.name = false := by
  have hs := FFormContainer.step_shift Sympy.plain exFF_reachable.good (.sym psi)
  have hr := shifted_reachable Sympy.plain exFF_reachable (.sym psi)
  rw [hs] at hr
  obtain ⟨l, h1, -, -, h2⟩ := (C31_fform_free_symbols Sympy.plain hr).1 (by
    rw [FFormContainer.symbolic_iff hr.good]
    intro it hit
    obtain ⟨it', _, rfl⟩ := List.mem_map.1 hit
    rfl)
  refine ⟨_, l, ?_, h1, symX, (h2 symX).2 ⟨kPP, _, -16, _, rfl, ⟨⟨by decide, by decide⟩, rfl⟩, ?_⟩, by simp⟩
  · unfold shiftByPsi
    rw [hs]
  · simp [Sympy.mul, Sympy.plain, PyObj.sympify, Expr.free, Expr.freeL]

end FitCases

end Shgpy
