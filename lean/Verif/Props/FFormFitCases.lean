import Verif.Props.FFormFit

/-!
# Where the properties of `shgpy/fformfit.py` fail, and concrete cases: C58 to C62, C71
-/

set_option linter.unusedSectionVars false
set_option linter.unusedSimpArgs false
set_option linter.unusedVariables false

namespace Shgpy
open Spec
open DataContainer (Meth liftE)

namespace FitCases

/-! ## A formula and data -/

/-- `a`, real. -/
def symA : Sym := ⟨['a'], 1⟩
/-- `b`, real. -/
def symB : Sym := ⟨['b'], 1⟩

/-- A formula with the components `b`, `a`, `b`. -/
def formula : FFormContainer := ⟨[(kPP, .obj [.sym symB, .sym symA, .sym symB])], 1⟩

/-- Data with the components `1`, `2`, `1`. -/
noncomputable def data : FDataContainer := ⟨[(kPP, [1, 2, 1])], 1, 1, .num 0⟩

/-- The components of the formula. -/
noncomputable def F : Key → ℤ → Valuation → ℂ := fun _ m σ => if m = 0 then σ symA else σ symB
/-- The components of the data. -/
noncomputable def D : Key → ℤ → ℂ := fun _ m => if m = 0 then 2 else 1

/-- A compiler: the functions compute what they should. -/
noncomputable def compiler : Compiler := ⟨fun e x => (e.eval (xsVal x)).re, fun _ _ _ => rfl⟩

theorem formula_reachable : formula.Reachable Sympy.plain :=
  ⟨[(.str kPP, .objArr [.sy (.sym symB), .sy (.sym symA), .sy (.sym symB)])], 1, formula, [], rfl, rfl⟩

theorem data_reachable : data.Reachable := ⟨[(.str kPP, .arr1 .complex64 [1, 2, 1])], 1, data, [], rfl, rfl⟩

theorem free_symbols : formula.getFreeSymbols Sympy.plain = .ok [symA, symB] := by
  show Except.ok (Sympy.plain.sortSyms [symB, symA, symB]) = _
  congr 1
  show (List.dedup [symB, symA, symB]).mergeSort _ = _
  have : List.dedup [symB, symA, symB] = [symA, symB] := by decide
  rw [this]
  exact List.mergeSort_of_pairwise (by decide)

theorem real_symbols : RealSymbols formula := by
  rintro s ⟨k, a, m, e, ha, ⟨hm, he⟩, hs⟩
  have := Dict.mem_of_get? (Dict.get_ok_iff.1 ha)
  simp only [formula, List.mem_singleton, Prod.mk.injEq] at this
  obtain ⟨rfl, rfl⟩ := this
  have h2 := List.mem_of_getElem? he
  simp only [FArr.objs, List.map_cons, List.map_nil, List.mem_cons, List.not_mem_nil, or_false, PyObj.sy.injEq] at h2
  rcases h2 with rfl | rfl | rfl <;> simp [Expr.free] at hs <;> rw [hs] <;> rfl

theorem formulaIs : FormulaIs formula F := by
  intro k hk m h1 h2
  simp only [formula, FFormContainer.getKeys, Dict.keys, List.map_cons, List.map_nil, List.mem_singleton] at hk
  subst hk
  have : m = -1 ∨ m = 0 ∨ m = 1 := by
    simp only [formula, FFormContainer.getM] at h1 h2
    omega
  rcases this with rfl | rfl | rfl
  · exact ⟨_, _, rfl, ⟨⟨by decide, by decide⟩, rfl⟩, fun σ => by simp [objValue, Expr.eval, F]⟩
  · exact ⟨_, _, rfl, ⟨⟨by decide, by decide⟩, rfl⟩, fun σ => by simp [objValue, Expr.eval, F]⟩
  · exact ⟨_, _, rfl, ⟨⟨by decide, by decide⟩, rfl⟩, fun σ => by simp [objValue, Expr.eval, F]⟩

theorem dataIs : DataIs formula data D := by
  intro k hk m h1 h2
  simp only [formula, FFormContainer.getKeys, Dict.keys, List.map_cons, List.map_nil, List.mem_singleton] at hk
  subst hk
  have : m = -1 ∨ m = 0 ∨ m = 1 := by
    simp only [formula, FFormContainer.getM] at h1 h2
    omega
  rcases this with rfl | rfl | rfl
  · exact ⟨⟨_, rfl, ⟨by decide, by decide⟩, by simp [D, data, FDataContainer.getM]⟩, 1, 0, by simp [D]⟩
  · exact ⟨⟨_, rfl, ⟨by decide, by decide⟩, by simp [D, data, FDataContainer.getM]⟩, 2, 0, by simp [D]⟩
  · exact ⟨⟨_, rfl, ⟨by decide, by decide⟩, by simp [D, data, FDataContainer.getM]⟩, 1, 0, by simp [D]⟩

theorem misfit_eq (r : Sym → ℝ) : misfit formula.getKeys formula.getM F D r = 2 * (r symB - 1) ^ 2 + (r symA - 2) ^ 2 := by
  have h : Finset.Icc (-((1 : ℕ) : ℤ)) (1 : ℕ) = {-1, 0, 1} := by decide
  have hn : ∀ x y : ℝ, ‖(x : ℂ) - (y : ℂ)‖ ^ 2 = (x - y) ^ 2 := by
    intro x y
    rw [← Complex.ofReal_sub, Complex.norm_real, Real.norm_eq_abs, sq_abs]
  have h1 := hn (r symB) 1
  have h2 := hn (r symA) 2
  push_cast at h1 h2
  simp only [misfit, formula, FFormContainer.getKeys, FFormContainer.getM, Dict.keys, List.map_cons, List.map_nil, List.sum_cons,
    List.sum_nil, add_zero, h]
  rw [Finset.sum_insert (by decide), Finset.sum_insert (by decide), Finset.sum_singleton]
  simp only [F, D, realVal]
  norm_num [h1, h2]
  ring

/-- The hypotheses of the theorems on cost functions are met: a cost function exists and measures `2 (b - 1)² + (a - 2)²`. -/
example (d : Disk) (chunk : Bool) (save : Option Key) :
    ∃ f d', genCostFunc Sympy.plain compiler d formula data none chunk save = .ok (f, d') ∧
      ∀ r : Sym → ℝ, f [r symA, r symB] = 2 * (r symB - 1) ^ 2 + (r symA - 2) ^ 2 := by
  obtain ⟨f, d', h1, h2⟩ := C57_cost Sympy.plain compiler d formula_reachable (Or.inr ⟨rfl, free_symbols⟩) rfl formulaIs dataIs
    chunk (fun _ => by simp [formula, FFormContainer.getKeys, Dict.keys]) save
  exact ⟨f, d', h1, fun r => by rw [← misfit_eq]; exact h2 r⟩

theorem not_constant : misfit formula.getKeys formula.getM F D (fun _ => 0) ≠ misfit formula.getKeys formula.getM F D (fun _ => 1) := by
  rw [misfit_eq, misfit_eq]
  norm_num

/-- The hypotheses of the theorem on gradients are met. -/
example (d : Disk) (save gradSave : Option Key) :
    ∃ f d', energyAndDenergy Sympy.plain compiler d formula data [symA, symB] false save gradSave = .ok (f, d') ∧
      IsMisfitGrad formula F D [symA, symB] f :=
  C70_gradient Sympy.plain compiler d formula_reachable real_symbols (getFreeSymbols_lists formula_reachable.good free_symbols).2 rfl
    formulaIs dataIs not_constant save gradSave

theorem plain_kPP : ∀ k ∈ formula.getKeys, PlainName k := by
  unfold PlainName
  decide

/-- An empty disk. -/
def noFiles : Disk := ⟨[], [], []⟩

/-- The hypotheses of the theorem on loaded model functions are met. -/
example (L : Listing) (folder : Key) : ∃ f d' g d'', genModelFunc Sympy.plain compiler noFiles formula folder 10 = .ok (f, d') ∧
    loadModelFunc L d' formula folder = .ok (g, d'') ∧ ∀ r : Sym → ℝ, g [r symA, r symB] kPP 1 = .ok (r symB : ℂ) := by
  obtain ⟨f, d', g, d'', h1, h2, h3, _⟩ := C58_loaded_model_partial Sympy.plain compiler L noFiles formula_reachable real_symbols
    plain_kPP free_symbols formulaIs folder (fun _ => by simp [noFiles, Dict.keys]) (n := 10) (by norm_num)
  refine ⟨f, d', g, d'', h1, h2, fun r => ?_⟩
  have := h3 kPP (by decide) 1 (by decide) (by decide) r []
  simpa [F, realVal] using this

/-- The hypotheses of the theorems on fits are met: an optimizer that finds the best parameters. -/
example : ∃ res st', leastSquaresFit Sympy.plain compiler (fun _ => .ok [2, 1]) formula data [(symB, 0), (symA, 5)] none false none
      none ⟨noFiles, []⟩ = (.ok res, st') ∧ Dict.get res.xdict symA = .ok 2 ∧ Dict.get res.xdict symB = .ok 1 := by
  obtain ⟨call, _, _, _, _, h5, _⟩ := C60_least_squares Sympy.plain compiler (fdat := data) (F := F) (D := D) (chunk := false)
    (load := none) (st := ⟨noFiles, []⟩) (guess := [(symB, 0), (symA, 5)]) (g := fun s => if s = symA then 5 else 0)
    (boundsDict := none) (lo := fun _ => 0) (hi := fun _ => 0) (fun _ => .ok [2, 1]) formula_reachable free_symbols (by simp)
    (Or.inl ⟨rfl, rfl, formulaIs, dataIs, by simp⟩) none
    (by
      intro s hs
      simp only [List.mem_cons, List.not_mem_nil, or_false] at hs
      rcases hs with rfl | rfl
      · simp [Dict.get, Dict.get?, symA, symB]
      · simp [Dict.get, Dict.get?, symA, symB])
    (fun b hb => by cases hb) (fun q _ => by simp [Dict.keys])
  obtain ⟨res, h6, _, _, _, h7⟩ := h5 (fun s => if s = symA then 2 else 1) (by simp [symA, symB])
  refine ⟨res, _, Prod.ext h6 rfl, ?_, ?_⟩
  · simpa using h7 symA (by simp)
  · simpa [symA, symB] using h7 symB (by simp)

/-! ## C58: names with underscores -/

/-- A formula with the combinations `a` and `a_0_real_b`, whose values are `1` and `2`. -/
def clash : FFormContainer := ⟨[(['a'], .obj [.num 1]), (['a', '_', '0', '_', 'r', 'e', 'a', 'l', '_', 'b'], .obj [.num 2])], 0⟩

/-- Files are listed in the order of the dictionary. -/
def listing : Listing := ⟨id, fun _ => List.Perm.refl _⟩

/-- `a_0_real_b`. -/
def keyB : Key := ['a', '_', '0', '_', 'r', 'e', 'a', 'l', '_', 'b']

theorem glob00 : globMatch (partName ['a'] 0 .real ++ ['*', '.', 's', 'o']) (chunkName ['a'] 0 .real 0) = true := by
  decide +kernel
theorem glob01 : globMatch (partName ['a'] 0 .real ++ ['*', '.', 's', 'o']) (chunkName ['a'] 0 .imag 0) = false := by
  decide +kernel
theorem glob02 : globMatch (partName ['a'] 0 .real ++ ['*', '.', 's', 'o']) (chunkName keyB 0 .real 0) = true := by
  decide +kernel
theorem glob03 : globMatch (partName ['a'] 0 .real ++ ['*', '.', 's', 'o']) (chunkName keyB 0 .imag 0) = true := by
  decide +kernel
theorem glob10 : globMatch (partName ['a'] 0 .imag ++ ['*', '.', 's', 'o']) (chunkName ['a'] 0 .real 0) = false := by
  decide +kernel
theorem glob11 : globMatch (partName ['a'] 0 .imag ++ ['*', '.', 's', 'o']) (chunkName ['a'] 0 .imag 0) = true := by
  decide +kernel
theorem glob12 : globMatch (partName ['a'] 0 .imag ++ ['*', '.', 's', 'o']) (chunkName keyB 0 .real 0) = false := by
  decide +kernel
theorem glob13 : globMatch (partName ['a'] 0 .imag ++ ['*', '.', 's', 'o']) (chunkName keyB 0 .imag 0) = false := by
  decide +kernel
theorem glob20 : globMatch (partName keyB 0 .real ++ ['*', '.', 's', 'o']) (chunkName ['a'] 0 .real 0) = false := by
  decide +kernel
theorem glob21 : globMatch (partName keyB 0 .real ++ ['*', '.', 's', 'o']) (chunkName ['a'] 0 .imag 0) = false := by
  decide +kernel
theorem glob22 : globMatch (partName keyB 0 .real ++ ['*', '.', 's', 'o']) (chunkName keyB 0 .real 0) = true := by
  decide +kernel
theorem glob23 : globMatch (partName keyB 0 .real ++ ['*', '.', 's', 'o']) (chunkName keyB 0 .imag 0) = false := by
  decide +kernel
theorem glob30 : globMatch (partName keyB 0 .imag ++ ['*', '.', 's', 'o']) (chunkName ['a'] 0 .real 0) = false := by
  decide +kernel
theorem glob31 : globMatch (partName keyB 0 .imag ++ ['*', '.', 's', 'o']) (chunkName ['a'] 0 .imag 0) = false := by
  decide +kernel
theorem glob32 : globMatch (partName keyB 0 .imag ++ ['*', '.', 's', 'o']) (chunkName keyB 0 .real 0) = false := by
  decide +kernel
theorem glob33 : globMatch (partName keyB 0 .imag ++ ['*', '.', 's', 'o']) (chunkName keyB 0 .imag 0) = true := by
  decide +kernel

/-- The compiled function for a part of a constant. -/
noncomputable def const (q : ℚ) (p : Part) : CFunc := compiler.run ((Part.of Sympy.plain (.num q) p).xreplace [])

theorem const_real (q : ℚ) : const q .real [] = q := by
  simp [const, compiler, Part.of, Sympy.plain, Expr.xreplace, Expr.xreplaceL, Expr.conj, Expr.eval, Expr.evalProd, Expr.evalSum]
  ring

theorem const_imag (q : ℚ) : const q .imag [] = 0 := by
  simp [const, compiler, Part.of, Sympy.plain, Expr.xreplace, Expr.xreplaceL, Expr.conj, Expr.eval, Expr.evalProd, Expr.evalSum]

/-- What the folder contains. -/
noncomputable def clashContent : Dict Key Content :=
  [(chunkName ['a'] 0 .real 0, some (const 1 .real)), (chunkName ['a'] 0 .imag 0, some (const 1 .imag)),
   (chunkName keyB 0 .real 0, some (const 2 .real)), (chunkName keyB 0 .imag 0, some (const 2 .imag))]

theorem clash_model : fixedAutowrapModel Sympy.plain compiler clash none 10 =
    .ok ([((['a'], 0, .real), [const 1 .real]), ((['a'], 0, .imag), [const 1 .imag]),
      ((keyB, 0, .real), [const 2 .real]), ((keyB, 0, .imag), [const 2 .imag])], clashContent) := by
  have hfree : clash.getFreeSymbols Sympy.plain = .ok [] := by
    show Except.ok (Sympy.plain.sortSyms []) = _
    congr 1
    show (List.dedup []).mergeSort _ = _
    simp
  have h1 : ∀ p, modelFuncs Sympy.plain compiler clash none 10 (['a'], 0, p) = .ok [(chunkName ['a'] 0 p 0, const 1 p)] := by
    intro p
    unfold modelFuncs modelExpr argumentSymbols
    rw [hfree]
    cases p <;> rfl
  have h2 : ∀ p, modelFuncs Sympy.plain compiler clash none 10 (keyB, 0, p) = .ok [(chunkName keyB 0 p 0, const 2 p)] := by
    intro p
    unfold modelFuncs modelExpr argumentSymbols
    rw [hfree]
    cases p <;> rfl
  have h3 : funcKeys clash = [(['a'], 0, .real), (['a'], 0, .imag), (keyB, 0, .real), (keyB, 0, .imag)] := by decide +kernel
  unfold fixedAutowrapModel
  rw [h3]
  simp only [List.mapM_cons, List.mapM_nil, h1, h2, ok_bind, bind_pure_comp]
  rfl

theorem part0 (d : Disk) : loadPart listing ['m'] clashContent (['a'], 0, .real) d =
    [(chunkName ['a'] 0 .real 0, some (const 1 .real)), (chunkName keyB 0 .real 0, some (const 2 .real)), (chunkName keyB 0 .imag 0, some (const 2 .imag))].foldlM
      (fun (acc : List CFunc × Disk) p => do
        let (f, d) ← acc.2.dlopen (['m'] ++ '/' :: p.1) (some p.2)
        return (acc.1 ++ [f], d)) ([], d) := by
  unfold loadPart
  congr 1
  show clashContent.filter _ = _
  simp only [clashContent, List.filter_cons, List.filter_nil, glob00, glob01, glob02, glob03, if_true, Bool.false_eq_true, if_false]

theorem part1 (d : Disk) : loadPart listing ['m'] clashContent (['a'], 0, .imag) d =
    [(chunkName ['a'] 0 .imag 0, some (const 1 .imag))].foldlM
      (fun (acc : List CFunc × Disk) p => do
        let (f, d) ← acc.2.dlopen (['m'] ++ '/' :: p.1) (some p.2)
        return (acc.1 ++ [f], d)) ([], d) := by
  unfold loadPart
  congr 1
  show clashContent.filter _ = _
  simp only [clashContent, List.filter_cons, List.filter_nil, glob10, glob11, glob12, glob13, if_true, Bool.false_eq_true, if_false]

theorem part2 (d : Disk) : loadPart listing ['m'] clashContent (keyB, 0, .real) d =
    [(chunkName keyB 0 .real 0, some (const 2 .real))].foldlM
      (fun (acc : List CFunc × Disk) p => do
        let (f, d) ← acc.2.dlopen (['m'] ++ '/' :: p.1) (some p.2)
        return (acc.1 ++ [f], d)) ([], d) := by
  unfold loadPart
  congr 1
  show clashContent.filter _ = _
  simp only [clashContent, List.filter_cons, List.filter_nil, glob20, glob21, glob22, glob23, if_true, Bool.false_eq_true, if_false]

theorem part3 (d : Disk) : loadPart listing ['m'] clashContent (keyB, 0, .imag) d =
    [(chunkName keyB 0 .imag 0, some (const 2 .imag))].foldlM
      (fun (acc : List CFunc × Disk) p => do
        let (f, d) ← acc.2.dlopen (['m'] ++ '/' :: p.1) (some p.2)
        return (acc.1 ++ [f], d)) ([], d) := by
  unfold loadPart
  congr 1
  show clashContent.filter _ = _
  simp only [clashContent, List.filter_cons, List.filter_nil, glob30, glob31, glob32, glob33, if_true, Bool.false_eq_true, if_false]

theorem clash_load : ∃ d'', loadFuncDict listing ⟨[], [(['m'], clashContent)], []⟩ clash ['m'] =
    .ok ([((['a'], 0, .real), [const 1 .real, const 2 .real, const 2 .imag]), ((['a'], 0, .imag), [const 1 .imag]),
      ((keyB, 0, .real), [const 2 .real]), ((keyB, 0, .imag), [const 2 .imag])], d'') := by
  have h3 : funcKeys clash = [(['a'], 0, .real), (['a'], 0, .imag), (keyB, 0, .real), (keyB, 0, .imag)] := by decide +kernel
  have h4 : (Dict.get? [(['m'], clashContent)] ['m']).getD [] = clashContent := rfl
  unfold loadFuncDict
  rw [h3]
  simp only [h4, List.foldlM_cons, List.foldlM_nil, part0, part1, part2, part3]
  exact ⟨_, rfl⟩

/-- C58 fails for names with underscores: the files of one combination are taken for files of another one.  The loaded model
function has the value `3` where the formula and the generated model function have the value `1`. -/
theorem C58_underscore_broken : ∃ f d' g d'', genModelFunc Sympy.plain compiler noFiles clash ['m'] 10 = .ok (f, d') ∧
    loadModelFunc listing d' clash ['m'] = .ok (g, d'') ∧ clash.Reachable Sympy.plain ∧ FRepresents clash ['a'] 0 (fun _ => 1) ∧
    f [] ['a'] 0 = .ok 1 ∧ g [] ['a'] 0 = .ok 3 := by
  obtain ⟨d'', hload⟩ := clash_load
  refine ⟨_, _, modelFunc [((['a'], 0, .real), [const 1 .real, const 2 .real, const 2 .imag]), ((['a'], 0, .imag), [const 1 .imag]),
      ((keyB, 0, .real), [const 2 .real]), ((keyB, 0, .imag), [const 2 .imag])], d'',
      by unfold genModelFunc; rw [clash_model]; rfl, ?_, ?_, ?_, ?_, ?_⟩
  · unfold loadModelFunc
    show (loadFuncDict listing ⟨[], [(['m'], clashContent)], []⟩ clash ['m'] >>= _) = _
    rw [hload]
    rfl
  · exact ⟨[(.str ['a'], .objArr [.sy (.num 1)]), (.str keyB, .objArr [.sy (.num 2)])], 0, clash, [], rfl, rfl⟩
  · exact ⟨_, _, rfl, ⟨⟨by decide, by decide⟩, rfl⟩, fun σ => by simp [objValue, Expr.eval]⟩
  · show Except.ok _ = _
    simp [const_real, const_imag]
  · show Except.ok _ = _
    simp [const_real, const_imag]
    norm_num

/-- The hypotheses of the theorem on the files of the folder are met: with one term per file there is a file for the real part
of the component 1. -/
example (folder : Key) : ∃ f d' content, genModelFunc Sympy.plain compiler noFiles formula folder 1 = .ok (f, d') ∧
    Dict.get? d'.folders folder = some content ∧ chunkName kPP 1 .real 0 ∈ Dict.keys content := by
  obtain ⟨f, d', content, h1, h2, chunks, h3, h4⟩ := C58_files Sympy.plain compiler noFiles formula_reachable real_symbols
    free_symbols formulaIs folder (n := 1) (by norm_num)
  refine ⟨f, d', content, h1, h2, ?_⟩
  obtain ⟨h5, h6⟩ := h3 kPP (by simp [formula, FFormContainer.getKeys, Dict.keys]) 1 (by decide) (by decide) .real
  have h7 := h6 (fun _ => 1)
  cases hc : chunks kPP 1 .real with
  | nil =>
    rw [hc] at h7
    simp [F, realVal] at h7
  | cons e es =>
    have := (h4 (chunkName kPP 1 .real 0) (some (compiler.run e))).2 ⟨kPP, by simp [formula, FFormContainer.getKeys, Dict.keys], 1,
      by decide, by decide, .real, 0, e, by rw [hc]; rfl, rfl, rfl⟩
    exact Dict.mem_keys_of_mem (Dict.mem_of_get? this)

/-! ## C58: a negative number of terms per file -/

open Classical in
/-- The rewriting `(e + e)/2 = e` and no other one. -/
noncomputable def halve : Expr → Expr
  | .mul [.num q, .add [a, b]] => if q = 1 / 2 ∧ a = b then a else .mul [.num q, .add [a, b]]
  | e => e

/-- An instance of the assumptions on sympy that simplifies the real part of a real expression. -/
noncomputable def halving : Sympy where
  norm := halve
  eval_norm := by
    intro σ e
    unfold halve
    split
    · split
      · rename_i h
        obtain ⟨rfl, rfl⟩ := h
        simp only [Expr.eval, Expr.evalProd, Expr.evalSum]
        push_cast
        ring
      · rfl
    · rfl
  free_norm := by
    intro e s h
    unfold halve at h
    split at h
    · split at h
      · simp only [Expr.free, Expr.freeL, List.nil_append, List.append_nil, List.mem_append]
        exact Or.inl h
      · exact h
    · exact h
  setOrder l := l.dedup
  setOrder_perm _ := List.Perm.refl _

/-- The formula `a + b`. -/
def sumFormula : FFormContainer := ⟨[(kPP, .obj [.add [.sym symA, .sym symB]])], 0⟩

theorem sum_free : sumFormula.getFreeSymbols halving = .ok [symA, symB] := by
  show Except.ok (halving.sortSyms [symA, symB]) = _
  congr 1
  show (List.dedup [symA, symB]).mergeSort _ = _
  have : List.dedup [symA, symB] = [symA, symB] := by decide
  rw [this]
  exact List.mergeSort_of_pairwise (by decide)

theorem sum_real : modelExpr halving sumFormula kPP 0 .real none = .ok (.add [.sym (xsElem 0), .sym (xsElem 1)]) := by
  unfold modelExpr argumentSymbols
  rw [sum_free, ok_bind]
  show Except.ok (halve (Expr.xreplace _ (halve (.mul [.num (1 / 2), .add [.add [.sym symA, .sym symB], .add [.sym symA, .sym symB]]])))) = _
  have : halve (.mul [.num (1 / 2), .add [.add [.sym symA, .sym symB], .add [.sym symA, .sym symB]]]) = .add [.sym symA, .sym symB] := by
    unfold halve
    simp
  rw [this]
  rfl

theorem sum_imag : ∃ es, modelExpr halving sumFormula kPP 0 .imag none = .ok (.mul es) := by
  unfold modelExpr argumentSymbols
  rw [sum_free, ok_bind]
  refine ⟨?_, ?_⟩
  rotate_left
  · show Except.ok (halve (Expr.xreplace _ (halve (.mul [.num (-1 / 2), .I, .add [.add [.sym symA, .sym symB],
      .mul [.num (-1), .add [.sym symA, .sym symB]]]])))) = _
    have : halve (.mul [.num (-1 / 2), .I, .add [.add [.sym symA, .sym symB], .mul [.num (-1), .add [.sym symA, .sym symB]]]]) =
        .mul [.num (-1 / 2), .I, .add [.add [.sym symA, .sym symB], .mul [.num (-1), .add [.sym symA, .sym symB]]]] := by
      unfold halve
      rfl
    rw [this]
    simp only [Expr.xreplace, Expr.xreplaceL]
    rw [halve]
    intro q a b h
    simp at h

/-- C58 fails for a negative number of terms per file: the files of a sum are missing and the model function of the formula
`a + b` is zero everywhere, without any exception. -/
theorem C58_negative_terms_broken : sumFormula.Reachable halving ∧ FRepresents sumFormula kPP 0 (fun σ => σ symA + σ symB) ∧
    ∃ f d', genModelFunc halving compiler noFiles sumFormula ['m'] (-1) = .ok (f, d') ∧
      ∀ r : Sym → ℝ, f [r symA, r symB] kPP 0 = .ok 0 := by
  refine ⟨⟨[(.str kPP, .objArr [.sy (.add [.sym symA, .sym symB])])], 0, sumFormula, [], rfl, rfl⟩,
    ⟨_, _, rfl, ⟨⟨by decide, by decide⟩, rfl⟩, fun σ => by simp [objValue, Expr.eval, Expr.evalSum]⟩, ?_⟩
  have hgood : sumFormula.Good :=
    FFormContainer.Reachable.good (S := halving) ⟨[(.str kPP, .objArr [.sy (.add [.sym symA, .sym symB])])], 0, sumFormula, [], rfl, rfl⟩
  obtain ⟨es, h1⟩ := sum_imag
  obtain ⟨e, h2, h3⟩ := modelExpr_ok halving hgood (k := kPP) (m := 0) (f := fun σ => σ symA + σ symB) (Or.inr ⟨rfl, sum_free⟩)
    ⟨_, _, rfl, ⟨⟨by decide, by decide⟩, rfl⟩, fun σ => by simp [objValue, Expr.eval, Expr.evalSum]⟩ .imag
  rw [h1] at h2
  cases h2
  have h4 : modelFuncs halving compiler sumFormula none (-1) (kPP, 0, .real) = .ok [] := by
    unfold modelFuncs
    simp only
    rw [sum_real, ok_bind]
    rfl
  have h5 : modelFuncs halving compiler sumFormula none (-1) (kPP, 0, .imag) =
      .ok [(chunkName kPP 0 .imag 0, compiler.run (.mul es))] := by
    unfold modelFuncs
    simp only
    rw [h1, ok_bind]
    rfl
  have h6 : funcKeys sumFormula = [(kPP, 0, .real), (kPP, 0, .imag)] := by decide +kernel
  refine ⟨modelFunc [((kPP, 0, .real), []), ((kPP, 0, .imag), [compiler.run (.mul es)])],
    { noFiles with folders := [(['m'], [(chunkName kPP 0 .imag 0, some (compiler.run (.mul es)))])] }, ?_, ?_⟩
  · unfold genModelFunc fixedAutowrapModel
    rw [h6]
    simp only [List.mapM_cons, List.mapM_nil, h4, h5, ok_bind, pure, Except.pure]
    rfl
  · intro r
    have h7 : compiler.run (.mul es) [r symA, r symB] = 0 := by
      have := h3.eval r
      show ((Expr.mul es).eval (xsVal ([symA, symB].map r))).re = 0
      rw [this]
      simp [Part.value, realVal]
    show Except.ok _ = _
    simp [h7]

/-! ## C71: incomplete folders -/

/-- C71 fails: loading from a folder that does not exist raises nothing and gives a model function that is zero, for every
formula. -/
theorem C71_missing_folder_broken (S : Sympy) (L : Listing) (d : Disk) {fform : FFormContainer} (hc : fform.Reachable S) {folder : Key}
    (hd : folder ∉ Dict.keys d.folders) :
    ∃ g, loadModelFunc L d fform folder = .ok (g, d) ∧
      ∀ k ∈ fform.getKeys, ∀ m : ℤ, -(fform.getM : ℤ) ≤ m → m ≤ fform.getM → ∀ x, g x k m = .ok 0 := by
  have hpart : ∀ key d', loadPart L folder [] key d' = .ok ([], d') := by
    intro key d'
    have : L.order [] = [] := (L.perm []).eq_nil
    unfold loadPart
    rw [this]
    rfl
  have gen : ∀ (ks : List (Key × ℤ × Part)) (acc : FuncDict), (∀ k ∈ ks, k ∉ Dict.keys acc) → ks.Nodup →
      ks.foldlM (fun (acc : FuncDict × Disk) key => do
        let (fs, d) ← loadPart L folder [] key acc.2
        return (Dict.set acc.1 key fs, d)) (acc, d) = .ok (acc ++ ks.map (fun key => (key, [])), d) := by
    intro ks
    induction ks with
    | nil => intro acc _ _; simp; rfl
    | cons k ks ih =>
      intro acc h1 h2
      rw [List.foldlM_cons, hpart]
      show ks.foldlM _ (Dict.set acc k [], d) = _
      rw [Dict.set_of_notMem (h1 k (by simp)), ih]
      · simp
      · intro k' hk' hcon
        unfold Dict.keys at hcon
        rw [List.map_append, List.mem_append] at hcon
        rcases hcon with hcon | hcon
        · exact h1 k' (by simp [hk']) hcon
        · simp [Dict.keys] at hcon
          rw [hcon] at hk'
          exact (List.nodup_cons.1 h2).1 hk'
      · exact (List.nodup_cons.1 h2).2
  have hload : loadFuncDict L d fform folder = .ok ((funcKeys fform).map (fun key => (key, [])), d) := by
    unfold loadFuncDict
    rw [Dict.get?_eq_none.2 hd]
    simpa using gen (funcKeys fform) [] (by simp [Dict.keys]) (funcKeys_nodup hc.good)
  refine ⟨modelFunc ((funcKeys fform).map (fun key => (key, []))), ?_, ?_⟩
  · unfold loadModelFunc
    rw [hload]
    rfl
  · intro k hk m h1 h2 x
    unfold modelFunc
    rw [get_funcDict (funcKeys_nodup hc.good) (fun _ => []) (mem_funcKeys.2 ⟨hk, h1, h2⟩), ok_bind,
      get_funcDict (funcKeys_nodup hc.good) (fun _ => []) (mem_funcKeys.2 ⟨hk, h1, h2⟩), ok_bind]
    simp
    rfl

/-- The hypotheses are met by a formula that is not zero. -/
example (L : Listing) : ∃ g, loadModelFunc L noFiles formula ['m'] = .ok (g, noFiles) ∧ g [1, 1] kPP 0 = .ok 0 := by
  obtain ⟨g, h1, h2⟩ := C71_missing_folder_broken Sympy.plain L noFiles formula_reachable (folder := ['m']) (by simp [noFiles, Dict.keys])
  exact ⟨g, h1, h2 kPP (by decide) 0 (by decide) (by decide) _⟩

/-! ## C59: loading back -/

/-- C59 fails within a process that has loaded the file before: the dynamic loader returns the old library for the path, so
loading a newly saved cost function gives the old one. -/
theorem C59_reload (S : Sympy) (C : Compiler) (d : Disk) {fform : FFormContainer} {fdat : FDataContainer}
    {arguments : Option (List Sym)} {name : Key} (hslash : '/' ∈ name) {old : CFunc} (hold : Dict.get? d.loaded name = some old)
    {f : CFunc} {d' : Disk} (h : genCostFunc S C d fform fdat arguments false (some name) = .ok (f, d')) :
    loadFunc d' name = .ok (old, d') := by
  unfold genCostFunc at h
  simp only [Bool.false_eq_true, if_false] at h
  obtain ⟨e, h1, h2⟩ := bind_ok h
  cases h2
  unfold loadFunc Disk.dlopen
  rw [if_neg (by simpa using hslash)]
  have : Dict.get? (d.save (C.run e) (some name)).loaded name = some old := hold
  rw [this]

/-- Other data for the same formula: `0`, `0`, `0`. -/
noncomputable def data0 : FDataContainer := ⟨[(kPP, [0, 0, 0])], 1, 1, .num 0⟩

theorem dataIs0 : DataIs formula data0 (fun _ _ => 0) := by
  intro k hk m h1 h2
  simp only [formula, FFormContainer.getKeys, Dict.keys, List.map_cons, List.map_nil, List.mem_singleton] at hk
  subst hk
  have : m = -1 ∨ m = 0 ∨ m = 1 := by
    simp only [formula, FFormContainer.getM] at h1 h2
    omega
  rcases this with rfl | rfl | rfl
  · exact ⟨⟨_, rfl, ⟨by decide, by decide⟩, by simp [data0, FDataContainer.getM]⟩, 0, 0, by simp⟩
  · exact ⟨⟨_, rfl, ⟨by decide, by decide⟩, by simp [data0, FDataContainer.getM]⟩, 0, 0, by simp⟩
  · exact ⟨⟨_, rfl, ⟨by decide, by decide⟩, by simp [data0, FDataContainer.getM]⟩, 0, 0, by simp⟩

/-- C59 fails: a cost function is saved and loaded, then another one is saved to the same file; loading gives the first one
again, with another value. -/
theorem C59_reload_broken : ∃ f₁ d₁ d₂ f₂ d₃ d₄,
    genCostFunc Sympy.plain compiler noFiles formula data none false (some ['.', '/', 'c']) = .ok (f₁, d₁) ∧
    loadFunc d₁ ['.', '/', 'c'] = .ok (f₁, d₂) ∧
    genCostFunc Sympy.plain compiler d₂ formula data0 none false (some ['.', '/', 'c']) = .ok (f₂, d₃) ∧
    loadFunc d₃ ['.', '/', 'c'] = .ok (f₁, d₄) ∧ f₁ [2, 1] = 0 ∧ f₂ [2, 1] ≠ 0 := by
  have hr : [symA, symB].map (fun s => if s = symA then (2 : ℝ) else 1) = [2, 1] := by simp [symA, symB]
  obtain ⟨f₁, d₁, h1, h2⟩ := C57_cost Sympy.plain compiler noFiles formula_reachable (Or.inr ⟨rfl, free_symbols⟩) rfl formulaIs dataIs
    false (by simp) (some ['.', '/', 'c'])
  obtain ⟨d₂, h3⟩ := C59_cost_partial Sympy.plain compiler noFiles false (name := ['.', '/', 'c']) (by simp) (by simp [noFiles, Dict.keys]) h1
  obtain ⟨f₂, d₃, h4, h5⟩ := C57_cost Sympy.plain compiler d₂ formula_reachable (Or.inr ⟨rfl, free_symbols⟩) rfl formulaIs dataIs0
    false (by simp) (some ['.', '/', 'c'])
  have hold : Dict.get? d₂.loaded ['.', '/', 'c'] = some f₁ := by
    unfold loadFunc Disk.dlopen at h3
    rw [if_neg (by simp)] at h3
    split at h3
    · rename_i f hf
      cases h3
      exact hf
    · split at h3
      · cases h3
        simp [Dict.get?_set]
      · cases h3
  refine ⟨f₁, d₁, d₂, f₂, d₃, d₃, h1, h3, h4, C59_reload Sympy.plain compiler d₂ (by simp) hold h4, ?_, ?_⟩
  · rw [← hr, h2, misfit_eq]
    simp [symA, symB]
  · rw [← hr, h5]
    intro hcon
    have := (C57_zero_iff formula.getKeys formula.getM F (fun _ _ => 0) (fun s => if s = symA then (2 : ℝ) else 1)).2.1 hcon kPP
      (by decide) 0 (by decide) (by decide)
    simp [F, realVal] at this

/-- C59 fails for a file name without a slash: loading raises `OSError`, also right after saving to that name. -/
theorem C59_bare_name_broken (d : Disk) {name : Key} (h : '/' ∉ name) : loadFunc d name = .error .osError := by
  unfold loadFunc Disk.dlopen
  rw [if_pos h]

/-- C59 fails if there is a file with a higher number from an earlier fit with more parameters: it is taken for one more
component of the gradient. -/
theorem C59_stale_gradient (S : Sympy) (C : Compiler) (d : Disk) {fform : FFormContainer} {fdat : FDataContainer} {l : List Sym}
    {name pre : Key} (hslash : '/' ∈ name) (hslash' : '/' ∈ pre) (hfresh : name ∉ Dict.keys d.loaded)
    (hfresh' : ∀ i, gradName pre i ∉ Dict.keys d.loaded) (hne : ∀ i, gradName pre i ≠ name) {stale : CFunc}
    (hstale : Dict.get? d.files (gradName pre l.length) = some (some stale))
    (hend : gradName pre (l.length + 1) ∉ Dict.keys d.files) {f : CGrad} {d' : Disk}
    (h : energyAndDenergy S C d fform fdat l false (some name) (some pre) = .ok (f, d')) :
    ∃ g d'', loadEnergyAndDenergy d' name pre = .ok (g, d'') ∧ ∀ x, (g x).2 = (f x).2 ++ [stale x] := by
  unfold energyAndDenergy at h
  simp only [Bool.false_eq_true, if_false] at h
  obtain ⟨e, h1, h⟩ := bind_ok h
  obtain ⟨de, h2, h⟩ := bind_ok h
  simp only [fixedAutowrap, denergyFuncs_fst] at h
  have hlen : de.length = l.length := by
    unfold denergyExpr at h2
    split at h2
    · cases h2
    · cases h2
      simp
  obtain ⟨k1, k2, k3⟩ := denergyFuncs_disk C pre de 0 (d.save (C.run e) (some name))
  have hd' : (denergyFuncs C (some pre) de 0 (d.save (C.run e) (some name))).2 = d' := by
    cases h
    rfl
  have hf : f = fun x => (C.run e x, (de.map C.run).map (fun g => g x)) := by
    cases h
    rfl
  rw [hd'] at k1 k2 k3
  have hother : ∀ i, l.length ≤ i → Dict.get? d'.files (gradName pre i) = Dict.get? d.files (gradName pre i) := by
    intro i hi
    rw [k2 _ (fun j _ hj heq => ?_), save_get, if_neg (fun h => hne _ h.symm)]
    have := gradName_inj heq
    omega
  have hfile : Dict.get? d'.files name = some (some (C.run e)) := by
    rw [k2 name (fun j _ _ => (hne j).symm), save_get, if_pos rfl]
  have hall : ∀ j g, (de.map C.run ++ [stale])[j]? = some g → Dict.get? d'.files (gradName pre (0 + j)) = some (some g) := by
    intro j g hj
    rcases lt_trichotomy j de.length with hlt | heq | hgt
    · rw [List.getElem?_append_left (by simpa using hlt), List.getElem?_map] at hj
      obtain ⟨e', he', rfl⟩ := Option.map_eq_some_iff.1 hj
      exact k3 j e' he'
    · rw [List.getElem?_append_right (by simp [heq])] at hj
      simp [heq] at hj
      rw [Nat.zero_add, hother j (by omega), heq, hlen, hstale, hj]
    · have := (List.getElem?_eq_some_iff.1 hj).1
      simp at this
      omega
  obtain ⟨d1, m1, m2, m3, m4, m5⟩ := dlopen_ok (d := d') (path := name) (f := C.run e) hslash
    (Or.inl (by rw [k1]; exact Dict.get?_eq_none.2 hfresh))
  obtain ⟨d'', m6⟩ := loadGrads_ok pre hslash' (de.map C.run ++ [stale]) (d1.files.length + 1) 0 d1 (by
      rw [m2, Nat.lt_succ_iff]
      refine files_length (name := gradName pre) (fun i j h => gradName_inj h) (fun i hi => ?_)
      have := hall i _ (List.getElem?_eq_getElem hi)
      rw [Nat.zero_add] at this
      rw [this]
      rfl)
    (by
      intro j g hj
      rw [m2]
      exact hall j g hj)
    (by
      rw [m2, List.length_append, List.length_map, Nat.zero_add, hother _ (by omega), hlen]
      exact Dict.get?_eq_none.2 hend)
    (by
      intro j hj
      rw [Nat.zero_add, m5 _ (hne j), k1]
      exact Dict.get?_eq_none.2 (hfresh' j))
  refine ⟨fun x => (C.run e x, (de.map C.run ++ [stale]).map (fun g => g x)), d'', ?_, fun x => by rw [hf]; simp⟩
  unfold loadEnergyAndDenergy loadFunc
  rw [hfile, m1, ok_bind]
  simp only
  rw [m6]
  rfl

/-- `./g`. -/
def pre : Key := ['.', '/', 'g']

/-- A disk with a file `./g2.so` from an earlier fit with three parameters. -/
noncomputable def staleDisk : Disk := ⟨[(gradName pre 2, some (fun _ => 7))], [], []⟩

/-- C59 fails: saving the cost function and the gradient for two parameters and loading them gives a gradient with three
components. -/
theorem C59_stale_gradient_broken : ∃ f d' g d'',
    energyAndDenergy Sympy.plain compiler staleDisk formula data [symA, symB] false (some ['.', '/', 'c']) (some pre) = .ok (f, d') ∧
    loadEnergyAndDenergy d' ['.', '/', 'c'] pre = .ok (g, d'') ∧ ∀ r : Sym → ℝ,
      (f [r symA, r symB]).2.length = 2 ∧ (g [r symA, r symB]).2 = (f [r symA, r symB]).2 ++ [7] := by
  obtain ⟨f, d', h1, h2⟩ := C70_gradient Sympy.plain compiler staleDisk formula_reachable real_symbols
    (getFreeSymbols_lists formula_reachable.good free_symbols).2 rfl formulaIs dataIs not_constant (some ['.', '/', 'c']) (some pre)
  have hne : ∀ i, gradName pre i ≠ ['.', '/', 'c'] := by
    intro i h
    have := congrArg (fun l => l[2]?) h
    simp [gradName, pre] at this
  obtain ⟨g, d'', h3, h4⟩ := C59_stale_gradient Sympy.plain compiler staleDisk (stale := fun _ => 7) (pre := pre) (by simp) (by simp [pre])
    (by simp [staleDisk, Dict.keys]) (by simp [staleDisk, Dict.keys]) hne
    (by simp [staleDisk, Dict.get?])
    (by
      simp only [staleDisk, Dict.keys, List.map_cons, List.map_nil, List.mem_singleton]
      intro hcon
      have := gradName_inj hcon
      simp at this) h1
  exact ⟨f, d', g, d'', h1, h3, fun r => ⟨(h2 r).2.1, h4 _⟩⟩

/-! ## C61: the caller's options -/

/-- `tol`. -/
def sTol : Key := ['t', 'o', 'l']

/-- Options for the minimizer. -/
def options : Kwargs := [(sMinimizer, .dict [(sTol, .other 1)])]

open Classical in
/-- An optimizer that finds another point when the option `tol` is given. -/
noncomputable def tolOptimizer : Optimizer BHCall := fun call =>
  if (Dict.get? call.minimizer sTol).isSome then .ok [2, 1] else .ok [0, 0]

/-- C61 fails: `basinhopping_fit` removes the entry from the caller's dictionary, so a second call with the same arguments calls
the optimizer without it and returns something else. -/
theorem C61_basinhopping_broken : ∃ res₁ st₁ res₂ st₂,
    basinhoppingFit Sympy.plain compiler tolOptimizer formula data [(symA, 1), (symB, 1)] 10 0 0 (1 / 2) false none none
      ⟨noFiles, options⟩ = (.ok res₁, st₁) ∧
    basinhoppingFit Sympy.plain compiler tolOptimizer formula data [(symA, 1), (symB, 1)] 10 0 0 (1 / 2) false none none
      st₁ = (.ok res₂, st₂) ∧
    st₁.kwargs ≠ options ∧ res₁.x ≠ res₂.x := by
  have hg : ∀ s ∈ [symA, symB], Dict.get [(symA, (1 : ℝ)), (symB, 1)] s = .ok 1 := by
    intro s hs
    simp only [List.mem_cons, List.not_mem_nil, or_false] at hs
    rcases hs with rfl | rfl
    · simp [Dict.get, Dict.get?, symA, symB]
    · simp [Dict.get, Dict.get?, symA, symB]
  have first : ∀ d, UserOptions (⟨d, options⟩ : FitState).kwargs [(sTol, .other 1)] :=
    fun d => ⟨by simp [Dict.WF, Dict.keys], Or.inl (by rfl)⟩
  obtain ⟨call₁, f₁, _, _, ⟨_, _, _, a₁, _⟩, o₁, k₁⟩ := C60_basinhopping Sympy.plain compiler (fdat := data) (F := F) (D := D)
    (chunk := false) (load := none) (st := ⟨noFiles, options⟩) (g := fun _ => 1) tolOptimizer formula_reachable free_symbols
    (by simp) (Or.inl ⟨rfl, rfl, formulaIs, dataIs, by simp⟩) none hg 10 0 0 (1 / 2) (first _)
    (by unfold Without; decide)
  have c₁ : tolOptimizer call₁ = .ok ([symA, symB].map (fun s => if s = symA then (2 : ℝ) else 1)) := by
    unfold tolOptimizer
    rw [if_pos (by rw [a₁]; rfl)]
    simp [symA, symB]
  obtain ⟨res₁, r₁, _, x₁, _⟩ := o₁.1 _ c₁
  rcases hrun : basinhoppingFit Sympy.plain compiler tolOptimizer formula data [(symA, 1), (symB, 1)] 10 0 0 (1 / 2) false none none
      ⟨noFiles, options⟩ with ⟨out, st₁⟩
  rw [hrun] at r₁ k₁
  have k₂ : st₁.kwargs = [] := k₁.trans (by decide)
  obtain ⟨call₂, f₂, _, _, ⟨_, _, _, a₂, _⟩, o₂, _⟩ := C60_basinhopping Sympy.plain compiler (fdat := data) (F := F) (D := D)
    (chunk := false) (load := none) (st := st₁) (g := fun _ => 1) (user := []) tolOptimizer formula_reachable free_symbols
    (by simp) (Or.inl ⟨rfl, rfl, formulaIs, dataIs, by simp⟩) none hg 10 0 0 (1 / 2)
    ⟨by simp [Dict.WF, Dict.keys], Or.inr ⟨by rw [k₂]; simp [Dict.keys], rfl⟩⟩
    (by rw [k₂]; intro q _; simp [Dict.keys])
  have c₂ : tolOptimizer call₂ = .ok ([symA, symB].map (fun _ => (0 : ℝ))) := by
    unfold tolOptimizer
    rw [if_neg (by rw [a₂]; decide)]
    simp
  obtain ⟨res₂, r₂, _, x₂, _⟩ := o₂.1 _ c₂
  refine ⟨res₁, st₁, res₂, _, Prod.ext r₁ rfl, Prod.ext r₂ rfl, ?_, ?_⟩
  · rw [k₂]
    simp [options]
  · rw [x₁, x₂]
    simp [symA, symB]

/-! ## C62: equal frequencies -/

/-- Data with `M = 2` and the components `0`, `1`, `2`, `1`, `0`: those of `data` and zeros. -/
noncomputable def wide : FDataContainer := ⟨[(kPP, [0, 1, 2, 1, 0])], 2, 1, .num 0⟩

/-- The components of `wide`. -/
noncomputable def wideD : Key → ℤ → ℂ := fun _ m => if m = 0 then 2 else if m = 1 ∨ m = -1 then 1 else 0

theorem wideIs : ∀ k ∈ formula.getKeys, ∀ m : ℤ, -(wide.getM : ℤ) ≤ m → m ≤ wide.getM →
    DRepresents wide k m (wideD k m) ∧ MachineNumber (wideD k m) := by
  intro k hk m h1 h2
  simp only [formula, FFormContainer.getKeys, Dict.keys, List.map_cons, List.map_nil, List.mem_singleton] at hk
  subst hk
  have : m = -2 ∨ m = -1 ∨ m = 0 ∨ m = 1 ∨ m = 2 := by
    simp only [wide, FDataContainer.getM] at h1 h2
    omega
  rcases this with rfl | rfl | rfl | rfl | rfl
  · exact ⟨⟨_, rfl, ⟨by decide, by decide⟩, by simp [wideD, wide, FDataContainer.getM]⟩, 0, 0, by simp [wideD]⟩
  · exact ⟨⟨_, rfl, ⟨by decide, by decide⟩, by simp [wideD, wide, FDataContainer.getM]⟩, 1, 0, by simp [wideD]⟩
  · exact ⟨⟨_, rfl, ⟨by decide, by decide⟩, by simp [wideD, wide, FDataContainer.getM]⟩, 2, 0, by simp [wideD]⟩
  · exact ⟨⟨_, rfl, ⟨by decide, by decide⟩, by simp [wideD, wide, FDataContainer.getM]⟩, 1, 0, by simp [wideD]⟩
  · exact ⟨⟨_, rfl, ⟨by decide, by decide⟩, by simp [wideD, wide, FDataContainer.getM]⟩, 0, 0, by simp [wideD]⟩

/-- C62 fails: the formula and the data agree at `a = 2`, `b = 1` in all components that the formula has, but the cost is not
zero there, because the components of the data are taken one place off. -/
theorem C62_broken : ∃ f d', genCostFunc Sympy.plain compiler noFiles formula wide none false none = .ok (f, d') ∧
    misfit formula.getKeys formula.getM F wideD (fun s => if s = symA then 2 else 1) = 0 ∧ f [2, 1] ≠ 0 := by
  have hr : [symA, symB].map (fun s => if s = symA then (2 : ℝ) else 1) = [2, 1] := by simp [symA, symB]
  obtain ⟨f, d', h1, h2⟩ := C62_shifted_partial Sympy.plain compiler noFiles formula_reachable (Or.inr ⟨rfl, free_symbols⟩)
    (fdat := wide) (by decide) formulaIs wideIs false (by simp) none
  refine ⟨f, d', h1, ?_, ?_⟩
  · rw [(C57_zero_iff _ _ _ _ _).2]
    intro k _ m hm1 hm2
    have : m = -1 ∨ m = 0 ∨ m = 1 := by
      simp only [formula, FFormContainer.getM] at hm1 hm2
      omega
    rcases this with rfl | rfl | rfl <;> simp [F, wideD, realVal, symA, symB]
  · rw [← hr, h2]
    intro hcon
    have := (C57_zero_iff _ _ _ _ _).2.1 hcon kPP (by decide) 0 (by decide) (by decide)
    simp [F, realVal, wideD, wide, formula, FFormContainer.getM, FDataContainer.getM] at this

/-- The hypotheses of the theorem on data with fewer components are met. -/
example (d : Disk) (chunk : Bool) (save : Option Key) :
    genCostFunc Sympy.plain compiler d formula ⟨[(kPP, [3])], 0, 1, .num 0⟩ none chunk save = .error .indexError :=
  C62_smaller_raises Sympy.plain compiler d formula_reachable
    ⟨[(.str kPP, .arr1 .complex64 [3])], 0, ⟨[(kPP, [3])], 0, 1, .num 0⟩, [], rfl, rfl⟩ (Or.inr ⟨rfl, free_symbols⟩)
    (by decide) (by decide) (by decide) chunk save

end FitCases
end Shgpy
