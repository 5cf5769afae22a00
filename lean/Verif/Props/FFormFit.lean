import Verif.Proofs.FitRun
import Verif.Props.Form
import Verif.Props.FData

/-!
# Properties of `shgpy/fformfit.py`: C57 to C62, C70
-/

set_option linter.unusedSectionVars false
set_option linter.unusedSimpArgs false
set_option linter.unusedVariables false

namespace Shgpy
open Spec
open DataContainer (Meth liftE)

section
variable (S : Sympy) (C : Compiler)

/-! ## C57: the cost -/

/-- C57.  The cost function takes the values of the parameters in the order of `arguments` (or of `get_free_symbols`) and
returns the sum of `|F_{k,m} - D_{k,m}|²` over all combinations of the formula and all frequencies. -/
theorem C57_cost (d : Disk) {fform : FFormContainer} (hc : fform.Reachable S) {fdat : FDataContainer}
    {arguments : Option (List Sym)} {l : List Sym} (hl : ArgumentOrder S fform arguments l)
    (hM : fdat.getM = fform.getM) {F : Key → ℤ → Valuation → ℂ} {D : Key → ℤ → ℂ} (hF : FormulaIs fform F)
    (hD : DataIs fform fdat D) (chunk : Bool) (hne : chunk = true → fform.getKeys ≠ []) (save : Option Key) :
    ∃ f d', genCostFunc S C d fform fdat arguments chunk save = .ok (f, d') ∧
      ∀ r : Sym → ℝ, f (l.map r) = misfit fform.getKeys fform.getM F D r := by
  obtain ⟨f, h1, h2⟩ := genCostFunc_ok S C d hc.good hl hM hF hD chunk hne save
  exact ⟨f, _, h1, h2⟩

/-- C57.  The misfit is not negative, and it is zero exactly when all components agree. -/
theorem C57_zero_iff (keys : List Key) (M : ℕ) (F : Key → ℤ → Valuation → ℂ) (D : Key → ℤ → ℂ) (r : Sym → ℝ) :
    0 ≤ misfit keys M F D r ∧ (misfit keys M F D r = 0 ↔
      ∀ k ∈ keys, ∀ m : ℤ, -(M : ℤ) ≤ m → m ≤ M → F k m (realVal r) = D k m) := by
  have hpos : ∀ k, 0 ≤ ∑ m ∈ Finset.Icc (-(M : ℤ)) M, ‖F k m (realVal r) - D k m‖ ^ 2 :=
    fun k => Finset.sum_nonneg (fun m _ => by positivity)
  have hzero : ∀ k, (∑ m ∈ Finset.Icc (-(M : ℤ)) M, ‖F k m (realVal r) - D k m‖ ^ 2) = 0 ↔
      ∀ m : ℤ, -(M : ℤ) ≤ m → m ≤ M → F k m (realVal r) = D k m := by
    intro k
    rw [Finset.sum_eq_zero_iff_of_nonneg (fun m _ => by positivity)]
    simp [sub_eq_zero]
  unfold misfit
  induction keys with
  | nil => simp
  | cons k ks ih =>
    simp only [List.map_cons, List.sum_cons, List.forall_mem_cons]
    refine ⟨add_nonneg (hpos k) ih.1, ?_⟩
    rw [add_eq_zero_iff_of_nonneg (hpos k) ih.1, hzero, ih.2]

/-! ## C58: chunks -/

/-- C58.  The chunked cost function has the same values as the other one. -/
theorem C58_chunked_cost (d : Disk) {fform : FFormContainer} (hc : fform.Reachable S) (hk : fform.getKeys ≠ [])
    {fdat : FDataContainer} {arguments : Option (List Sym)} {l : List Sym} (hl : ArgumentOrder S fform arguments l)
    (hM : fdat.getM = fform.getM) {F : Key → ℤ → Valuation → ℂ} {D : Key → ℤ → ℂ} (hF : FormulaIs fform F)
    (hD : DataIs fform fdat D) (save save' : Option Key) :
    ∃ f g d₁ d₂, genCostFunc S C d fform fdat arguments false save = .ok (f, d₁) ∧
      genCostFunc S C d fform fdat arguments true save' = .ok (g, d₂) ∧
      ∀ x : List ℝ, x.length = l.length → g x = f x := by
  obtain ⟨f, h1, h2⟩ := genCostFunc_ok S C d hc.good hl hM hF hD false (by simp) save
  obtain ⟨g, h3, h4⟩ := genCostFunc_ok S C d hc.good hl hM hF hD true (fun _ => hk) save'
  refine ⟨f, g, _, _, h1, h3, fun x hx => ?_⟩
  obtain ⟨r, rfl⟩ := exists_values (argumentSymbols_ok hc.good hl).2.1 hx
  rw [h2, h4]

/-- C58.  The model function has the values of the components of the formula (elements of the
argument after the parameters are ignored), however the terms are distributed over files, and
raises `KeyError` for other combinations and frequencies. -/
theorem C58_model (d : Disk) {fform : FFormContainer} (hc : fform.Reachable S) (hreal : RealSymbols fform) {l : List Sym}
    (hl : fform.getFreeSymbols S = .ok l) {F : Key → ℤ → Valuation → ℂ} (hF : FormulaIs fform F) (folder : Key) {n : ℤ}
    (hn : 0 < n) :
    ∃ f d', genModelFunc S C d fform folder n = .ok (f, d') ∧
      (∀ k ∈ fform.getKeys, ∀ m : ℤ, -(fform.getM : ℤ) ≤ m → m ≤ fform.getM → ∀ (r : Sym → ℝ) (extra : List ℝ),
        f (l.map r ++ extra) k m = .ok (F k m (realVal r))) ∧
      ∀ (x : List ℝ) k (m : ℤ), ¬ (k ∈ fform.getKeys ∧ -(fform.getM : ℤ) ≤ m ∧ m ≤ fform.getM) → f x k m = .error .keyError := by
  obtain ⟨gs, h1, h2⟩ := fixedAutowrapModel_ok S C hc.good (arguments := none) (Or.inr ⟨rfl, hl⟩) hF hn
  refine ⟨_, _, by unfold genModelFunc; rw [h1]; rfl, ?_, ?_⟩
  · intro k hk m hm1 hm2 r extra
    exact modelFunc_ok hc.good h2 hk hm1 hm2 r extra
  · intro x k m h
    exact modelFunc_keyError gs x h

/-- C58, C59.  The model function loaded from the folder has the same values, in whatever order the files of the folder are
listed, however the terms are distributed over them and whatever the folder had in it before; and generating and loading
raise nothing.  Partial: the names of the combinations have no special characters and the process has not loaded a library
from this folder before. -/
theorem C58_loaded_model_partial (L : Listing) (d : Disk) {fform : FFormContainer} (hc : fform.Reachable S)
    (hreal : RealSymbols fform) (hplain : ∀ k ∈ fform.getKeys, PlainName k) {l : List Sym}
    (hl : fform.getFreeSymbols S = .ok l) {F : Key → ℤ → Valuation → ℂ} (hF : FormulaIs fform F) (folder : Key)
    (hfresh : ∀ name, folder ++ '/' :: name ∉ Dict.keys d.loaded) {n : ℤ} (hn : 0 < n) :
    ∃ f d' g d'', genModelFunc S C d fform folder n = .ok (f, d') ∧ loadModelFunc L d' fform folder = .ok (g, d'') ∧
      (∀ k ∈ fform.getKeys, ∀ m : ℤ, -(fform.getM : ℤ) ≤ m → m ≤ fform.getM → ∀ (r : Sym → ℝ) (extra : List ℝ),
        g (l.map r ++ extra) k m = .ok (F k m (realVal r))) ∧
      ∀ (x : List ℝ) k m, l.length ≤ x.length → g x k m = f x k m := by
  obtain ⟨gs, h1, h2⟩ := fixedAutowrapModel_ok S C hc.good (arguments := none) (Or.inr ⟨rfl, hl⟩) hF hn
  have hd : Dict.get? (Dict.set d.folders folder (contentOf (funcKeys fform) gs)) folder = some (contentOf (funcKeys fform) gs) := by
    simp [Dict.get?_set]
  obtain ⟨fs, d'', h3, h4⟩ := loadFuncDict_ok L hc.good gs
    (fun k hk => ⟨hplain k hk _ (by simp), hplain k hk _ (by simp), hplain k hk _ (by simp)⟩) folder
    { d with folders := Dict.set d.folders folder (contentOf (funcKeys fform) gs) } hd
    (fun name f _ => Or.inl (Dict.get?_eq_none.2 (hfresh name)))
  have h5 : ∀ key ∈ funcKeys fform, ∀ (r : Sym → ℝ) (extra : List ℝ),
      ((fs key).map (fun g => g (l.map r ++ extra))).sum = key.2.2.value (F key.1 key.2.1 (realVal r)) := by
    intro key hkey r extra
    rw [← h2 key hkey r extra]
    exact ((h4 key hkey).map _).sum_eq
  refine ⟨_, _, _, d'', by unfold genModelFunc; rw [h1]; rfl, by unfold loadModelFunc; rw [h3]; rfl, ?_, ?_⟩
  · intro k hk m hm1 hm2 r extra
    exact modelFunc_ok hc.good h5 hk hm1 hm2 r extra
  · intro x k m hx
    obtain ⟨r, hr⟩ := exists_values (getFreeSymbols_lists hc.good hl).2.1 (x := x.take l.length) (by simp [hx])
    rw [← List.take_append_drop l.length x, hr]
    by_cases h : k ∈ fform.getKeys ∧ -(fform.getM : ℤ) ≤ m ∧ m ≤ fform.getM
    · rw [modelFunc_ok hc.good h5 h.1 h.2.1 h.2.2 r _, modelFunc_ok hc.good h2 h.1 h.2.1 h.2.2 r _]
    · rw [modelFunc_keyError fs _ h, modelFunc_keyError gs _ h]

/-- C58.  What the folder has in it afterwards: for every combination, frequency and part some compiled expressions, numbered
from 0 on, none of them with more than `max_terms_per_file` terms, whose values add up to that part of the component; and
nothing else. -/
theorem C58_files (d : Disk) {fform : FFormContainer} (hc : fform.Reachable S) (hreal : RealSymbols fform) {l : List Sym}
    (hl : fform.getFreeSymbols S = .ok l) {F : Key → ℤ → Valuation → ℂ} (hF : FormulaIs fform F) (folder : Key) {n : ℤ}
    (hn : 0 < n) :
    ∃ f d' content, genModelFunc S C d fform folder n = .ok (f, d') ∧ Dict.get? d'.folders folder = some content ∧
      ∃ chunks : Key → ℤ → Part → List Expr,
        (∀ k ∈ fform.getKeys, ∀ m : ℤ, -(fform.getM : ℤ) ≤ m → m ≤ fform.getM → ∀ p,
          (∀ e ∈ chunks k m p, 1 ≤ termCount e ∧ (termCount e : ℤ) ≤ n) ∧
          ∀ r : Sym → ℝ, ((chunks k m p).map (fun e => C.run e (l.map r))).sum = match p with
            | .real => (F k m (realVal r)).re
            | .imag => (F k m (realVal r)).im) ∧
        ∀ name c, Dict.get? content name = some c ↔ ∃ k ∈ fform.getKeys, ∃ m : ℤ, -(fform.getM : ℤ) ≤ m ∧ m ≤ fform.getM ∧
          ∃ p i e, (chunks k m p)[i]? = some e ∧ name = chunkName k m p i ∧ c = some (C.run e) := by
  obtain ⟨gs, h1, h2, h3⟩ := fixedAutowrapModel_chunks S C hc.good (arguments := none) (Or.inr ⟨rfl, hl⟩) hF hn
  choose! cs h4 h5 using h3
  refine ⟨_, _, contentOf (funcKeys fform) gs, by unfold genModelFunc; rw [h1]; rfl, by simp [Dict.get?_set],
    fun k m p => cs (k, m, p), ?_, ?_⟩
  · intro k hk m hm1 hm2 p
    have hkey : (k, m, p) ∈ funcKeys fform := mem_funcKeys.2 ⟨hk, hm1, hm2⟩
    refine ⟨fun e he => ⟨(h5 _ hkey e he).1, (h5 _ hkey e he).2.1⟩, fun r => ?_⟩
    have := h2 _ hkey r
    rw [h4 _ hkey, List.map_map] at this
    refine this.trans ?_
    cases p <;> rfl
  · intro name c
    rw [Dict.get?_eq_some_iff (contentOf_nodup (funcKeys_nodup hc.good) gs)]
    unfold contentOf
    rw [List.mem_flatMap]
    constructor
    · rintro ⟨⟨k, m, p⟩, hkey, h⟩
      obtain ⟨i, f, hi, he⟩ := mem_blockOf.1 h
      obtain ⟨hk, hm1, hm2⟩ := mem_funcKeys.1 hkey
      rw [h4 _ hkey, List.getElem?_map] at hi
      obtain ⟨e, he1, rfl⟩ := Option.map_eq_some_iff.1 hi
      cases he
      exact ⟨k, hk, m, hm1, hm2, p, i, e, he1, rfl, rfl⟩
    · rintro ⟨k, hk, m, hm1, hm2, p, i, e, he, rfl, rfl⟩
      have hkey : (k, m, p) ∈ funcKeys fform := mem_funcKeys.2 ⟨hk, hm1, hm2⟩
      refine ⟨(k, m, p), hkey, mem_blockOf.2 ⟨i, C.run e, ?_, rfl⟩⟩
      rw [h4 _ hkey, List.getElem?_map, he]
      rfl

/-- A limit of zero terms per file is an error as soon as a component is a sum. -/
theorem C58_zero_terms (l : List Expr) : splitExpr (.add l) 0 = .error .zeroDivisionError := rfl

/-! ## C59: saved functions load back -/

/-- C59.  A cost function loads back from its file, whatever the file was before.  Partial: the name has a slash and the
process has not loaded a library from this path before. -/
theorem C59_cost_partial (d : Disk) {fform : FFormContainer} {fdat : FDataContainer} {arguments : Option (List Sym)} (chunk : Bool)
    {name : Key} (hslash : '/' ∈ name) (hfresh : name ∉ Dict.keys d.loaded) {f : CFunc} {d' : Disk}
    (h : genCostFunc S C d fform fdat arguments chunk (some name) = .ok (f, d')) :
    ∃ d'', loadFunc d' name = .ok (f, d'') := by
  have hd' : d' = d.save f (some name) := by
    unfold genCostFunc at h
    cases chunk with
    | true =>
      simp only [if_true] at h
      obtain ⟨es, h1, h2⟩ := bind_ok h
      cases es with
      | nil => cases h2
      | cons e r =>
        unfold energyFuncChunked at h2
        cases h2
        rfl
    | false =>
      simp only [Bool.false_eq_true, if_false] at h
      obtain ⟨e, h1, h2⟩ := bind_ok h
      cases h2
      rfl
  obtain ⟨d'', h1, _⟩ := dlopen_ok (d := d') (path := name) (f := f) hslash
    (Or.inl (by rw [hd']; exact Dict.get?_eq_none.2 hfresh))
  refine ⟨d'', ?_⟩
  unfold loadFunc
  rw [← h1, hd', save_get, if_pos rfl]

/-- C59.  A cost function with its gradient loads back from its files.  Partial: the names have slashes, the process has not
loaded a library from these paths before, the file of the cost is not one of the files of the gradient, and before saving
there was no file whose number is the number of parameters. -/
theorem C59_gradient_partial (d : Disk) {fform : FFormContainer} {fdat : FDataContainer} {l : List Sym}
    {name pre : Key} (hslash : '/' ∈ name) (hslash' : '/' ∈ pre) (hfresh : name ∉ Dict.keys d.loaded)
    (hfresh' : ∀ i, gradName pre i ∉ Dict.keys d.loaded) (hne : ∀ i, gradName pre i ≠ name)
    (hend : gradName pre l.length ∉ Dict.keys d.files) {f : CGrad} {d' : Disk}
    (h : energyAndDenergy S C d fform fdat l false (some name) (some pre) = .ok (f, d')) :
    ∃ g d'', loadEnergyAndDenergy d' name pre = .ok (g, d'') ∧ ∀ x, g x = f x := by
  unfold energyAndDenergy at h
  simp only [Bool.false_eq_true, if_false] at h
  obtain ⟨e, h1, h⟩ := bind_ok h
  obtain ⟨de, h2, h⟩ := bind_ok h
  simp only [fixedAutowrap, denergyFuncs_fst] at h
  have hlen : de.length = l.length := by
    unfold denergyExpr at h2
    split at h2
    · cases h2
    · cases h2
      simp
  obtain ⟨k1, k2, k3⟩ := denergyFuncs_disk C pre de 0 (d.save (C.run e) (some name))
  have hd' : (denergyFuncs C (some pre) de 0 (d.save (C.run e) (some name))).2 = d' := by
    cases h
    rfl
  have hf : f = fun x => (C.run e x, (de.map C.run).map (fun g => g x)) := by
    cases h
    rfl
  rw [hd'] at k1 k2 k3
  have hfile : Dict.get? d'.files name = some (some (C.run e)) := by
    rw [k2 name (fun j _ _ => (hne j).symm), save_get, if_pos rfl]
  obtain ⟨d1, m1, m2, m3, m4, m5⟩ := dlopen_ok (d := d') (path := name) (f := C.run e) hslash
    (Or.inl (by rw [k1]; exact Dict.get?_eq_none.2 hfresh))
  obtain ⟨d'', m6⟩ := loadGrads_ok pre hslash' (de.map C.run) (d1.files.length + 1) 0 d1 (by
      rw [m2, Nat.lt_succ_iff]
      refine files_length (name := gradName pre) (fun i j h => gradName_inj h) (fun i hi => ?_)
      rw [List.length_map] at hi
      have := k3 i de[i] (List.getElem?_eq_getElem hi)
      rw [Nat.zero_add] at this
      rw [this]
      rfl)
    (by
      intro j g hj
      rw [List.getElem?_map] at hj
      obtain ⟨e', he', rfl⟩ := Option.map_eq_some_iff.1 hj
      rw [m2]
      exact k3 j e' he')
    (by
      rw [m2, List.length_map, Nat.zero_add, k2 _ (fun j _ hj heq => ?_), save_get, if_neg (fun h => hne _ h.symm), hlen]
      · exact Dict.get?_eq_none.2 hend
      · have := gradName_inj heq
        omega)
    (by
      intro j hj
      rw [Nat.zero_add, m5 _ (hne j), k1]
      exact Dict.get?_eq_none.2 (hfresh' j))
  refine ⟨fun x => (C.run e x, (de.map C.run).map (fun g => g x)), d'', ?_, fun x => by rw [hf]⟩
  unfold loadEnergyAndDenergy loadFunc
  rw [hfile, m1, ok_bind]
  simp only
  rw [m6]
  rfl

/-! ## C70: the gradient -/

/-- C70.  The function for the fits with a gradient returns the misfit and its partial derivatives, in the order of the
parameters, for formulas in real symbols whose misfit is not constant. -/
theorem C70_gradient (d : Disk) {fform : FFormContainer} (hc : fform.Reachable S) (hreal : RealSymbols fform)
    {fdat : FDataContainer} {l : List Sym} (hl : Lists fform l) (hM : fdat.getM = fform.getM)
    {F : Key → ℤ → Valuation → ℂ} {D : Key → ℤ → ℂ} (hF : FormulaIs fform F) (hD : DataIs fform fdat D) {r₁ r₂ : Sym → ℝ}
    (hne : misfit fform.getKeys fform.getM F D r₁ ≠ misfit fform.getKeys fform.getM F D r₂) (save gradSave : Option Key) :
    ∃ f d', energyAndDenergy S C d fform fdat l false save gradSave = .ok (f, d') ∧ IsMisfitGrad fform F D l f := by
  obtain ⟨e, h1, h2⟩ := energyAndDenergy_ok S C d hc.good hl hM hF hD hne save gradSave
  refine ⟨_, _, h2, fun r => ⟨h1.run C r, by simp, fun i s hs => ?_⟩⟩
  have hi : i < l.length := (List.getElem?_eq_some_iff.1 hs).1
  refine ⟨C.run (S.norm (e.diff (xsElem i))) (l.map r), ?_, h1.hasDerivAt hl.1 S C r hs⟩
  simp [List.getElem?_map, List.getElem?_range hi]

/-- C70.  With chunks there is no gradient. -/
theorem C70_chunked (d : Disk) (fform : FFormContainer) (fdat : FDataContainer) (l : List Sym) (save gradSave : Option Key) :
    energyAndDenergy S C d fform fdat l true save gradSave = .error .notImplementedError := rfl

/-! ## C60: parameters and their values -/

section
variable {fform : FFormContainer} {fdat : FDataContainer} {F : Key → ℤ → Valuation → ℂ} {D : Key → ℤ → ℂ} {l : List Sym}
  {chunk : Bool} {load gradLoad : Option Key} {st : FitState} {guess : Dict Sym ℝ} {g : Sym → ℝ}
  {boundsDict : Option (Dict Sym (ℝ × ℝ))} {lo hi : Sym → ℝ} {user : Dict Key OptVal}

/-- C60 for `least_squares_fit` and `least_squares_fit_with_bounds`. -/
theorem C60_least_squares (opt : Optimizer LSCall) (hc : fform.Reachable S) (hl : fform.getFreeSymbols S = .ok l) (hne : l ≠ [])
    (hs : CostSource fform fdat F D l chunk load st.disk) (save : Option Key)
    (hg : ∀ s ∈ l, Dict.get guess s = .ok (g s)) (hb : BoundsAre boundsDict l lo hi)
    (hk : Without st.kwargs ([sFun, sX0] ++ if boundsDict.isSome then [sBounds] else [])) :
    ∃ call : LSCall, (∀ r, call.func (l.map r) = Real.sqrt (misfit fform.getKeys fform.getM F D r)) ∧ call.x0 = l.map g ∧
      call.bounds = boundsDict.map (fun _ => (l.map lo, l.map hi)) ∧ call.kwargs = st.kwargs ∧
      FitOutcome opt call l (leastSquaresFit S C opt fform fdat guess boundsDict chunk save load st).1 := by
  obtain ⟨f, d, h1, h2⟩ := fitCost_ok S C hc.good hl hs save
  have h3 := leastSquaresFit_ok S C opt hl hne h1 hg hb (checkKwargs_ok hk)
  refine ⟨⟨fun x => Real.sqrt (f x), l.map g, boundsDict.map (fun _ => (l.map lo, l.map hi)), st.kwargs⟩,
    fun r => by simp only [h2], rfl, rfl, rfl, ?_⟩
  rw [h3]
  exact fitOutcome_match opt _ (getFreeSymbols_lists hc.good hl).2.1

/-- C60 for `dual_annealing_fit_with_bounds`. -/
theorem C60_dual_annealing (opt : Optimizer DACall) (hc : fform.Reachable S) (hl : fform.getFreeSymbols S = .ok l) (hne : l ≠ [])
    (hs : CostSource fform fdat F D l chunk load st.disk) (save : Option Key)
    (hg : ∀ s ∈ l, Dict.get guess s = .ok (g s)) (hb : BoundsAre boundsDict l lo hi) (options : ℕ) :
    ∃ call : DACall, (∀ r, call.func (l.map r) = misfit fform.getKeys fform.getM F D r) ∧ call.x0 = l.map g ∧
      call.bounds = boundsDict.map (fun _ => l.map (fun s => (lo s, hi s))) ∧ call.options = options ∧
      FitOutcome opt call l (dualAnnealingFit S C opt fform fdat guess boundsDict options chunk save load st).1 := by
  obtain ⟨f, d, h1, h2⟩ := fitCost_ok S C hc.good hl hs save
  have h3 := dualAnnealingFit_ok S C opt hl hne h1 hg hb options
  refine ⟨⟨f, boundsDict.map (fun _ => l.map (fun s => (lo s, hi s))), l.map g, options⟩, h2, rfl, rfl, rfl, ?_⟩
  rw [h3]
  exact fitOutcome_match opt _ (getFreeSymbols_lists hc.good hl).2.1

/-- C60 and C61 for `basinhopping_fit`.  The caller's options are left without the entry for the minimizer. -/
theorem C60_basinhopping (opt : Optimizer BHCall) (hc : fform.Reachable S) (hl : fform.getFreeSymbols S = .ok l) (hne : l ≠ [])
    (hs : CostSource fform fdat F D l chunk load st.disk) (save : Option Key)
    (hg : ∀ s ∈ l, Dict.get guess s = .ok (g s)) (niter method args : ℕ) (stepsize : ℝ)
    (hu : UserOptions st.kwargs user) (hk : Without st.kwargs [sFunc, sX0, sNiter, sStepsize]) :
    ∃ (call : BHCall) (f : CFunc), call.func = .inl f ∧ (∀ r, f (l.map r) = misfit fform.getKeys fform.getM F D r) ∧
      BHArguments call l g user [(sMethod, .other method), (sArgs, .other args)] niter stepsize st.kwargs ∧
      FitOutcome opt call l (basinhoppingFit S C opt fform fdat guess niter method args stepsize chunk save load st).1 ∧
      (basinhoppingFit S C opt fform fdat guess niter method args stepsize chunk save load st).2.kwargs =
        st.kwargs.filter (fun p => p.1 ≠ sMinimizer) := by
  obtain ⟨f, d, h1, h2⟩ := fitCost_ok S C hc.good hl hs save
  have h3 : basinhoppingFit S C opt fform fdat guess niter method args stepsize chunk save load st =
      runBasinhopping opt l (.inl f) (l.map g) [(sMethod, .other method), (sArgs, .other args)] niter stepsize
        { st with disk := d } := by
    unfold basinhoppingFit
    rw [meth_liftE_ok hl, if_neg hne, meth_bind_ok h1, meth_liftE_ok (inOrder_ok hg)]
  obtain ⟨call, k1, k2, k3, k4⟩ := runBasinhopping_outcome opt (getFreeSymbols_lists hc.good hl).2.1 (.inl f) g
    (own := [(sMethod, .other method), (sArgs, .other args)]) niter stepsize (st := { st with disk := d }) hu hk
  refine ⟨call, f, k1, h2, k2, ?_, ?_⟩
  · rw [h3]
    exact k3
  · rw [h3, k4]

/-- C60 and C61 for `basinhopping_fit_with_bounds`. -/
theorem C60_basinhopping_with_bounds (opt : Optimizer BHCall) (hc : fform.Reachable S) (hl : fform.getFreeSymbols S = .ok l)
    (hne : l ≠ []) (hs : CostSource fform fdat F D l chunk load st.disk) (save : Option Key)
    (hg : ∀ s ∈ l, Dict.get guess s = .ok (g s)) (hb : BoundsAre boundsDict l lo hi) (niter method args : ℕ) (stepsize : ℝ)
    (hu : UserOptions st.kwargs user) (hk : Without st.kwargs [sFunc, sX0, sNiter, sStepsize]) :
    ∃ (call : BHCall) (f : CFunc), call.func = .inl f ∧ (∀ r, f (l.map r) = misfit fform.getKeys fform.getM F D r) ∧
      BHArguments call l g user
        [(sMethod, .other method), (sBounds, boundsOption l lo hi boundsDict), (sArgs, .other args)] niter stepsize st.kwargs ∧
      FitOutcome opt call l
        (basinhoppingFitWithBounds S C opt fform fdat guess boundsDict niter method args stepsize chunk save load st).1 ∧
      (basinhoppingFitWithBounds S C opt fform fdat guess boundsDict niter method args stepsize chunk save load st).2.kwargs =
        st.kwargs.filter (fun p => p.1 ≠ sMinimizer) := by
  obtain ⟨f, d, h1, h2⟩ := fitCost_ok S C hc.good hl hs save
  have h3 : basinhoppingFitWithBounds S C opt fform fdat guess boundsDict niter method args stepsize chunk save load st =
      runBasinhopping opt l (.inl f) (l.map g)
        [(sMethod, .other method), (sBounds, boundsOption l lo hi boundsDict), (sArgs, .other args)] niter stepsize
        { st with disk := d } := by
    unfold basinhoppingFitWithBounds
    rw [meth_liftE_ok hl, if_neg hne, meth_bind_ok h1, meth_liftE_ok (inOrder_ok hg), meth_liftE_ok (orderedBounds_ok hb)]
    rfl
  obtain ⟨call, k1, k2, k3, k4⟩ := runBasinhopping_outcome opt (getFreeSymbols_lists hc.good hl).2.1 (.inl f) g
    (own := [(sMethod, .other method), (sBounds, boundsOption l lo hi boundsDict), (sArgs, .other args)]) niter stepsize
    (st := { st with disk := d }) hu hk
  refine ⟨call, f, k1, h2, k2, ?_, ?_⟩
  · rw [h3]
    exact k3
  · rw [h3, k4]

/-- C60, C61 and C70 for `basinhopping_fit_jac`. -/
theorem C60_basinhopping_jac (opt : Optimizer BHCall) (hc : fform.Reachable S) (hl : fform.getFreeSymbols S = .ok l) (hne : l ≠ [])
    (hs : GradSource fform fdat F D l chunk load gradLoad st.disk) (save gradSave : Option Key)
    (hg : ∀ s ∈ l, Dict.get guess s = .ok (g s)) (niter method args : ℕ) (stepsize : ℝ)
    (hu : UserOptions st.kwargs user) (hk : Without st.kwargs [sFunc, sX0, sNiter, sStepsize]) :
    ∃ (call : BHCall) (f : CGrad), call.func = .inr f ∧ IsMisfitGrad fform F D l f ∧
      BHArguments call l g user [(sMethod, .other method), (sJac, .other 1), (sArgs, .other args)] niter stepsize st.kwargs ∧
      FitOutcome opt call l
        (basinhoppingFitJac S C opt fform fdat guess niter method args stepsize chunk save gradSave load gradLoad st).1 ∧
      (basinhoppingFitJac S C opt fform fdat guess niter method args stepsize chunk save gradSave load gradLoad st).2.kwargs =
        st.kwargs.filter (fun p => p.1 ≠ sMinimizer) := by
  obtain ⟨f, d, h1, h2⟩ := fitCostGrad_ok S C hc.good hl hs save gradSave
  have h3 : basinhoppingFitJac S C opt fform fdat guess niter method args stepsize chunk save gradSave load gradLoad st =
      runBasinhopping opt l (.inr f) (l.map g) [(sMethod, .other method), (sJac, .other 1), (sArgs, .other args)] niter stepsize
        { st with disk := d } := by
    unfold basinhoppingFitJac
    rw [meth_liftE_ok hl, if_neg hne, meth_bind_ok h1, meth_liftE_ok (inOrder_ok hg)]
  obtain ⟨call, k1, k2, k3, k4⟩ := runBasinhopping_outcome opt (getFreeSymbols_lists hc.good hl).2.1 (.inr f) g
    (own := [(sMethod, .other method), (sJac, .other 1), (sArgs, .other args)]) niter stepsize (st := { st with disk := d }) hu hk
  refine ⟨call, f, k1, h2, k2, ?_, ?_⟩
  · rw [h3]
    exact k3
  · rw [h3, k4]

/-- C60, C61 and C70 for `basinhopping_fit_jac_with_bounds`. -/
theorem C60_basinhopping_jac_with_bounds (opt : Optimizer BHCall) (hc : fform.Reachable S) (hl : fform.getFreeSymbols S = .ok l)
    (hne : l ≠ []) (hs : GradSource fform fdat F D l chunk load gradLoad st.disk) (save gradSave : Option Key)
    (hg : ∀ s ∈ l, Dict.get guess s = .ok (g s)) (hb : BoundsAre boundsDict l lo hi) (niter method args : ℕ) (stepsize : ℝ)
    (hu : UserOptions st.kwargs user) (hk : Without st.kwargs [sFunc, sX0, sNiter, sStepsize]) :
    ∃ (call : BHCall) (f : CGrad), call.func = .inr f ∧ IsMisfitGrad fform F D l f ∧
      BHArguments call l g user [(sMethod, .other method), (sJac, .other 1), (sBounds, boundsOption l lo hi boundsDict),
        (sArgs, .other args)] niter stepsize st.kwargs ∧
      FitOutcome opt call l (basinhoppingFitJacWithBounds S C opt fform fdat guess boundsDict niter method args stepsize chunk
        save gradSave load gradLoad st).1 ∧
      (basinhoppingFitJacWithBounds S C opt fform fdat guess boundsDict niter method args stepsize chunk
        save gradSave load gradLoad st).2.kwargs = st.kwargs.filter (fun p => p.1 ≠ sMinimizer) := by
  obtain ⟨f, d, h1, h2⟩ := fitCostGrad_ok S C hc.good hl hs save gradSave
  have h3 : basinhoppingFitJacWithBounds S C opt fform fdat guess boundsDict niter method args stepsize chunk
        save gradSave load gradLoad st =
      runBasinhopping opt l (.inr f) (l.map g) [(sMethod, .other method), (sJac, .other 1),
        (sBounds, boundsOption l lo hi boundsDict), (sArgs, .other args)] niter stepsize { st with disk := d } := by
    unfold basinhoppingFitJacWithBounds
    rw [meth_liftE_ok hl, if_neg hne, meth_bind_ok h1, meth_liftE_ok (inOrder_ok hg), meth_liftE_ok (orderedBounds_ok hb)]
    rfl
  obtain ⟨call, k1, k2, k3, k4⟩ := runBasinhopping_outcome opt (getFreeSymbols_lists hc.good hl).2.1 (.inr f) g
    (own := [(sMethod, .other method), (sJac, .other 1), (sBounds, boundsOption l lo hi boundsDict), (sArgs, .other args)])
    niter stepsize (st := { st with disk := d }) hu hk
  refine ⟨call, f, k1, h2, k2, ?_, ?_⟩
  · rw [h3]
    exact k3
  · rw [h3, k4]

/-- C60.  A formula without parameters gives an empty result; the optimizer is not called and nothing changes. -/
theorem C60_no_parameters (hl : fform.getFreeSymbols S = .ok []) (lsq : Optimizer LSCall) (bh : Optimizer BHCall)
    (da : Optimizer DACall) (niter method args options : ℕ) (stepsize : ℝ) (save gradSave : Option Key) :
    leastSquaresFit S C lsq fform fdat guess boundsDict chunk save load st = (.ok ⟨[], [], false⟩, st) ∧
    dualAnnealingFit S C da fform fdat guess boundsDict options chunk save load st = (.ok ⟨[], [], false⟩, st) ∧
    basinhoppingFit S C bh fform fdat guess niter method args stepsize chunk save load st = (.ok ⟨[], [], false⟩, st) ∧
    basinhoppingFitWithBounds S C bh fform fdat guess boundsDict niter method args stepsize chunk save load st =
      (.ok ⟨[], [], false⟩, st) ∧
    basinhoppingFitJac S C bh fform fdat guess niter method args stepsize chunk save gradSave load gradLoad st =
      (.ok ⟨[], [], false⟩, st) ∧
    basinhoppingFitJacWithBounds S C bh fform fdat guess boundsDict niter method args stepsize chunk save gradSave load gradLoad
      st = (.ok ⟨[], [], false⟩, st) := by
  refine ⟨?_, ?_, ?_, ?_, ?_, ?_⟩ <;>
    first
    | (unfold leastSquaresFit; rw [meth_liftE_ok hl, if_pos rfl]; rfl)
    | (unfold dualAnnealingFit; rw [meth_liftE_ok hl, if_pos rfl]; rfl)
    | (unfold basinhoppingFit; rw [meth_liftE_ok hl, if_pos rfl]; rfl)
    | (unfold basinhoppingFitWithBounds; rw [meth_liftE_ok hl, if_pos rfl]; rfl)
    | (unfold basinhoppingFitJac; rw [meth_liftE_ok hl, if_pos rfl]; rfl)
    | (unfold basinhoppingFitJacWithBounds; rw [meth_liftE_ok hl, if_pos rfl]; rfl)

/-- C60.  A guess without a value for some parameter is a `KeyError`, and the optimizer is not called. -/
theorem C60_missing_guess (hc : fform.Reachable S) (hl : fform.getFreeSymbols S = .ok l)
    (hs : CostSource fform fdat F D l chunk load st.disk) {s : Sym} (hmem : s ∈ l) (hmiss : s ∉ Dict.keys guess)
    (lsq : Optimizer LSCall) (bh : Optimizer BHCall) (da : Optimizer DACall) (niter method args options : ℕ) (stepsize : ℝ)
    (save : Option Key) :
    (leastSquaresFit S C lsq fform fdat guess boundsDict chunk save load st).1 = .error .keyError ∧
    (dualAnnealingFit S C da fform fdat guess boundsDict options chunk save load st).1 = .error .keyError ∧
    (basinhoppingFit S C bh fform fdat guess niter method args stepsize chunk save load st).1 = .error .keyError ∧
    (basinhoppingFitWithBounds S C bh fform fdat guess boundsDict niter method args stepsize chunk save load st).1 =
      .error .keyError := by
  obtain ⟨f, d, h1, _⟩ := fitCost_ok S C hc.good hl hs save
  have hne : l ≠ [] := List.ne_nil_of_mem hmem
  have h2 := inOrder_error hmem hmiss
  refine ⟨?_, ?_, ?_, ?_⟩ <;>
    first
    | (unfold leastSquaresFit; rw [meth_liftE_ok hl, if_neg hne, meth_bind_ok h1, meth_liftE_error h2])
    | (unfold dualAnnealingFit; rw [meth_liftE_ok hl, if_neg hne, meth_bind_ok h1, meth_liftE_error h2])
    | (unfold basinhoppingFit; rw [meth_liftE_ok hl, if_neg hne, meth_bind_ok h1, meth_liftE_error h2])
    | (unfold basinhoppingFitWithBounds; rw [meth_liftE_ok hl, if_neg hne, meth_bind_ok h1, meth_liftE_error h2])

/-! ## C61: the arguments -/

/-- C61.  The least squares and annealing fits leave the caller's options alone, whatever happens. -/
theorem C61_least_squares (opt : Optimizer LSCall) (save : Option Key) :
    (leastSquaresFit S C opt fform fdat guess boundsDict chunk save load st).2.kwargs = st.kwargs := by
  have : KeepsKwargs (leastSquaresFit S C opt fform fdat guess boundsDict chunk save load) := by
    unfold leastSquaresFit
    refine KeepsKwargs.bind (.liftE _) (fun l => ?_)
    split
    · exact .pure _
    · refine KeepsKwargs.bind (KeepsKwargs.fitCost _ _ _ _ _ _ _ _) (fun f => KeepsKwargs.bind (.liftE _) (fun x0 => ?_))
      have tail : ∀ b : Option (List ℝ × List ℝ), KeepsKwargs (do
          let st ← get
          liftE (checkKwargs st.kwargs ([sFun, sX0] ++ if b.isSome then [sBounds] else []))
          let x ← liftE (opt ⟨fun x => Real.sqrt (f x), x0, b, st.kwargs⟩)
          liftE (finish l x)) := fun b =>
        .bind .get (fun st => .bind (.liftE _) (fun _ => .bind (.liftE _) (fun x => .liftE _)))
      cases boundsDict with
      | none => exact .bind (.pure _) tail
      | some b => exact .bind (.liftE _) (fun b => .bind (.pure _) tail)
  exact this st

/-- C61.  See `C61_least_squares`. -/
theorem C61_dual_annealing (opt : Optimizer DACall) (options : ℕ) (save : Option Key) :
    (dualAnnealingFit S C opt fform fdat guess boundsDict options chunk save load st).2.kwargs = st.kwargs := by
  have : KeepsKwargs (dualAnnealingFit S C opt fform fdat guess boundsDict options chunk save load) := by
    unfold dualAnnealingFit
    refine KeepsKwargs.bind (.liftE _) (fun l => ?_)
    split
    · exact .pure _
    · refine KeepsKwargs.bind (KeepsKwargs.fitCost _ _ _ _ _ _ _ _) (fun f => KeepsKwargs.bind (.liftE _) (fun x0 => ?_))
      have tail : ∀ b : Option (List (ℝ × ℝ)), KeepsKwargs (do
          let x ← liftE (opt ⟨f, b, x0, options⟩)
          liftE (finish l x)) := fun b => .bind (.liftE _) (fun x => .liftE _)
      cases boundsDict with
      | none => exact .bind (.pure _) tail
      | some b => exact .bind (.liftE _) (fun b => .bind (.pure _) tail)
  exact this st

/-- C61.  The basinhopping fits leave the caller's options alone, whatever happens.  Partial: if there is no entry
`minimizer_kwargs`. -/
theorem C61_basinhopping_partial (opt : Optimizer BHCall) (hk : sMinimizer ∉ Dict.keys st.kwargs)
    (niter method args : ℕ) (stepsize : ℝ) (save gradSave : Option Key) :
    (basinhoppingFit S C opt fform fdat guess niter method args stepsize chunk save load st).2.kwargs = st.kwargs ∧
    (basinhoppingFitWithBounds S C opt fform fdat guess boundsDict niter method args stepsize chunk save load st).2.kwargs =
      st.kwargs ∧
    (basinhoppingFitJac S C opt fform fdat guess niter method args stepsize chunk save gradSave load gradLoad st).2.kwargs =
      st.kwargs ∧
    (basinhoppingFitJacWithBounds S C opt fform fdat guess boundsDict niter method args stepsize chunk save gradSave load gradLoad
      st).2.kwargs = st.kwargs := by
  refine ⟨?_, ?_, ?_, ?_⟩
  · unfold basinhoppingFit
    refine keeps_bind (.liftE _) (fun l s1 h1 => ?_)
    split
    · exact h1
    rw [← h1] at hk ⊢
    refine keeps_bind (KeepsKwargs.fitCost _ _ _ _ _ _ _ _) (fun f s2 h2 => ?_)
    rw [← h2] at hk ⊢
    refine keeps_bind (.liftE _) (fun x0 s3 h3 => ?_)
    rw [← h3] at hk ⊢
    exact runBasinhopping_keeps opt _ _ _ _ _ _ hk
  · unfold basinhoppingFitWithBounds
    refine keeps_bind (.liftE _) (fun l s1 h1 => ?_)
    split
    · exact h1
    rw [← h1] at hk ⊢
    refine keeps_bind (KeepsKwargs.fitCost _ _ _ _ _ _ _ _) (fun f s2 h2 => ?_)
    rw [← h2] at hk ⊢
    refine keeps_bind (.liftE _) (fun x0 s3 h3 => ?_)
    rw [← h3] at hk ⊢
    refine keeps_bind (.liftE _) (fun x0 s4 h4 => ?_)
    rw [← h4] at hk ⊢
    exact runBasinhopping_keeps opt _ _ _ _ _ _ hk
  · unfold basinhoppingFitJac
    refine keeps_bind (.liftE _) (fun l s1 h1 => ?_)
    split
    · exact h1
    rw [← h1] at hk ⊢
    refine keeps_bind (KeepsKwargs.fitCostGrad _ _ _ _ _ _ _ _ _ _) (fun f s2 h2 => ?_)
    rw [← h2] at hk ⊢
    refine keeps_bind (.liftE _) (fun x0 s3 h3 => ?_)
    rw [← h3] at hk ⊢
    exact runBasinhopping_keeps opt _ _ _ _ _ _ hk
  · unfold basinhoppingFitJacWithBounds
    refine keeps_bind (.liftE _) (fun l s1 h1 => ?_)
    split
    · exact h1
    rw [← h1] at hk ⊢
    refine keeps_bind (KeepsKwargs.fitCostGrad _ _ _ _ _ _ _ _ _ _) (fun f s2 h2 => ?_)
    rw [← h2] at hk ⊢
    refine keeps_bind (.liftE _) (fun x0 s3 h3 => ?_)
    rw [← h3] at hk ⊢
    refine keeps_bind (.liftE _) (fun x0 s4 h4 => ?_)
    rw [← h4] at hk ⊢
    exact runBasinhopping_keeps opt _ _ _ _ _ _ hk

/-- C60.  See `C60_missing_guess`. -/
theorem C60_missing_guess_jac (hc : fform.Reachable S) (hl : fform.getFreeSymbols S = .ok l)
    (hs : GradSource fform fdat F D l chunk load gradLoad st.disk) {s : Sym} (hmem : s ∈ l) (hmiss : s ∉ Dict.keys guess)
    (bh : Optimizer BHCall) (niter method args : ℕ) (stepsize : ℝ) (save gradSave : Option Key) :
    (basinhoppingFitJac S C bh fform fdat guess niter method args stepsize chunk save gradSave load gradLoad st).1 =
      .error .keyError ∧
    (basinhoppingFitJacWithBounds S C bh fform fdat guess boundsDict niter method args stepsize chunk save gradSave load gradLoad
      st).1 = .error .keyError := by
  obtain ⟨f, d, h1, _⟩ := fitCostGrad_ok S C hc.good hl hs save gradSave
  have hne : l ≠ [] := List.ne_nil_of_mem hmem
  have h2 := inOrder_error hmem hmiss
  refine ⟨?_, ?_⟩
  · unfold basinhoppingFitJac
    rw [meth_liftE_ok hl, if_neg hne, meth_bind_ok h1, meth_liftE_error h2]
  · unfold basinhoppingFitJacWithBounds
    rw [meth_liftE_ok hl, if_neg hne, meth_bind_ok h1, meth_liftE_error h2]

end

/-! ## C62: equal frequencies -/

/-- C62.  If the data have more components than the formula, component `m` of the formula is compared with the component of
frequency `m - (M' - M)` of the data, where `M` and `M'` belong to the formula and the data.  So the property holds for
`M' = M` and fails for `M' > M`, see `C62_broken`. -/
theorem C62_shifted_partial (d : Disk) {fform : FFormContainer} (hc : fform.Reachable S) {fdat : FDataContainer}
    {arguments : Option (List Sym)} {l : List Sym} (hl : ArgumentOrder S fform arguments l)
    (hM : fform.getM ≤ fdat.getM) {F : Key → ℤ → Valuation → ℂ} {D : Key → ℤ → ℂ} (hF : FormulaIs fform F)
    (hD : ∀ k ∈ fform.getKeys, ∀ m : ℤ, -(fdat.getM : ℤ) ≤ m → m ≤ fdat.getM → DRepresents fdat k m (D k m) ∧ MachineNumber (D k m))
    (chunk : Bool) (hne : chunk = true → fform.getKeys ≠ []) (save : Option Key) :
    ∃ f d', genCostFunc S C d fform fdat arguments chunk save = .ok (f, d') ∧
      ∀ r : Sym → ℝ, f (l.map r) = misfit fform.getKeys fform.getM F (fun k m => D k (m - (fdat.getM - fform.getM))) r := by
  have hr : Reads fform fdat (fun k m => D k (m - (fdat.getM - fform.getM))) := by
    intro k hk m h1 h2
    obtain ⟨⟨v, hv, hcomp⟩, hz⟩ := hD k hk (m - (fdat.getM - fform.getM)) (by omega) (by omega)
    refine ⟨⟨v, hv, ?_⟩, hz⟩
    rw [← hcomp.2]
    congr 2
    omega
  obtain ⟨f, h1, h2⟩ := genCostFunc_reads S C d hc.good hl hF hr chunk hne save
  exact ⟨f, _, h1, h2⟩

/-- C62.  If the data have fewer components than the formula, the cost function cannot be made: `IndexError`. -/
theorem C62_smaller_raises (d : Disk) {fform : FFormContainer} (hc : fform.Reachable S) {fdat : FDataContainer}
    (hfd : fdat.Reachable) {arguments : Option (List Sym)} {l : List Sym} (hl : ArgumentOrder S fform arguments l)
    (hM : fdat.getM < fform.getM) (hne : fform.getKeys ≠ []) (hkeys : ∀ k ∈ fform.getKeys, k ∈ fdat.getKeys)
    (chunk : Bool) (save : Option Key) :
    genCostFunc S C d fform fdat arguments chunk save = .error .indexError := by
  obtain ⟨h1, _⟩ := argumentSymbols_ok hc.good hl
  have hterm : ∀ k ∈ fform.getKeys, (∀ m ∈ freqs fform.getM,
        (∃ t, energyTerm S fform fdat (xsMapping l) k m = .ok t) ∨ energyTerm S fform fdat (xsMapping l) k m = .error .indexError) ∧
      ∃ m ∈ freqs fform.getM, energyTerm S fform fdat (xsMapping l) k m = .error .indexError :=
    fun k hk => energyTerm_short S l hc.good hfd.good hM hk (hkeys k hk)
  obtain ⟨k, hk⟩ := List.exists_mem_of_ne_nil _ hne
  unfold genCostFunc
  cases chunk with
  | true =>
    simp only [if_true]
    unfold energyExprList
    rw [h1, ok_bind, mapM_error (e := .indexError)]
    · rfl
    · intro k hk
      exact Or.inr (mapM_error (hterm k hk).1 (hterm k hk).2)
    · exact ⟨k, hk, mapM_error (hterm k hk).1 (hterm k hk).2⟩
  | false =>
    simp only [Bool.false_eq_true, if_false]
    unfold energyExpr
    rw [h1, ok_bind]
    obtain ⟨k0, ks, hks⟩ := List.exists_cons_of_ne_nil hne
    have h0 := hterm k0 (by rw [hks]; simp)
    rw [hks, List.foldlM_cons, foldlM_add_error S h0.1 h0.2]
    rfl

end

end Shgpy
