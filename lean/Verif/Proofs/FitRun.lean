import Verif.Proofs.FitLoad

/-!
# Lemmas: the fitting routines
-/

set_option linter.unusedSectionVars false
set_option linter.unusedSimpArgs false

namespace Shgpy
open Spec
open DataContainer (Meth liftE)

section
variable {σ α β : Type}

theorem meth_bind_ok {x : Meth σ α} {f : α → Meth σ β} {s s' : σ} {a : α} (h : x s = (.ok a, s')) :
    (x >>= f) s = f a s' := by
  simp only [bind, ExceptT.bind, ExceptT.mk, ExceptT.bindCont, StateT.bind, h]

theorem meth_bind_error {x : Meth σ α} {f : α → Meth σ β} {s s' : σ} {e : Err} (h : x s = (.error e, s')) :
    (x >>= f) s = (.error e, s') := by
  simp only [bind, ExceptT.bind, ExceptT.mk, ExceptT.bindCont, StateT.bind, h, pure, StateT.pure]

theorem meth_liftE_ok {x : Except Err α} {f : α → Meth σ β} {s : σ} {a : α} (h : x = .ok a) :
    (liftE x >>= f) s = f a s := meth_bind_ok (by rw [h]; rfl)

theorem meth_liftE_error {x : Except Err α} {f : α → Meth σ β} {s : σ} {e : Err} (h : x = .error e) :
    (liftE x >>= f) s = (.error e, s) := meth_bind_error (by rw [h]; rfl)

theorem meth_get {f : σ → Meth σ β} {s : σ} : ((get : Meth σ σ) >>= f) s = f s s := rfl

/-- A computation that leaves the options alone. -/
def KeepsKwargs (x : Meth FitState α) : Prop := ∀ st, (x st).2.kwargs = st.kwargs

theorem KeepsKwargs.bind {x : Meth FitState α} {f : α → Meth FitState β} (hx : KeepsKwargs x) (hf : ∀ a, KeepsKwargs (f a)) :
    KeepsKwargs (x >>= f) := by
  intro st
  have h := hx st
  rcases hxs : x st with ⟨r, s'⟩
  rw [hxs] at h
  cases r with
  | ok a => rw [meth_bind_ok hxs, hf a s', h]
  | error e => rw [meth_bind_error hxs, h]

theorem KeepsKwargs.pure (a : α) : KeepsKwargs (pure a : Meth FitState α) := fun _ => rfl
theorem KeepsKwargs.liftE (x : Except Err α) : KeepsKwargs (liftE x : Meth FitState α) := fun _ => rfl
theorem KeepsKwargs.get : KeepsKwargs (get : Meth FitState FitState) := fun _ => rfl

theorem onDisk_eq (f : Disk → Except Err (α × Disk)) (st : FitState) :
    onDisk f st = match f st.disk with
      | .ok (a, d) => (.ok a, { st with disk := d })
      | .error e => (.error e, st) := by
  unfold onDisk
  rw [meth_get]
  rcases h : f st.disk with e | ⟨a, d⟩
  · rw [meth_liftE_error rfl]
  · rw [meth_liftE_ok rfl]
    rfl

theorem KeepsKwargs.onDisk (f : Disk → Except Err (α × Disk)) : KeepsKwargs (onDisk f) := by
  intro st
  rw [onDisk_eq]
  rcases f st.disk with e | ⟨a, d⟩ <;> rfl

end

theorem KeepsKwargs.fitCost (S : Sympy) (C : Compiler) (fform : FFormContainer) (fdat : FDataContainer) (l : List Sym)
    (chunk : Bool) (save load : Option Key) : KeepsKwargs (fitCost S C fform fdat l chunk save load) := by
  unfold Shgpy.fitCost
  cases load <;> exact KeepsKwargs.onDisk _

theorem KeepsKwargs.fitCostGrad (S : Sympy) (C : Compiler) (fform : FFormContainer) (fdat : FDataContainer) (l : List Sym)
    (chunk : Bool) (save gradSave load gradLoad : Option Key) :
    KeepsKwargs (fitCostGrad S C fform fdat l chunk save gradSave load gradLoad) := by
  unfold Shgpy.fitCostGrad
  cases load <;> cases gradLoad <;> exact KeepsKwargs.onDisk _

theorem inOrder_ok {α : Type} {l : List Sym} {d : Dict Sym α} {g : Sym → α} (h : ∀ s ∈ l, Dict.get d s = .ok (g s)) :
    inOrder l d = .ok (l.map g) := mapM_ok' h

theorem xdictOf_ok {l : List Sym} (hl : l.Nodup) (r : Sym → ℝ) : xdictOf l (l.map r) = .ok (l.map (fun s => (s, r s))) := by
  have h1 : l.zipIdx.mapM (fun p => do
      let v ← pyGet (l.map r) p.2
      return (p.1, v)) = Except.ok (l.zipIdx.map (fun p => (p.1, r p.1))) := by
    refine mapM_ok' (fun p hp => ?_)
    have hp' := List.mem_zipIdx_iff_getElem?.1 hp
    have : pyGet (l.map r) p.2 = .ok (r p.1) := by
      unfold pyGet
      rw [if_pos (by omega)]
      simp [List.getElem?_map, hp']
    rw [this]
    rfl
  unfold xdictOf
  rw [h1, ok_bind]
  have h2 : l.zipIdx.map (fun p => (p.1, r p.1)) = l.map (fun s => (s, r s)) := by
    have : (fun p : Sym × ℕ => (p.1, r p.1)) = (fun s => (s, r s)) ∘ Prod.fst := rfl
    rw [this, ← List.map_map]
    simp
  rw [h2]
  have h3 : (l.map (fun s => (s, r s))).map Prod.fst = l := by simp [Function.comp_def]
  rw [Dict.ofPairs_of_nodup (by rw [h3]; exact hl)]
  rfl

theorem finish_ok {l : List Sym} (hl : l.Nodup) (r : Sym → ℝ) :
    finish l (l.map r) = .ok ⟨l.map r, l.map (fun s => (s, r s)), true⟩ := by
  unfold finish
  rw [xdictOf_ok hl]
  rfl

/-- A list of the right length is a list of values of the parameters. -/
theorem exists_values {l : List Sym} (hl : l.Nodup) {x : List ℝ} (hx : x.length = l.length) : ∃ r : Sym → ℝ, x = l.map r := by
  refine ⟨fun s => x.getD (l.idxOf s) 0, ?_⟩
  apply List.ext_getElem (by simpa using hx)
  intro i h1 h2
  rw [List.length_map] at h2
  simp [List.getElem_map, hl.idxOf_getElem i h2, List.getElem?_eq_getElem h1]

/-! ## The cost function of a fit -/

theorem fitCost_ok (S : Sympy) (C : Compiler) {fform : FFormContainer} (hc : fform.Good) {fdat : FDataContainer}
    {F : Key → ℤ → Valuation → ℂ} {D : Key → ℤ → ℂ} {l : List Sym} (hl : fform.getFreeSymbols S = .ok l) {chunk : Bool}
    {load : Option Key} {st : FitState} (h : CostSource fform fdat F D l chunk load st.disk) (save : Option Key) :
    ∃ f d, fitCost S C fform fdat l chunk save load st = (.ok f, { st with disk := d }) ∧
      ∀ r, f (l.map r) = misfit fform.getKeys fform.getM F D r := by
  rcases h with ⟨rfl, hM, hF, hD, hne⟩ | ⟨name, f, d', rfl, hload, hf⟩
  · obtain ⟨f, h1, h2⟩ := genCostFunc_ok S C st.disk hc (arguments := some l) (Or.inl ⟨rfl, (getFreeSymbols_lists hc hl).2⟩)
      hM hF hD chunk hne save
    refine ⟨f, st.disk.save f save, ?_, h2⟩
    unfold fitCost
    simp only
    rw [onDisk_eq, h1]
  · refine ⟨f, d', ?_, hf⟩
    unfold fitCost
    simp only
    rw [onDisk_eq, hload]

/-! ## Least squares -/

theorem leastSquaresFit_ok (S : Sympy) (C : Compiler) (opt : Optimizer LSCall) {fform : FFormContainer} {fdat : FDataContainer}
    {l : List Sym} (hl : fform.getFreeSymbols S = .ok l) (hne : l ≠ []) {chunk : Bool} {save load : Option Key}
    {st : FitState} {f : CFunc} {d : Disk} (hcost : fitCost S C fform fdat l chunk save load st = (.ok f, { st with disk := d }))
    {guess : Dict Sym ℝ} {g : Sym → ℝ} (hg : ∀ s ∈ l, Dict.get guess s = .ok (g s))
    {boundsDict : Option (Dict Sym (ℝ × ℝ))} {lo hi : Sym → ℝ}
    (hb : ∀ b, boundsDict = some b → ∀ s ∈ l, Dict.get b s = .ok (lo s, hi s))
    (hk : checkKwargs st.kwargs ([sFun, sX0] ++ if boundsDict.isSome then [sBounds] else []) = .ok ()) :
    leastSquaresFit S C opt fform fdat guess boundsDict chunk save load st =
      (match opt ⟨fun x => Real.sqrt (f x), l.map g, boundsDict.map (fun _ => (l.map lo, l.map hi)), st.kwargs⟩ with
        | .ok x => finish l x
        | .error e => .error e, { st with disk := d }) := by
  unfold leastSquaresFit
  rw [meth_liftE_ok hl, if_neg hne, meth_bind_ok hcost, meth_liftE_ok (inOrder_ok hg)]
  cases boundsDict with
  | none =>
    simp only [Option.isSome_none, Bool.false_eq_true, if_false, List.append_nil, Option.map_none, pure_bind] at hk ⊢
    rw [meth_get, meth_liftE_ok hk]
    rcases opt _ with e | x
    · rw [meth_liftE_error rfl]
    · rw [meth_liftE_ok rfl]
      rfl
  | some b =>
    simp only [Option.isSome_some, if_true, Option.map_some, pure_bind] at hk ⊢
    rw [meth_liftE_ok (inOrder_ok (g := fun s => (lo s, hi s)) (hb b rfl)), meth_get, meth_liftE_ok hk]
    simp only [List.map_map, Function.comp_def]
    rcases opt _ with e | x
    · rw [meth_liftE_error rfl]
    · rw [meth_liftE_ok rfl]
      rfl

/-! ## Dual annealing -/

theorem dualAnnealingFit_ok (S : Sympy) (C : Compiler) (opt : Optimizer DACall) {fform : FFormContainer} {fdat : FDataContainer}
    {l : List Sym} (hl : fform.getFreeSymbols S = .ok l) (hne : l ≠ []) {chunk : Bool} {save load : Option Key}
    {st : FitState} {f : CFunc} {d : Disk} (hcost : fitCost S C fform fdat l chunk save load st = (.ok f, { st with disk := d }))
    {guess : Dict Sym ℝ} {g : Sym → ℝ} (hg : ∀ s ∈ l, Dict.get guess s = .ok (g s))
    {boundsDict : Option (Dict Sym (ℝ × ℝ))} {lo hi : Sym → ℝ}
    (hb : ∀ b, boundsDict = some b → ∀ s ∈ l, Dict.get b s = .ok (lo s, hi s)) (options : ℕ) :
    dualAnnealingFit S C opt fform fdat guess boundsDict options chunk save load st =
      (match opt ⟨f, boundsDict.map (fun _ => l.map (fun s => (lo s, hi s))), l.map g, options⟩ with
        | .ok x => finish l x
        | .error e => .error e, { st with disk := d }) := by
  unfold dualAnnealingFit
  rw [meth_liftE_ok hl, if_neg hne, meth_bind_ok hcost, meth_liftE_ok (inOrder_ok hg)]
  cases boundsDict with
  | none =>
    simp only [Option.map_none, pure_bind]
    rcases opt _ with e | x
    · rw [meth_liftE_error rfl]
    · rw [meth_liftE_ok rfl]
      rfl
  | some b =>
    simp only [Option.map_some, pure_bind]
    rw [meth_liftE_ok (inOrder_ok (g := fun s => (lo s, hi s)) (hb b rfl))]
    rcases opt _ with e | x
    · rw [meth_liftE_error rfl]
    · rw [meth_liftE_ok rfl]
      rfl

/-! ## Basinhopping -/

/-- The options for the minimizer in the caller's dictionary. -/
def userMinimizer (kwargs : Kwargs) : Option (Dict Key OptVal) :=
  match Dict.get? kwargs sMinimizer with
  | some (.dict d) => some d
  | some (.other _) => none
  | none => some []

theorem takeMinimizer_ok {own d : Dict Key OptVal} {st : FitState} (h : userMinimizer st.kwargs = some d) :
    takeMinimizer own st = (.ok (d.foldl (fun acc p => Dict.set acc p.1 p.2) own),
      { st with kwargs := st.kwargs.filter (fun p => p.1 ≠ sMinimizer) }) := by
  unfold takeMinimizer userMinimizer at *
  rw [meth_get]
  rcases hk : Dict.get? st.kwargs sMinimizer with _ | v
  · rw [hk] at h
    simp only [Option.some.injEq] at h
    subst h
    simp only [List.foldl_nil]
    have : st.kwargs.filter (fun p => p.1 ≠ sMinimizer) = st.kwargs := by
      rw [List.filter_eq_self]
      intro p hp
      have := Dict.get?_eq_none.1 hk
      simp only [ne_eq, decide_not, Bool.not_eq_true', decide_eq_false_iff_not]
      intro hc
      exact this (by rw [← hc]; exact List.mem_map.2 ⟨p, hp, rfl⟩)
    rw [this]
    rfl
  · rw [hk] at h
    cases v with
    | dict d' =>
      simp only [Option.some.injEq] at h
      subst h
      rfl
    | other n => cases h

theorem runBasinhopping_ok (opt : Optimizer BHCall) (l : List Sym) (func : (List ℝ → ℝ) ⊕ (List ℝ → ℝ × List ℝ)) (x0 : List ℝ)
    {own d : Dict Key OptVal} (niter : ℕ) (stepsize : ℝ) {st : FitState} (h : userMinimizer st.kwargs = some d)
    (hk : checkKwargs (st.kwargs.filter (fun p => p.1 ≠ sMinimizer)) [sFunc, sX0, sNiter, sStepsize] = .ok ()) :
    runBasinhopping opt l func x0 own niter stepsize st =
      (match opt ⟨func, x0, d.foldl (fun acc p => Dict.set acc p.1 p.2) own, niter, stepsize,
          st.kwargs.filter (fun p => p.1 ≠ sMinimizer)⟩ with
        | .ok x => finish l x
        | .error e => .error e, { st with kwargs := st.kwargs.filter (fun p => p.1 ≠ sMinimizer) }) := by
  unfold runBasinhopping
  rw [meth_bind_ok (takeMinimizer_ok h), meth_get]
  simp only
  rw [meth_liftE_ok hk]
  rcases opt _ with e | x
  · rw [meth_liftE_error rfl]
  · rw [meth_liftE_ok rfl]
    rfl

theorem get?_update {κ α : Type} [DecidableEq κ] {d own : Dict κ α} (hd : Dict.WF d) (q : κ) :
    Dict.get? (d.foldl (fun acc p => Dict.set acc p.1 p.2) own) q = (Dict.get? d q).or (Dict.get? own q) := by
  rw [Dict.get?_foldl_set]
  congr 1
  have h1 := Dict.get?_ofPairs d q
  rw [Dict.ofPairs_of_nodup hd] at h1
  exact h1.symm

theorem fitCostGrad_ok (S : Sympy) (C : Compiler) {fform : FFormContainer} (hc : fform.Good) {fdat : FDataContainer}
    {F : Key → ℤ → Valuation → ℂ} {D : Key → ℤ → ℂ} {l : List Sym} (hl : fform.getFreeSymbols S = .ok l) {chunk : Bool}
    {load gradLoad : Option Key} {st : FitState} (h : GradSource fform fdat F D l chunk load gradLoad st.disk)
    (save gradSave : Option Key) :
    ∃ f d, fitCostGrad S C fform fdat l chunk save gradSave load gradLoad st = (.ok f, { st with disk := d }) ∧
      IsMisfitGrad fform F D l f := by
  rcases h with ⟨hload, rfl, hM, _, hF, hD, r₁, r₂, hne⟩ | ⟨name, pre, f, d', rfl, rfl, hload, hf⟩
  · obtain ⟨e, h1, h2⟩ := energyAndDenergy_ok S C st.disk hc (getFreeSymbols_lists hc hl).2 hM hF hD hne save gradSave
    refine ⟨fun x => (C.run e x, (List.range l.length).map (fun i => C.run (S.norm (e.diff (xsElem i))) x)),
      (denergyFuncs C gradSave ((List.range l.length).map (fun i => S.norm (e.diff (xsElem i)))) 0
        (st.disk.save (C.run e) save)).2, ?_,
      fun r => ⟨h1.run C r, ?_, ?_⟩⟩
    rotate_left
    · simp
    · intro i s hs
      have hi : i < l.length := (List.getElem?_eq_some_iff.1 hs).1
      refine ⟨C.run (S.norm (e.diff (xsElem i))) (l.map r), ?_, ?_⟩
      · simp [List.getElem?_map, List.getElem?_range hi]
      · exact h1.hasDerivAt (getFreeSymbols_lists hc hl).2.1 S C r hs
    · unfold fitCostGrad
      rcases hload with rfl | rfl
      · simp only
        rw [onDisk_eq, h2]
      · cases load <;> simp only <;> rw [onDisk_eq, h2]
  · refine ⟨f, d', ?_, hf⟩
    unfold fitCostGrad
    simp only
    rw [onDisk_eq, hload]

theorem checkKwargs_ok {kwargs : Kwargs} {own : List Key} (h : Without kwargs own) : checkKwargs kwargs own = .ok () := by
  unfold checkKwargs
  rw [if_neg]
  intro hcon
  obtain ⟨q, hq, hs⟩ := List.any_eq_true.1 hcon
  have := Dict.get?_eq_none.2 (h q hq)
  rw [this] at hs
  cases hs

theorem without_filter {kwargs : Kwargs} {own : List Key} (h : Without kwargs own) (p : Key × Kwarg → Bool) :
    Without (kwargs.filter p) own := by
  intro q hq hcon
  obtain ⟨it, hit, rfl⟩ := List.mem_map.1 hcon
  exact h _ hq (List.mem_map.2 ⟨it, (List.mem_filter.1 hit).1, rfl⟩)

theorem orderedBounds_ok {l : List Sym} {boundsDict : Option (Dict Sym (ℝ × ℝ))} {lo hi : Sym → ℝ}
    (hb : ∀ b, boundsDict = some b → ∀ s ∈ l, Dict.get b s = .ok (lo s, hi s)) :
    orderedBounds l boundsDict = .ok (if boundsDict.isSome then .bounds (l.map (fun s => (lo s, hi s))) else .none) := by
  cases boundsDict with
  | none => rfl
  | some b =>
    show (inOrder l b >>= fun b => pure (OptVal.bounds b)) = _
    rw [inOrder_ok (g := fun s => (lo s, hi s)) (hb b rfl)]
    rfl

theorem finish_reports {l : List Sym} (hl : l.Nodup) (r : Sym → ℝ) : ∃ res, finish l (l.map r) = .ok res ∧ Reports res l r := by
  refine ⟨_, finish_ok hl r, rfl, rfl, ?_, ?_⟩
  · simp [Dict.keys, Function.comp_def]
  · intro s hs
    rw [Dict.get_ok_iff, Dict.get?_eq_some_iff]
    · exact List.mem_map.2 ⟨s, hs, rfl⟩
    · unfold Dict.WF Dict.keys
      simpa [Function.comp_def] using hl

theorem fitOutcome_match {γ : Type} (opt : Optimizer γ) (call : γ) {l : List Sym} (hl : l.Nodup) :
    FitOutcome opt call l (match opt call with
        | .ok x => finish l x
        | .error e => .error e) := by
  refine ⟨fun r hr => ?_, fun e he => ?_⟩
  · rw [hr]
    exact finish_reports hl r
  · rw [he]

theorem userMinimizer_of {kwargs : Kwargs} {d : Dict Key OptVal} (h : UserOptions kwargs d) : userMinimizer kwargs = some d := by
  unfold userMinimizer
  rcases h.2 with h1 | ⟨h1, h2⟩
  · rw [h1]
  · rw [Dict.get?_eq_none.2 h1, h2]

theorem runBasinhopping_outcome (opt : Optimizer BHCall) {l : List Sym} (hl : l.Nodup)
    (func : (List ℝ → ℝ) ⊕ (List ℝ → ℝ × List ℝ)) (g : Sym → ℝ) {own user : Dict Key OptVal} (niter : ℕ) (stepsize : ℝ)
    {st : FitState} (hu : UserOptions st.kwargs user) (hk : Without st.kwargs [sFunc, sX0, sNiter, sStepsize]) :
    ∃ call : BHCall, call.func = func ∧ BHArguments call l g user own niter stepsize st.kwargs ∧
      FitOutcome opt call l (runBasinhopping opt l func (l.map g) own niter stepsize st).1 ∧
      (runBasinhopping opt l func (l.map g) own niter stepsize st).2 =
        { st with kwargs := st.kwargs.filter (fun p => p.1 ≠ sMinimizer) } := by
  have h := runBasinhopping_ok opt l func (l.map g) (own := own) niter stepsize (userMinimizer_of hu)
    (checkKwargs_ok (without_filter hk _))
  refine ⟨⟨func, l.map g, user.foldl (fun acc p => Dict.set acc p.1 p.2) own, niter, stepsize,
    st.kwargs.filter (fun p => p.1 ≠ sMinimizer)⟩, rfl, ⟨rfl, rfl, rfl, get?_update hu.1, rfl⟩, ?_, ?_⟩
  · rw [h]
    exact fitOutcome_match opt _ hl
  · rw [h]

theorem inOrder_error {α : Type} {l : List Sym} {d : Dict Sym α} {s : Sym} (hs : s ∈ l) (h : s ∉ Dict.keys d) :
    inOrder l d = .error .keyError := by
  unfold inOrder
  refine mapM_error (e := .keyError) (fun k _ => ?_) ⟨s, hs, ?_⟩
  · rcases hk : Dict.get d k with e | v
    · rw [(Dict.get_error_iff.1 hk).2]
      exact Or.inr rfl
    · exact Or.inl ⟨v, rfl⟩
  · exact Dict.get_error_iff.2 ⟨h, rfl⟩

theorem runBasinhopping_keeps (opt : Optimizer BHCall) (l : List Sym) (func : (List ℝ → ℝ) ⊕ (List ℝ → ℝ × List ℝ)) (x0 : List ℝ)
    (own : Dict Key OptVal) (niter : ℕ) (stepsize : ℝ) {st : FitState} (h : sMinimizer ∉ Dict.keys st.kwargs) :
    (runBasinhopping opt l func x0 own niter stepsize st).2.kwargs = st.kwargs := by
  have h1 : takeMinimizer own st = (.ok own, st) := by
    unfold takeMinimizer
    rw [meth_get, Dict.get?_eq_none.2 h]
    rfl
  unfold runBasinhopping
  rw [meth_bind_ok h1]
  have : KeepsKwargs (do
      let st ← get
      liftE (checkKwargs st.kwargs [sFunc, sX0, sNiter, sStepsize])
      let x ← liftE (opt ⟨func, x0, own, niter, stepsize, st.kwargs⟩)
      liftE (finish l x) : Meth FitState OptResult) :=
    .bind .get (fun st => .bind (.liftE _) (fun _ => .bind (.liftE _) (fun x => .liftE _)))
  exact this st

/-- A computation that keeps options, followed by one that keeps them if an entry is missing. -/
theorem keeps_bind {α β : Type} {x : Meth FitState α} {f : α → Meth FitState β} (hx : KeepsKwargs x) {st : FitState}
    (hf : ∀ a st', st'.kwargs = st.kwargs → (f a st').2.kwargs = st.kwargs) : ((x >>= f) st).2.kwargs = st.kwargs := by
  have h := hx st
  rcases hxs : x st with ⟨r, s'⟩
  rw [hxs] at h
  cases r with
  | ok a =>
    rw [meth_bind_ok hxs]
    exact hf a s' h
  | error e =>
    rw [meth_bind_error hxs]
    exact h

theorem foldlM_add_error (S : Sympy) {ι : Type} {term : ι → Except Err Expr} {e : Err} : ∀ {is : List ι},
    (∀ i ∈ is, (∃ t, term i = .ok t) ∨ term i = .error e) → (∃ i ∈ is, term i = .error e) → ∀ {acc : Expr},
    is.foldlM (fun acc i => do
        let t ← term i
        return S.add acc t) acc = .error e
  | [], _, h, _ => by simp at h
  | i :: is, h1, h2, acc => by
      rw [List.foldlM_cons]
      rcases h1 i (by simp) with ⟨t, ht⟩ | ht
      · rw [ht, ok_bind]
        obtain ⟨j, hj, he⟩ := h2
        rcases List.mem_cons.1 hj with rfl | hj
        · rw [ht] at he
          cases he
        · exact foldlM_add_error S (fun i hi => h1 i (by simp [hi])) ⟨j, hj, he⟩
      · rw [ht, error_bind, error_bind]

/-- The terms of the cost when the data have too few components. -/
theorem energyTerm_short (S : Sympy) (l : List Sym) {fform : FFormContainer} (hc : fform.Good) {fdat : FDataContainer}
    (hfd : fdat.Good) (hM : fdat.getM < fform.getM) {k : Key} (hk : k ∈ fform.getKeys) (hk' : k ∈ fdat.getKeys) :
    (∀ m ∈ freqs fform.getM,
        (∃ t, energyTerm S fform fdat (xsMapping l) k m = .ok t) ∨ energyTerm S fform fdat (xsMapping l) k m = .error .indexError) ∧
      ∃ m ∈ freqs fform.getM, energyTerm S fform fdat (xsMapping l) k m = .error .indexError := by
  obtain ⟨a, ha⟩ : ∃ a, fform.getPc k = .ok a := by
    obtain ⟨it, hit, rfl⟩ := List.mem_map.1 hk
    exact ⟨it.2, hc.getPc_iff.2 hit⟩
  obtain ⟨v, hv⟩ : ∃ v, fdat.getPc k = .ok v := by
    obtain ⟨it, hit, rfl⟩ := List.mem_map.1 hk'
    exact ⟨it.2, Dict.get_ok_iff.2 ((Dict.get?_eq_some_iff hfd.wf).2 hit)⟩
  have hla : a.objs.length = 2 * fform.getM + 1 := hc.len _ (hc.getPc_iff.1 ha)
  have hlv : v.length = 2 * fdat.getM + 1 := hfd.len _ (Dict.mem_of_get? (Dict.get_ok_iff.1 hv))
  have hget : ∀ m ∈ freqs fform.getM, ∃ o, pyGet a.objs (n2i m fform.getM) = .ok o := by
    intro m hm
    have hm' := mem_freqs.1 hm
    have : (m + fform.getM).toNat < a.objs.length := by omega
    exact ⟨_, (pyGet_n2i_iff hm).2 (List.getElem?_eq_getElem this)⟩
  have hdat : ∀ m ∈ freqs fform.getM, (∃ z, pyGet v (n2i m fform.getM) = .ok z) ∨ pyGet v (n2i m fform.getM) = .error .indexError := by
    intro m hm
    unfold pyGet
    split
    · split
      · exact Or.inl ⟨_, rfl⟩
      · exact Or.inr rfl
    · split
      · split
        · exact Or.inl ⟨_, rfl⟩
        · exact Or.inr rfl
      · exact Or.inr rfl
  refine ⟨fun m hm => ?_, (fform.getM : ℤ), mem_freqs.2 (by omega), ?_⟩
  · obtain ⟨o, ho⟩ := hget m hm
    unfold energyTerm
    rw [ha, ok_bind, ho, ok_bind, hv, ok_bind]
    rcases hdat m hm with ⟨z, hz⟩ | hz
    · rw [hz]
      exact Or.inl ⟨_, rfl⟩
    · rw [hz]
      exact Or.inr rfl
  · have hm : (fform.getM : ℤ) ∈ freqs fform.getM := mem_freqs.2 (by omega)
    obtain ⟨o, ho⟩ := hget _ hm
    have hz : pyGet v (n2i (fform.getM : ℤ) fform.getM) = .error .indexError := by
      rcases hdat _ hm with ⟨z, hz⟩ | hz
      · have := (pyGet_n2i_iff hm).1 hz
        have h2 := (List.getElem?_eq_some_iff.1 this).1
        omega
      · exact hz
    unfold energyTerm
    rw [ha, ok_bind, ho, ok_bind, hv, ok_bind, hz]
    rfl

end Shgpy
