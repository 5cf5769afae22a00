import Verif.Spec.Files
import Verif.Proofs.FormToDat
import Verif.Props.FFormFitCases

/-!
# More properties of `shgpy/fformfit.py`: the files that are written (C75) and errors of the caller (C60)
-/

set_option linter.unusedSectionVars false
set_option linter.unusedSimpArgs false
set_option linter.unusedVariables false

namespace Shgpy
open Spec
open DataContainer (Meth liftE)

/-! ## Lemmas -/

theorem Spec.OnlyFiles.refl (names : Key → Prop) (d : Disk) : OnlyFiles names d d := ⟨fun _ _ => rfl, fun _ => rfl⟩

theorem Spec.OnlyFiles.trans {names : Key → Prop} {d d' d'' : Disk} (h : OnlyFiles names d d') (h' : OnlyFiles names d' d'') :
    OnlyFiles names d d'' := ⟨fun p hp => (h'.1 p hp).trans (h.1 p hp), fun p => (h'.2 p).trans (h.2 p)⟩

theorem Spec.OnlyFiles.mono {names names' : Key → Prop} {d d' : Disk} (h : OnlyFiles names d d') (hn : ∀ p, names p → names' p) :
    OnlyFiles names' d d' := ⟨fun p hp => h.1 p (fun hq => hp (hn p hq)), h.2⟩

theorem Spec.OnlyFiles.save (d : Disk) (f : CFunc) (save : Option Key) : OnlyFiles (fun p => save = some p) d (d.save f save) := by
  cases save with
  | none => exact .refl _ _
  | some name =>
    refine ⟨fun p hp => ?_, fun _ => rfl⟩
    rw [save_get, if_neg (fun h => hp (by rw [h]))]

theorem denergyFuncs_only (C : Compiler) (gradSave : Option Key) : ∀ (es : List Expr) (i : ℕ) (d : Disk),
    OnlyFiles (fun p => ∃ pre j, gradSave = some pre ∧ j < i + es.length ∧ p = gradName pre j) d (denergyFuncs C gradSave es i d).2 ∧
      (denergyFuncs C gradSave es i d).2.loaded = d.loaded
  | [], i, d => ⟨.refl _ _, rfl⟩
  | e :: r, i, d => by
      obtain ⟨h1, h2⟩ := denergyFuncs_only C gradSave r (i + 1) (d.save (C.run e) (gradSave.map (fun p => gradName p i)))
      have hstep : (denergyFuncs C gradSave (e :: r) i d).2 =
          (denergyFuncs C gradSave r (i + 1) (d.save (C.run e) (gradSave.map (fun p => gradName p i)))).2 := rfl
      rw [hstep]
      refine ⟨OnlyFiles.trans ((OnlyFiles.save d (C.run e) _).mono ?_) (h1.mono ?_), ?_⟩
      · intro p hp
        cases gradSave with
        | none => cases hp
        | some pre =>
          simp only [Option.map_some, Option.some.injEq] at hp
          exact ⟨pre, i, rfl, by simp, hp.symm⟩
      · rintro p ⟨pre, j, h3, h4, h5⟩
        exact ⟨pre, j, h3, by simp only [List.length_cons]; omega, h5⟩
      · rw [h2]
        cases gradSave <;> rfl

theorem dlopen_same {d d' : Disk} {path : Key} {c : Option Content} {f : CFunc} (h : d.dlopen path c = .ok (f, d')) :
    d'.files = d.files ∧ d'.folders = d.folders := by
  unfold Disk.dlopen at h
  split at h
  · cases h
  · split at h
    · cases h
      exact ⟨rfl, rfl⟩
    · split at h
      · cases h
        exact ⟨rfl, rfl⟩
      · cases h

theorem loadGrads_same (pre : Key) : ∀ (fuel i : ℕ) (d : Disk) {fs : List CFunc} {d' : Disk},
    loadGrads pre fuel i d = .ok (fs, d') → d'.files = d.files ∧ d'.folders = d.folders
  | 0, i, d, fs, d', h => by
      cases h
      exact ⟨rfl, rfl⟩
  | fuel + 1, i, d, fs, d', h => by
      unfold loadGrads at h
      split at h
      · cases h
        exact ⟨rfl, rfl⟩
      · obtain ⟨⟨f, d1⟩, h1, h2⟩ := bind_ok h
        obtain ⟨⟨gs, d2⟩, h3, h4⟩ := bind_ok h2
        cases h4
        have h5 := dlopen_same h1
        have h6 := loadGrads_same pre fuel (i + 1) d1 h3
        exact ⟨h6.1.trans h5.1, h6.2.trans h5.2⟩

theorem foldlM_same {α ι : Type} {step : α × Disk → ι → Except Err (α × Disk)}
    (hstep : ∀ a i b, step a i = .ok b → b.2.files = a.2.files ∧ b.2.folders = a.2.folders) :
    ∀ (is : List ι) (a b : α × Disk), is.foldlM step a = .ok b → b.2.files = a.2.files ∧ b.2.folders = a.2.folders
  | [], a, b, h => by
      cases h
      exact ⟨rfl, rfl⟩
  | i :: is, a, b, h => by
      rw [List.foldlM_cons] at h
      obtain ⟨c, h1, h2⟩ := bind_ok h
      have h3 := hstep a i c h1
      have h4 := foldlM_same hstep is c b h2
      exact ⟨h4.1.trans h3.1, h4.2.trans h3.2⟩

/-- A step of a fitting routine that leaves the files alone. -/
def KeepsDisk {α : Type} (x : Meth FitState α) : Prop := ∀ st, (x st).2.disk = st.disk

theorem KeepsDisk.bind {α β : Type} {x : Meth FitState α} {f : α → Meth FitState β} (hx : KeepsDisk x)
    (hf : ∀ a, KeepsDisk (f a)) : KeepsDisk (x >>= f) := by
  intro st
  have h := hx st
  rcases hxs : x st with ⟨r, s'⟩
  rw [hxs] at h
  cases r with
  | ok a => rw [meth_bind_ok hxs, hf a s', h]
  | error e => rw [meth_bind_error hxs, h]

theorem KeepsDisk.pure {α : Type} (a : α) : KeepsDisk (pure a : Meth FitState α) := fun _ => rfl
theorem KeepsDisk.liftE {α : Type} (x : Except Err α) : KeepsDisk (liftE x : Meth FitState α) := fun _ => rfl
theorem KeepsDisk.get : KeepsDisk (get : Meth FitState FitState) := fun _ => rfl

theorem KeepsDisk.takeMinimizer (own : Dict Key OptVal) : KeepsDisk (takeMinimizer own) := by
  intro st
  unfold Shgpy.takeMinimizer
  rw [meth_get]
  rcases Dict.get? st.kwargs sMinimizer with _ | v
  · rfl
  · cases v <;> rfl

theorem KeepsDisk.runBasinhopping (opt : Optimizer BHCall) (l : List Sym) (func : (List ℝ → ℝ) ⊕ (List ℝ → ℝ × List ℝ))
    (x0 : List ℝ) (own : Dict Key OptVal) (niter : ℕ) (stepsize : ℝ) :
    KeepsDisk (runBasinhopping opt l func x0 own niter stepsize) :=
  .bind (.takeMinimizer _) (fun _ => .bind .get (fun _ => .bind (.liftE _) (fun _ => .bind (.liftE _) (fun _ => .liftE _))))

theorem bind_disk {α β : Type} {x : Meth FitState α} {f : α → Meth FitState β} (hf : ∀ a, KeepsDisk (f a)) (st : FitState) :
    ((x >>= f) st).2.disk = (x st).2.disk := by
  rcases hxs : x st with ⟨r, s'⟩
  cases r with
  | ok a => rw [meth_bind_ok hxs, hf a s']
  | error e => rw [meth_bind_error hxs]

section
variable (S : Sympy) (C : Compiler)

section
variable {fform : FFormContainer} {fdat : FDataContainer} {l : List Sym} {chunk : Bool} {load gradLoad save gradSave : Option Key}
  {st : FitState} {guess : Dict Sym ℝ} {boundsDict : Option (Dict Sym (ℝ × ℝ))}

theorem leastSquaresFit_disk (hl : fform.getFreeSymbols S = .ok l) (hne : l ≠ []) (opt : Optimizer LSCall) :
    (leastSquaresFit S C opt fform fdat guess boundsDict chunk save load st).2.disk =
      (fitCost S C fform fdat l chunk save load st).2.disk := by
  unfold leastSquaresFit
  rw [meth_liftE_ok hl, if_neg hne]
  refine bind_disk (fun f => .bind (.liftE _) (fun x0 => ?_)) st
  have tail : ∀ b : Option (List ℝ × List ℝ), KeepsDisk (do
      let st ← get
      liftE (checkKwargs st.kwargs ([sFun, sX0] ++ if b.isSome then [sBounds] else []))
      let x ← liftE (opt ⟨fun x => Real.sqrt (f x), x0, b, st.kwargs⟩)
      liftE (finish l x)) := fun b =>
    .bind .get (fun st => .bind (.liftE _) (fun _ => .bind (.liftE _) (fun x => .liftE _)))
  cases boundsDict with
  | none => exact .bind (.pure _) tail
  | some b => exact .bind (.liftE _) (fun b => .bind (.pure _) tail)

theorem dualAnnealingFit_disk (hl : fform.getFreeSymbols S = .ok l) (hne : l ≠ []) (opt : Optimizer DACall) (options : ℕ) :
    (dualAnnealingFit S C opt fform fdat guess boundsDict options chunk save load st).2.disk =
      (fitCost S C fform fdat l chunk save load st).2.disk := by
  unfold dualAnnealingFit
  rw [meth_liftE_ok hl, if_neg hne]
  refine bind_disk (fun f => .bind (.liftE _) (fun x0 => ?_)) st
  have tail : ∀ b : Option (List (ℝ × ℝ)), KeepsDisk (do
      let x ← liftE (opt ⟨f, b, x0, options⟩)
      liftE (finish l x)) := fun b => .bind (.liftE _) (fun x => .liftE _)
  cases boundsDict with
  | none => exact .bind (.pure _) tail
  | some b => exact .bind (.liftE _) (fun b => .bind (.pure _) tail)

theorem basinhoppingFit_disk (hl : fform.getFreeSymbols S = .ok l) (hne : l ≠ []) (opt : Optimizer BHCall)
    (niter method args : ℕ) (stepsize : ℝ) :
    (basinhoppingFit S C opt fform fdat guess niter method args stepsize chunk save load st).2.disk =
      (fitCost S C fform fdat l chunk save load st).2.disk := by
  unfold basinhoppingFit
  rw [meth_liftE_ok hl, if_neg hne]
  exact bind_disk (fun f => .bind (.liftE _) (fun x0 => .runBasinhopping _ _ _ _ _ _ _)) st

theorem basinhoppingFitWithBounds_disk (hl : fform.getFreeSymbols S = .ok l) (hne : l ≠ []) (opt : Optimizer BHCall)
    (niter method args : ℕ) (stepsize : ℝ) :
    (basinhoppingFitWithBounds S C opt fform fdat guess boundsDict niter method args stepsize chunk save load st).2.disk =
      (fitCost S C fform fdat l chunk save load st).2.disk := by
  unfold basinhoppingFitWithBounds
  rw [meth_liftE_ok hl, if_neg hne]
  exact bind_disk (fun f => .bind (.liftE _) (fun x0 => .bind (.liftE _) (fun b => .runBasinhopping _ _ _ _ _ _ _))) st

theorem basinhoppingFitJac_disk (hl : fform.getFreeSymbols S = .ok l) (hne : l ≠ []) (opt : Optimizer BHCall)
    (niter method args : ℕ) (stepsize : ℝ) :
    (basinhoppingFitJac S C opt fform fdat guess niter method args stepsize chunk save gradSave load gradLoad st).2.disk =
      (fitCostGrad S C fform fdat l chunk save gradSave load gradLoad st).2.disk := by
  unfold basinhoppingFitJac
  rw [meth_liftE_ok hl, if_neg hne]
  exact bind_disk (fun f => .bind (.liftE _) (fun x0 => .runBasinhopping _ _ _ _ _ _ _)) st

theorem basinhoppingFitJacWithBounds_disk (hl : fform.getFreeSymbols S = .ok l) (hne : l ≠ []) (opt : Optimizer BHCall)
    (niter method args : ℕ) (stepsize : ℝ) :
    (basinhoppingFitJacWithBounds S C opt fform fdat guess boundsDict niter method args stepsize chunk save gradSave load gradLoad
      st).2.disk = (fitCostGrad S C fform fdat l chunk save gradSave load gradLoad st).2.disk := by
  unfold basinhoppingFitJacWithBounds
  rw [meth_liftE_ok hl, if_neg hne]
  exact bind_disk (fun f => .bind (.liftE _) (fun x0 => .bind (.liftE _) (fun b => .runBasinhopping _ _ _ _ _ _ _))) st

end

/-! ## C75: the files that are written -/

/-- C75.  `gen_cost_func` writes the file it is asked to write, and the file has the function that is returned; all other
files, all folders and the libraries of the process stay as they are.  Without a file name nothing is written. -/
theorem C75_cost (d : Disk) {fform : FFormContainer} {fdat : FDataContainer} {arguments : Option (List Sym)} {chunk : Bool}
    {save : Option Key} {f : CFunc} {d' : Disk} (h : genCostFunc S C d fform fdat arguments chunk save = .ok (f, d')) :
    OnlyFiles (fun p => save = some p) d d' ∧ d'.loaded = d.loaded ∧
      ∀ name, save = some name → Dict.get? d'.files name = some (some f) := by
  have key : ∃ g : CFunc, f = g ∧ d' = d.save g save := by
    unfold genCostFunc at h
    cases chunk with
    | true =>
      simp only [if_true] at h
      obtain ⟨es, _, h2⟩ := bind_ok h
      unfold energyFuncChunked at h2
      cases es with
      | nil => cases h2
      | cons e r =>
        simp only at h2
        cases h2
        exact ⟨_, rfl, rfl⟩
    | false =>
      simp only [Bool.false_eq_true, if_false] at h
      obtain ⟨e, _, h2⟩ := bind_ok h
      cases h2
      exact ⟨_, rfl, rfl⟩
  obtain ⟨g, rfl, rfl⟩ := key
  refine ⟨.save _ _ _, by cases save <;> rfl, ?_⟩
  rintro name rfl
  rw [save_get, if_pos rfl]

/-- C75.  The cost function with gradient writes the file of the cost and one file per parameter for the gradient, as asked,
and nothing else. -/
theorem C75_gradient (d : Disk) {fform : FFormContainer} {fdat : FDataContainer} {l : List Sym} {chunk : Bool}
    {save gradSave : Option Key} {f : CGrad} {d' : Disk} (h : energyAndDenergy S C d fform fdat l chunk save gradSave = .ok (f, d')) :
    OnlyFiles (fun p => save = some p ∨ ∃ pre i, gradSave = some pre ∧ i < l.length ∧ p = gradName pre i) d d' ∧
      d'.loaded = d.loaded := by
  unfold energyAndDenergy at h
  cases chunk with
  | true => cases h
  | false =>
    obtain ⟨e, _, h⟩ := bind_ok h
    obtain ⟨de, hde, h⟩ := bind_ok h
    cases h
    have hlen : de.length = l.length := by
      unfold denergyExpr at hde
      split at hde
      · cases hde
      · cases hde
        simp
    obtain ⟨h1, h2⟩ := denergyFuncs_only C gradSave de 0 (d.save (C.run e) save)
    refine ⟨OnlyFiles.trans ((OnlyFiles.save d (C.run e) save).mono (fun p hp => Or.inl hp)) (h1.mono ?_), ?_⟩
    · rintro p ⟨pre, i, h3, h4, h5⟩
      exact Or.inr ⟨pre, i, h3, by omega, h5⟩
    · exact h2.trans (by cases save <;> rfl)

/-- C75.  `gen_model_func` writes its folder only, and the folder has afterwards only files of this model, whatever was in it
before. -/
theorem C75_model (d : Disk) {fform : FFormContainer} {folder : Key} {n : ℤ} {f : List ℝ → Key → ℤ → Except Err ℂ} {d' : Disk}
    (h : genModelFunc S C d fform folder n = .ok (f, d')) :
    OnlyFolder folder d d' ∧ d'.loaded = d.loaded ∧ ∃ content, Dict.get? d'.folders folder = some content ∧
      ∀ name ∈ Dict.keys content, ∃ k ∈ fform.getKeys, ∃ m : ℤ, -(fform.getM : ℤ) ≤ m ∧ m ≤ fform.getM ∧ ∃ (part : Part) (i : ℕ),
        name = chunkName k m part i := by
  unfold genModelFunc at h
  obtain ⟨⟨fd, content⟩, h1, h2⟩ := bind_ok h
  cases h2
  refine ⟨⟨fun _ => rfl, fun p hp => ?_⟩, rfl, content, ?_, ?_⟩
  · show Dict.get? (Dict.set d.folders folder content) p = _
    rw [Dict.get?_set, if_neg (fun h => hp h.symm)]
  · show Dict.get? (Dict.set d.folders folder content) folder = _
    rw [Dict.get?_set, if_pos rfl]
  · intro name hname
    unfold fixedAutowrapModel at h1
    obtain ⟨l, h3, h4⟩ := bind_ok h1
    cases h4
    rw [Dict.mem_keys_ofPairs] at hname
    obtain ⟨q, hq, rfl⟩ := List.mem_map.1 hname
    obtain ⟨q', hq', rfl⟩ := List.mem_map.1 hq
    obtain ⟨⟨key, fs⟩, hkey, hq''⟩ := List.mem_flatMap.1 hq'
    obtain ⟨key', hk', hstep⟩ := mapM_mem h3 hkey
    obtain ⟨fs', h5, h6⟩ := bind_ok hstep
    cases h6
    unfold modelFuncs at h5
    obtain ⟨e, _, h5⟩ := bind_ok h5
    obtain ⟨cs, _, h5⟩ := bind_ok h5
    cases h5
    obtain ⟨c, _, rfl⟩ := List.mem_map.1 hq''
    obtain ⟨h7, h8, h9⟩ := mem_funcKeys.1 hk'
    exact ⟨key.1, h7, key.2.1, h8, h9, key.2.2, c.2, rfl⟩

/-- C75.  Loading functions writes nothing. -/
theorem C75_load (L : Listing) (d : Disk) {fform : FFormContainer} :
    (∀ name f d', loadFunc d name = .ok (f, d') → d'.files = d.files ∧ d'.folders = d.folders) ∧
    (∀ name pre f d', loadEnergyAndDenergy d name pre = .ok (f, d') → d'.files = d.files ∧ d'.folders = d.folders) ∧
    (∀ folder f d', loadModelFunc L d fform folder = .ok (f, d') → d'.files = d.files ∧ d'.folders = d.folders) := by
  refine ⟨fun name f d' h => dlopen_same h, fun name pre f d' h => ?_, fun folder f d' h => ?_⟩
  · unfold loadEnergyAndDenergy at h
    obtain ⟨⟨g, d1⟩, h1, h2⟩ := bind_ok h
    obtain ⟨⟨gs, d2⟩, h3, h4⟩ := bind_ok h2
    cases h4
    have h5 := dlopen_same h1
    have h6 := loadGrads_same _ _ _ _ h3
    exact ⟨h6.1.trans h5.1, h6.2.trans h5.2⟩
  · unfold loadModelFunc at h
    obtain ⟨⟨fd, d1⟩, h1, h2⟩ := bind_ok h
    cases h2
    unfold loadFuncDict at h1
    refine foldlM_same ?_ _ _ _ h1
    rintro a i b hb
    obtain ⟨⟨fs, d2⟩, h3, h4⟩ := bind_ok hb
    cases h4
    unfold loadPart at h3
    have h7 := foldlM_same (α := List CFunc) ?_ _ _ _ h3
    · exact h7
    rintro a' i' b' hb'
    obtain ⟨⟨f', d3⟩, h5, h6⟩ := bind_ok hb'
    cases h6
    exact dlopen_same h5

section
variable {fform : FFormContainer} {fdat : FDataContainer} {l : List Sym} {chunk : Bool} {load gradLoad : Option Key}
  {st : FitState} {guess : Dict Sym ℝ} {boundsDict : Option (Dict Sym (ℝ × ℝ))} {F : Key → ℤ → Valuation → ℂ} {D : Key → ℤ → ℂ}

theorem fitCost_only (save : Option Key) :
    OnlyFiles (CostFile save load) st.disk (fitCost S C fform fdat l chunk save load st).2.disk := by
  unfold fitCost
  cases load with
  | some name =>
    simp only
    rw [onDisk_eq]
    rcases h : loadFunc st.disk name with e | ⟨f, d⟩
    · exact .refl _ _
    · have := dlopen_same h
      exact ⟨fun p _ => by rw [this.1], fun p => by rw [this.2]⟩
  | none =>
    simp only
    rw [onDisk_eq]
    rcases h : genCostFunc S C st.disk fform fdat (some l) chunk save with e | ⟨f, d⟩
    · exact .refl _ _
    · exact (C75_cost S C _ h).1.mono (fun p hp => ⟨rfl, hp⟩)

theorem fitCostGrad_only (save gradSave : Option Key) :
    OnlyFiles (GradFile l.length save gradSave load gradLoad) st.disk
      (fitCostGrad S C fform fdat l chunk save gradSave load gradLoad st).2.disk := by
  have hgen : (load = none ∨ gradLoad = none) → OnlyFiles (GradFile l.length save gradSave load gradLoad) st.disk
      (onDisk (fun d => energyAndDenergy S C d fform fdat l chunk save gradSave) st).2.disk := by
    intro hor
    rw [onDisk_eq]
    rcases h : energyAndDenergy S C st.disk fform fdat l chunk save gradSave with e | ⟨f, d⟩
    · exact .refl _ _
    · exact (C75_gradient S C _ h).1.mono (fun p hp => ⟨hor, hp⟩)
  unfold fitCostGrad
  cases load with
  | none => exact hgen (Or.inl rfl)
  | some name =>
    cases gradLoad with
    | none => exact hgen (Or.inr rfl)
    | some pre =>
      simp only
      rw [onDisk_eq]
      rcases h : loadEnergyAndDenergy st.disk name pre with e | ⟨f, d⟩
      · exact .refl _ _
      · have := (C75_load ⟨id, fun _ => List.Perm.refl _⟩ st.disk (fform := fform)).2.1 _ _ _ _ h
        exact ⟨fun p _ => by rw [this.1], fun p => by rw [this.2]⟩

/-- C75.  A fit writes the files it is asked to write and no others, whatever happens: also if it raises, and nothing at all if
the functions are loaded from files or if there are no parameters. -/
theorem C75_fits (hl : fform.getFreeSymbols S = .ok l) (lsq : Optimizer LSCall) (bh : Optimizer BHCall)
    (da : Optimizer DACall) (niter method args options : ℕ) (stepsize : ℝ) (save gradSave : Option Key) :
    OnlyFiles (CostFile save load) st.disk
      (leastSquaresFit S C lsq fform fdat guess boundsDict chunk save load st).2.disk ∧
    OnlyFiles (CostFile save load) st.disk
      (dualAnnealingFit S C da fform fdat guess boundsDict options chunk save load st).2.disk ∧
    OnlyFiles (CostFile save load) st.disk
      (basinhoppingFit S C bh fform fdat guess niter method args stepsize chunk save load st).2.disk ∧
    OnlyFiles (CostFile save load) st.disk
      (basinhoppingFitWithBounds S C bh fform fdat guess boundsDict niter method args stepsize chunk save load st).2.disk ∧
    OnlyFiles (GradFile l.length save gradSave load gradLoad) st.disk
      (basinhoppingFitJac S C bh fform fdat guess niter method args stepsize chunk save gradSave load gradLoad st).2.disk ∧
    OnlyFiles (GradFile l.length save gradSave load gradLoad) st.disk
      (basinhoppingFitJacWithBounds S C bh fform fdat guess boundsDict niter method args stepsize chunk save gradSave load gradLoad
        st).2.disk := by
  by_cases hne : l = []
  · subst hne
    obtain ⟨h1, h2, h3, h4, h5, h6⟩ := C60_no_parameters S C (fdat := fdat) (chunk := chunk) (load := load) (gradLoad := gradLoad)
      (st := st) (guess := guess) (boundsDict := boundsDict) hl lsq bh da niter method args options stepsize save gradSave
    rw [h1, h2, h3, h4, h5, h6]
    exact ⟨.refl _ _, .refl _ _, .refl _ _, .refl _ _, .refl _ _, .refl _ _⟩
  · rw [leastSquaresFit_disk S C hl hne, dualAnnealingFit_disk S C hl hne, basinhoppingFit_disk S C hl hne,
      basinhoppingFitWithBounds_disk S C hl hne, basinhoppingFitJac_disk S C hl hne, basinhoppingFitJacWithBounds_disk S C hl hne]
    exact ⟨fitCost_only S C save, fitCost_only S C save, fitCost_only S C save, fitCost_only S C save,
      fitCostGrad_only S C save gradSave, fitCostGrad_only S C save gradSave⟩

/-- C75.  A fit that is asked to save the cost function saves a function with the values of the misfit, also if the fit raises
afterwards (a missing guess, an error of the optimizer). -/
theorem C75_fit_saves (hc : fform.Reachable S) (hl : fform.getFreeSymbols S = .ok l) (hne : l ≠ [])
    (hM : fdat.getM = fform.getM) (hF : FormulaIs fform F) (hD : DataIs fform fdat D) (hk : chunk = true → fform.getKeys ≠ [])
    (lsq : Optimizer LSCall) (bh : Optimizer BHCall) (da : Optimizer DACall) (niter method args options : ℕ) (stepsize : ℝ)
    (name : Key) :
    ∃ f : CFunc, (∀ r : Sym → ℝ, f (l.map r) = misfit fform.getKeys fform.getM F D r) ∧
      Dict.get? (leastSquaresFit S C lsq fform fdat guess boundsDict chunk (some name) none st).2.disk.files name = some (some f) ∧
      Dict.get? (dualAnnealingFit S C da fform fdat guess boundsDict options chunk (some name) none st).2.disk.files name =
        some (some f) ∧
      Dict.get? (basinhoppingFit S C bh fform fdat guess niter method args stepsize chunk (some name) none st).2.disk.files name =
        some (some f) ∧
      Dict.get? (basinhoppingFitWithBounds S C bh fform fdat guess boundsDict niter method args stepsize chunk (some name) none
        st).2.disk.files name = some (some f) := by
  rw [leastSquaresFit_disk S C hl hne, dualAnnealingFit_disk S C hl hne, basinhoppingFit_disk S C hl hne,
    basinhoppingFitWithBounds_disk S C hl hne]
  obtain ⟨f, h1, h2⟩ := genCostFunc_ok S C st.disk hc.good (arguments := some l)
    (Or.inl ⟨rfl, (getFreeSymbols_lists hc.good hl).2⟩) hM hF hD chunk hk (some name)
  have h3 := (C75_cost S C _ h1).2.2 name rfl
  have h4 : (fitCost S C fform fdat l chunk (some name) none st).2.disk = st.disk.save f (some name) := by
    unfold fitCost
    simp only
    rw [onDisk_eq, h1]
  rw [h4]
  exact ⟨f, h2, h3, h3, h3, h3⟩

/-! ## C60: errors of the caller -/

theorem checkKwargs_error {kwargs : Kwargs} {own : List Key} {q : Key} (hq : q ∈ own) (h : q ∈ Dict.keys kwargs) :
    checkKwargs kwargs own = .error .typeError := by
  unfold checkKwargs
  rw [if_pos]
  refine List.any_eq_true.2 ⟨q, hq, ?_⟩
  rcases hg : Dict.get? kwargs q with _ | v
  · exact absurd h (Dict.get?_eq_none.1 hg)
  · rfl

theorem runBasinhopping_error (opt : Optimizer BHCall) (func : (List ℝ → ℝ) ⊕ (List ℝ → ℝ × List ℝ)) (x0 : List ℝ)
    (own : Dict Key OptVal) (niter : ℕ) (stepsize : ℝ) {st : FitState} {q : Key} (hq : q ∈ [sFunc, sX0, sNiter, sStepsize])
    (h : q ∈ Dict.keys st.kwargs) : (runBasinhopping opt l func x0 own niter stepsize st).1 = .error .typeError := by
  unfold runBasinhopping
  rcases hu : userMinimizer st.kwargs with _ | user
  · have : takeMinimizer own st = (.error .typeError, { st with kwargs := st.kwargs.filter (fun p => p.1 ≠ sMinimizer) }) := by
      unfold takeMinimizer userMinimizer at *
      rw [meth_get]
      rcases hk : Dict.get? st.kwargs sMinimizer with _ | v
      · rw [hk] at hu
        cases hu
      · rw [hk] at hu
        cases v with
        | dict d => cases hu
        | other n => rfl
    rw [meth_bind_error this]
  · rw [meth_bind_ok (takeMinimizer_ok hu), meth_get, meth_liftE_error (checkKwargs_error hq _)]
    obtain ⟨it, hit, rfl⟩ := List.mem_map.1 h
    refine List.mem_map.2 ⟨it, List.mem_filter.2 ⟨hit, ?_⟩, rfl⟩
    have : ∀ q ∈ [sFunc, sX0, sNiter, sStepsize], q ≠ sMinimizer := by decide
    simpa using this _ hq

/-- C60.  Options that repeat an argument the routine passes itself (the function, the guess, the bounds; for basinhopping also
the number of iterations and the step size) are a `TypeError`, whatever the optimizer does: it is not called. -/
theorem C60_repeated_options (hc : fform.Reachable S) (hl : fform.getFreeSymbols S = .ok l) (hne : l ≠ [])
    (hs : CostSource fform fdat F D l chunk load st.disk) {g lo hi : Sym → ℝ} (hg : ∀ s ∈ l, Dict.get guess s = .ok (g s))
    (hb : BoundsAre boundsDict l lo hi) {q : Key} (hq : q ∈ Dict.keys st.kwargs) (niter method args : ℕ)
    (stepsize : ℝ) (save : Option Key) :
    ((q ∈ [sFun, sX0] ∨ (q = sBounds ∧ boundsDict.isSome)) → ∀ lsq : Optimizer LSCall,
      (leastSquaresFit S C lsq fform fdat guess boundsDict chunk save load st).1 = .error .typeError) ∧
    (q ∈ [sFunc, sX0, sNiter, sStepsize] → ∀ bh : Optimizer BHCall,
      (basinhoppingFit S C bh fform fdat guess niter method args stepsize chunk save load st).1 = .error .typeError ∧
      (basinhoppingFitWithBounds S C bh fform fdat guess boundsDict niter method args stepsize chunk save load st).1 =
        .error .typeError) := by
  obtain ⟨f, d, h1, _⟩ := fitCost_ok S C hc.good hl hs save
  refine ⟨fun hown lsq => ?_, fun hown bh => ⟨?_, ?_⟩⟩
  · unfold leastSquaresFit
    rw [meth_liftE_ok hl, if_neg hne, meth_bind_ok h1, meth_liftE_ok (inOrder_ok hg)]
    have hmem : q ∈ [sFun, sX0] ++ if boundsDict.isSome then [sBounds] else [] := by
      rcases hown with h | ⟨h, h'⟩
      · exact List.mem_append_left _ h
      · rw [h', h]
        simp
    cases boundsDict with
    | none =>
      simp only [Option.isSome_none, Bool.false_eq_true, if_false, List.append_nil, pure_bind] at hmem ⊢
      rw [meth_get, meth_liftE_error (checkKwargs_error hmem hq)]
    | some b =>
      simp only [Option.isSome_some, if_true, pure_bind] at hmem ⊢
      rw [meth_liftE_ok (inOrder_ok (g := fun s => (lo s, hi s)) (hb b rfl)), meth_get,
        meth_liftE_error (checkKwargs_error hmem hq)]
  · unfold basinhoppingFit
    rw [meth_liftE_ok hl, if_neg hne, meth_bind_ok h1, meth_liftE_ok (inOrder_ok hg)]
    exact runBasinhopping_error bh _ _ _ _ _ hown hq
  · unfold basinhoppingFitWithBounds
    rw [meth_liftE_ok hl, if_neg hne, meth_bind_ok h1, meth_liftE_ok (inOrder_ok hg), meth_liftE_ok (orderedBounds_ok hb)]
    exact runBasinhopping_error bh _ _ _ _ _ hown hq

/-- C60.  See `C60_repeated_options`. -/
theorem C60_repeated_options_jac (hc : fform.Reachable S) (hl : fform.getFreeSymbols S = .ok l) (hne : l ≠ [])
    (hs : GradSource fform fdat F D l chunk load gradLoad st.disk) {g lo hi : Sym → ℝ} (hg : ∀ s ∈ l, Dict.get guess s = .ok (g s))
    (hb : BoundsAre boundsDict l lo hi) {q : Key} (hq : q ∈ Dict.keys st.kwargs) (hown : q ∈ [sFunc, sX0, sNiter, sStepsize])
    (bh : Optimizer BHCall) (niter method args : ℕ) (stepsize : ℝ) (save gradSave : Option Key) :
    (basinhoppingFitJac S C bh fform fdat guess niter method args stepsize chunk save gradSave load gradLoad st).1 =
      .error .typeError ∧
    (basinhoppingFitJacWithBounds S C bh fform fdat guess boundsDict niter method args stepsize chunk save gradSave load gradLoad
      st).1 = .error .typeError := by
  obtain ⟨f, d, h1, _⟩ := fitCostGrad_ok S C hc.good hl hs save gradSave
  refine ⟨?_, ?_⟩
  · unfold basinhoppingFitJac
    rw [meth_liftE_ok hl, if_neg hne, meth_bind_ok h1, meth_liftE_ok (inOrder_ok hg)]
    exact runBasinhopping_error bh _ _ _ _ _ hown hq
  · unfold basinhoppingFitJacWithBounds
    rw [meth_liftE_ok hl, if_neg hne, meth_bind_ok h1, meth_liftE_ok (inOrder_ok hg), meth_liftE_ok (orderedBounds_ok hb)]
    exact runBasinhopping_error bh _ _ _ _ _ hown hq

/-- C60.  A bounds dictionary without an entry for some parameter is a `KeyError`, and the optimizer is not called. -/
theorem C60_missing_bounds (hc : fform.Reachable S) (hl : fform.getFreeSymbols S = .ok l)
    (hs : CostSource fform fdat F D l chunk load st.disk) {g : Sym → ℝ} (hg : ∀ s ∈ l, Dict.get guess s = .ok (g s))
    {b : Dict Sym (ℝ × ℝ)} {s : Sym} (hmem : s ∈ l) (hmiss : s ∉ Dict.keys b)
    (lsq : Optimizer LSCall) (bh : Optimizer BHCall) (da : Optimizer DACall) (niter method args options : ℕ) (stepsize : ℝ)
    (save : Option Key) :
    (leastSquaresFit S C lsq fform fdat guess (some b) chunk save load st).1 = .error .keyError ∧
    (dualAnnealingFit S C da fform fdat guess (some b) options chunk save load st).1 = .error .keyError ∧
    (basinhoppingFitWithBounds S C bh fform fdat guess (some b) niter method args stepsize chunk save load st).1 =
      .error .keyError := by
  obtain ⟨f, d, h1, _⟩ := fitCost_ok S C hc.good hl hs save
  have hne : l ≠ [] := List.ne_nil_of_mem hmem
  have h2 := inOrder_error hmem hmiss
  have h3 : orderedBounds l (some b) = .error .keyError := by
    show (inOrder l b >>= fun b => pure (OptVal.bounds b)) = _
    rw [h2]
    rfl
  refine ⟨?_, ?_, ?_⟩
  · unfold leastSquaresFit
    rw [meth_liftE_ok hl, if_neg hne, meth_bind_ok h1, meth_liftE_ok (inOrder_ok hg)]
    simp only
    rw [meth_liftE_error h2]
  · unfold dualAnnealingFit
    rw [meth_liftE_ok hl, if_neg hne, meth_bind_ok h1, meth_liftE_ok (inOrder_ok hg)]
    simp only
    rw [meth_liftE_error h2]
  · unfold basinhoppingFitWithBounds
    rw [meth_liftE_ok hl, if_neg hne, meth_bind_ok h1, meth_liftE_ok (inOrder_ok hg), meth_liftE_error h3]

/-- C60.  See `C60_missing_bounds`. -/
theorem C60_missing_bounds_jac (hc : fform.Reachable S) (hl : fform.getFreeSymbols S = .ok l)
    (hs : GradSource fform fdat F D l chunk load gradLoad st.disk) {g : Sym → ℝ} (hg : ∀ s ∈ l, Dict.get guess s = .ok (g s))
    {b : Dict Sym (ℝ × ℝ)} {s : Sym} (hmem : s ∈ l) (hmiss : s ∉ Dict.keys b)
    (bh : Optimizer BHCall) (niter method args : ℕ) (stepsize : ℝ) (save gradSave : Option Key) :
    (basinhoppingFitJacWithBounds S C bh fform fdat guess (some b) niter method args stepsize chunk save gradSave load gradLoad
      st).1 = .error .keyError := by
  obtain ⟨f, d, h1, _⟩ := fitCostGrad_ok S C hc.good hl hs save gradSave
  have hne : l ≠ [] := List.ne_nil_of_mem hmem
  have h3 : orderedBounds l (some b) = .error .keyError := by
    show (inOrder l b >>= fun b => pure (OptVal.bounds b)) = _
    rw [inOrder_error hmem hmiss]
    rfl
  unfold basinhoppingFitJacWithBounds
  rw [meth_liftE_ok hl, if_neg hne, meth_bind_ok h1, meth_liftE_ok (inOrder_ok hg), meth_liftE_error h3]

end

/-! ## C58: a negative number of terms -/

/-- C58.  With a negative number of terms per file a sum is split into no files at all. -/
theorem C58_negative_terms (l : List Expr) {n : ℤ} (hn : n < 0) : splitExpr (.add l) n = .ok [] := by
  show (split l n >>= fun chunks => pure (chunks.map Expr.add)) = _
  unfold split
  rw [if_neg (by omega), if_pos hn]
  rfl

end

/-! ## The hypotheses can be met -/

namespace FitCases

theorem guess_ok : ∀ s ∈ [symA, symB], Dict.get [(symB, (0 : ℝ)), (symA, 5)] s = .ok (if s = symA then 5 else 0) := by
  intro s hs
  simp only [List.mem_cons, List.not_mem_nil, or_false] at hs
  rcases hs with rfl | rfl
  · simp [Dict.get, Dict.get?, symA, symB]
  · simp [Dict.get, Dict.get?, symA, symB]

/-- A fit saves its cost function although the optimizer raises, and another file stays as it is. -/
example : ∃ f : CFunc, f [2, 1] = 0 ∧
    (leastSquaresFit Sympy.plain compiler (fun _ => .error .valueError) formula data [(symB, 0), (symA, 5)] none false
      (some ['c']) none ⟨⟨[(['d'], none)], [], []⟩, []⟩).1 = .error .valueError ∧
    Dict.get? (leastSquaresFit Sympy.plain compiler (fun _ => .error .valueError) formula data [(symB, 0), (symA, 5)] none false
      (some ['c']) none ⟨⟨[(['d'], none)], [], []⟩, []⟩).2.disk.files ['c'] = some (some f) ∧
    Dict.get? (leastSquaresFit Sympy.plain compiler (fun _ => .error .valueError) formula data [(symB, 0), (symA, 5)] none false
      (some ['c']) none ⟨⟨[(['d'], none)], [], []⟩, []⟩).2.disk.files ['d'] = some none := by
  obtain ⟨f, h1, h2, _⟩ := C75_fit_saves Sympy.plain compiler (fdat := data) (F := F) (D := D) (chunk := false)
    (st := ⟨⟨[(['d'], none)], [], []⟩, []⟩) (guess := [(symB, 0), (symA, 5)]) (boundsDict := none) formula_reachable free_symbols
    (by simp) rfl formulaIs dataIs (by simp) (fun _ => .error .valueError) (fun _ => .error .valueError) (fun _ => .error .valueError)
    0 0 0 0 0 ['c']
  refine ⟨f, ?_, ?_, h2, ?_⟩
  · have := h1 (fun s => if s = symA then 2 else 1)
    rw [misfit_eq] at this
    simpa [symA, symB] using this
  · obtain ⟨call, _, _, _, _, h5⟩ := C60_least_squares Sympy.plain compiler (fdat := data) (F := F) (D := D) (chunk := false)
      (load := none) (st := ⟨⟨[(['d'], none)], [], []⟩, []⟩) (guess := [(symB, 0), (symA, 5)]) (g := fun s => if s = symA then 5 else 0)
      (boundsDict := none) (lo := fun _ => 0) (hi := fun _ => 0) (fun _ => .error .valueError) formula_reachable free_symbols (by simp)
      (Or.inl ⟨rfl, rfl, formulaIs, dataIs, by simp⟩) (some ['c']) guess_ok
      (fun b hb => by cases hb) (fun q _ => by simp [Dict.keys])
    exact h5.2 _ rfl
  · have := (C75_fits Sympy.plain compiler (fdat := data) (chunk := false) (load := none) (gradLoad := none)
      (st := ⟨⟨[(['d'], none)], [], []⟩, []⟩) (guess := [(symB, 0), (symA, 5)]) (boundsDict := none) free_symbols
      (fun _ => .error .valueError) (fun _ => .error .valueError) (fun _ => .error .valueError) 0 0 0 0 0 (some ['c']) none).1.1 ['d']
      (by rintro ⟨_, h⟩; cases h)
    rw [this]
    rfl

/-- Repeating the guess in the options is an error. -/
example (opt : Optimizer LSCall) :
    (leastSquaresFit Sympy.plain compiler opt formula data [(symB, 0), (symA, 5)] none false none none
      ⟨noFiles, [(sX0, .other 1)]⟩).1 = .error .typeError :=
  (C60_repeated_options Sympy.plain compiler (fdat := data) (F := F) (D := D) (chunk := false) (load := none)
    (st := ⟨noFiles, [(sX0, .other 1)]⟩) (guess := [(symB, 0), (symA, 5)]) (boundsDict := none) (lo := fun _ => 0) (hi := fun _ => 0)
    formula_reachable free_symbols (by simp) (Or.inl ⟨rfl, rfl, formulaIs, dataIs, by simp⟩) guess_ok (fun b hb => by cases hb)
    (q := sX0) (by simp [Dict.keys]) 0 0 0 0 none).1 (Or.inl (by simp)) opt

/-- Bounds for one of two parameters are an error. -/
example (opt : Optimizer LSCall) :
    (leastSquaresFit Sympy.plain compiler opt formula data [(symB, 0), (symA, 5)] (some [(symA, (0, 1))]) false none none
      ⟨noFiles, []⟩).1 = .error .keyError :=
  (C60_missing_bounds Sympy.plain compiler (fdat := data) (F := F) (D := D) (chunk := false) (load := none)
    (st := ⟨noFiles, []⟩) (guess := [(symB, 0), (symA, 5)]) formula_reachable free_symbols
    (Or.inl ⟨rfl, rfl, formulaIs, dataIs, by simp⟩) guess_ok (s := symB) (by simp) (by simp [Dict.keys, symA, symB]) opt
    (fun _ => .error .valueError) (fun _ => .error .valueError) 0 0 0 0 0 none).1

end FitCases

end Shgpy
