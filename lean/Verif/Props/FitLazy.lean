import Verif.Model.FitLazy
import Verif.Spec.Process
import Verif.Props.FFormFit2

/-!
# Properties of loaded functions over the life of a process: C80
-/

set_option linter.unusedSectionVars false
set_option linter.unusedSimpArgs false
set_option linter.unusedVariables false

namespace Shgpy
open Spec
open DataContainer (Meth liftE)

/-! ## Lemmas -/

theorem Spec.Later.trans {d d' d'' : Disk} (h : Later d d') (h' : Later d' d'') : Later d d'' := by
  induction h' with
  | now => exact h
  | files fs _ ih => exact .files fs ih
  | folders fs _ ih => exact .folders fs ih
  | loads _ h2 ih => exact .loads ih h2

theorem Spec.Later.save (d : Disk) (f : CFunc) (save : Option Key) : Later d (d.save f save) := by
  cases save with
  | none => exact .now
  | some name => exact .files _ .now

/-- After a library has been loaded, it is remembered. -/
theorem dlopen_remembered {d d' : Disk} {path : Key} {c : Option Content} {f : CFunc} (h : d.dlopen path c = .ok (f, d')) :
    '/' ∈ path ∧ Dict.get? d'.loaded path = some f ∧
      ∀ p g, Dict.get? d.loaded p = some g → Dict.get? d'.loaded p = some g := by
  unfold Disk.dlopen at h
  split at h
  · cases h
  · rename_i hs
    refine ⟨by simpa using hs, ?_⟩
    split at h
    · rename_i g hg
      cases h
      exact ⟨hg, fun _ _ h => h⟩
    · rename_i hn
      split at h
      · cases h
        refine ⟨by simp [Dict.get?_set], fun p g hp => ?_⟩
        simp only [Dict.get?_set]
        rw [if_neg (fun e => by rw [e, hp] at hn; cases hn)]
        exact hp
      · cases h

theorem dlopen_again {d : Disk} {path : Key} {f : CFunc} (hs : '/' ∈ path) (h : Dict.get? d.loaded path = some f)
    (c : Option Content) : d.dlopen path c = .ok (f, d) := by
  unfold Disk.dlopen
  rw [if_neg (by simpa using hs), h]

theorem later_remembered {d d' : Disk} (h : Later d d') {p : Key} {g : CFunc} (hp : Dict.get? d.loaded p = some g) :
    Dict.get? d'.loaded p = some g := by
  induction h with
  | now => exact hp
  | files _ _ ih => exact ih
  | folders _ _ ih => exact ih
  | loads _ h2 ih => exact (dlopen_remembered h2).2.2 _ _ ih

theorem denergyFuncs_later (C : Compiler) (gradSave : Option Key) : ∀ (es : List Expr) (i : ℕ) (d : Disk),
    Later d (denergyFuncs C gradSave es i d).2
  | [], i, d => .now
  | e :: r, i, d => by
      have := denergyFuncs_later C gradSave r (i + 1) (d.save (C.run e) (gradSave.map (fun p => gradName p i)))
      exact (Later.save _ _ _).trans this

theorem loadGrads_later (pre : Key) : ∀ (fuel i : ℕ) (d : Disk) {fs : List CFunc} {d' : Disk},
    loadGrads pre fuel i d = .ok (fs, d') → Later d d'
  | 0, i, d, fs, d', h => by
      cases h
      exact .now
  | fuel + 1, i, d, fs, d', h => by
      unfold loadGrads at h
      split at h
      · cases h
        exact .now
      · obtain ⟨⟨f, d1⟩, h1, h2⟩ := bind_ok h
        obtain ⟨⟨gs, d2⟩, h3, h4⟩ := bind_ok h2
        cases h4
        exact (Later.loads .now h1).trans (loadGrads_later pre fuel (i + 1) d1 h3)

theorem foldlM_later {α ι : Type} {step : α × Disk → ι → Except Err (α × Disk)}
    (hstep : ∀ acc i acc', step acc i = .ok acc' → Later acc.2 acc'.2) : ∀ {is : List ι} {acc acc' : α × Disk},
    is.foldlM step acc = .ok acc' → Later acc.2 acc'.2
  | [], acc, acc', h => by
      cases h
      exact .now
  | i :: is, acc, acc', h => by
      rw [List.foldlM_cons] at h
      obtain ⟨a, h1, h2⟩ := bind_ok h
      exact (hstep _ _ _ h1).trans (foldlM_later hstep h2)

theorem loadPart_later {L : Listing} {folder : Key} {content : Dict Key Content} {key : Key × ℤ × Part} {d : Disk}
    {fs : List CFunc} {d' : Disk} (h : loadPart L folder content key d = .ok (fs, d')) : Later d d' := by
  unfold loadPart at h
  refine foldlM_later (acc := ([], d)) (acc' := (fs, d')) (fun acc i acc' hs => ?_) h
  obtain ⟨⟨f, d1⟩, h1, h2⟩ := bind_ok hs
  cases h2
  exact .loads .now h1

theorem loadFuncDict_later {L : Listing} {d : Disk} {fform : FFormContainer} {folder : Key} {fd : FuncDict} {d' : Disk}
    (h : loadFuncDict L d fform folder = .ok (fd, d')) : Later d d' := by
  unfold loadFuncDict at h
  refine foldlM_later (acc := ([], d)) (acc' := (fd, d')) (fun acc i acc' hs => ?_) h
  obtain ⟨⟨fs, d1⟩, h1, h2⟩ := bind_ok hs
  cases h2
  exact loadPart_later h1

/-! ## C80 -/

section
variable (S : Sympy) (C : Compiler)

/-- C80.  Every call of the library is one of the things that may happen in a process: it writes files, folders, and loads
libraries. -/
theorem C80_calls (L : Listing) (d : Disk) {fform : FFormContainer} {fdat : FDataContainer} :
    (∀ arguments chunk save f d', genCostFunc S C d fform fdat arguments chunk save = .ok (f, d') → Later d d') ∧
    (∀ l chunk save gradSave f d', energyAndDenergy S C d fform fdat l chunk save gradSave = .ok (f, d') → Later d d') ∧
    (∀ folder n f d', genModelFunc S C d fform folder n = .ok (f, d') → Later d d') ∧
    (∀ name f d', loadFunc d name = .ok (f, d') → Later d d') ∧
    (∀ name pre f d', loadEnergyAndDenergy d name pre = .ok (f, d') → Later d d') ∧
    (∀ folder f d', loadModelFunc L d fform folder = .ok (f, d') → Later d d') := by
  refine ⟨?_, ?_, ?_, ?_, ?_, ?_⟩
  · intro arguments chunk save f d' h
    unfold genCostFunc at h
    cases chunk with
    | true =>
      simp only [if_true] at h
      obtain ⟨es, h1, h2⟩ := bind_ok h
      cases es with
      | nil => cases h2
      | cons e r =>
        cases h2
        exact .save _ _ _
    | false =>
      simp only [Bool.false_eq_true, if_false] at h
      obtain ⟨e, h1, h2⟩ := bind_ok h
      cases h2
      exact .save _ _ _
  · intro l chunk save gradSave f d' h
    unfold energyAndDenergy at h
    cases chunk with
    | true => cases h
    | false =>
      simp only [Bool.false_eq_true, if_false] at h
      obtain ⟨e, h1, h⟩ := bind_ok h
      obtain ⟨de, h2, h⟩ := bind_ok h
      cases h
      exact (Later.save _ _ _).trans (denergyFuncs_later C gradSave de 0 _)
  · intro folder n f d' h
    unfold genModelFunc at h
    obtain ⟨⟨fd, content⟩, h1, h2⟩ := bind_ok h
    cases h2
    exact .folders _ .now
  · intro name f d' h
    exact .loads .now h
  · intro name pre f d' h
    unfold loadEnergyAndDenergy at h
    obtain ⟨⟨f1, d1⟩, h1, h⟩ := bind_ok h
    obtain ⟨⟨fs, d2⟩, h2, h⟩ := bind_ok h
    cases h
    exact (Later.loads .now h1).trans (loadGrads_later _ _ _ _ h2)
  · intro folder f d' h
    unfold loadModelFunc at h
    obtain ⟨⟨fd, d1⟩, h1, h⟩ := bind_ok h
    cases h
    exact loadFuncDict_later h1

end

/-- C80.  A function loaded once from a path stays the function of that path as long as the process runs, whatever happens to
the file; loading again, eagerly or at each call (`multiprocessing=True`), gives the same function. -/
theorem C80_stable {d d' d'' : Disk} {name : Key} {f : CFunc} (h : loadFunc d name = .ok (f, d')) (hlater : Later d' d'') :
    loadFunc d'' name = .ok (f, d'') ∧ ∀ x, lazyCall name d'' x = .ok (f x, d'') := by
  obtain ⟨h1, h2, _⟩ := dlopen_remembered h
  have h3 := later_remembered hlater h2
  refine ⟨dlopen_again h1 h3 _, fun x => ?_⟩
  unfold lazyCall
  rw [dlopen_again h1 h3]
  rfl

/-- C80.  A call of a function with `multiprocessing=True` is the same as loading now and calling the loaded function, and it
fails exactly when loading now fails. -/
theorem C80_lazy_call (name : Key) (d : Disk) (x : List ℝ) :
    (∀ v d', lazyCall name d x = .ok (v, d') ↔ ∃ f, loadFunc d name = .ok (f, d') ∧ v = f x) ∧
    ∀ e, lazyCall name d x = .error e ↔ loadFunc d name = .error e := by
  unfold lazyCall loadFunc
  cases h : d.dlopen name (Dict.get? d.files name) with
  | error e =>
    refine ⟨fun v d' => ⟨?_, ?_⟩, fun e' => ⟨?_, ?_⟩⟩
    · intro h
      cases h
    · rintro ⟨f, hf, _⟩
      cases hf
    · intro h
      cases h
      rfl
    · intro h
      cases h
      rfl
  | ok p =>
    obtain ⟨f, d1⟩ := p
    refine ⟨fun v d' => ⟨?_, ?_⟩, fun e' => ⟨?_, ?_⟩⟩
    · intro h
      cases h
      exact ⟨f, rfl, rfl⟩
    · rintro ⟨g, hg, rfl⟩
      cases hg
      rfl
    · intro h
      cases h
    · intro h
      cases h

/-- C80.  The first call decides: if the process has not loaded a library from this path, the call uses the file that is there
at the time of the call. -/
theorem C80_first_call {name : Key} {d : Disk} (hs : '/' ∈ name) (hfresh : name ∉ Dict.keys d.loaded) (x : List ℝ) :
    (∀ f, Dict.get? d.files name = some (some f) → ∃ d', lazyCall name d x = .ok (f x, d') ∧
      ∀ d'', Later d' d'' → ∀ y, lazyCall name d'' y = .ok (f y, d'')) ∧
    ((∀ f, Dict.get? d.files name ≠ some (some f)) → lazyCall name d x = .error .osError) := by
  have hn : Dict.get? d.loaded name = none := Dict.get?_eq_none.2 hfresh
  constructor
  · intro f hf
    have h1 : loadFunc d name = .ok (f, { d with loaded := Dict.set d.loaded name f }) := by
      unfold loadFunc Disk.dlopen
      rw [if_neg (by simpa using hs), hn, hf]
    refine ⟨_, ((C80_lazy_call name d x).1 _ _).2 ⟨f, h1, rfl⟩, fun d'' hl y => (C80_stable h1 hl).2 y⟩
  · intro hf
    rw [(C80_lazy_call name d x).2]
    unfold loadFunc Disk.dlopen
    rw [if_neg (by simpa using hs), hn]
    cases hc : Dict.get? d.files name with
    | none => rfl
    | some c =>
      cases c with
      | none => rfl
      | some f => exact absurd hc (hf f)

/-! ## Model functions -/

/-- The process has loaded these functions from these files of the folder. -/
def LoadedFrom (folder : Key) (d : Disk) (names : List Key) (fs : List CFunc) : Prop :=
  List.Forall₂ (fun name f => Dict.get? d.loaded (folder ++ '/' :: name) = some f) names fs

theorem LoadedFrom.later {folder : Key} {d d' : Disk} (h : Later d d') {names : List Key} {fs : List CFunc}
    (hl : LoadedFrom folder d names fs) : LoadedFrom folder d' names fs :=
  List.Forall₂.imp (fun _ _ h' => later_remembered h h') hl

theorem loadFold_loaded {folder : Key} : ∀ (ps : Dict Key Content) (acc fs : List CFunc) (d d' : Disk),
    ps.foldlM (fun (acc : List CFunc × Disk) (p : Key × Content) => do
      let (f, d) ← acc.2.dlopen (folder ++ '/' :: p.1) (some p.2)
      return (acc.1 ++ [f], d)) (acc, d) = Except.ok (fs, d') →
    ∃ gs, fs = acc ++ gs ∧ LoadedFrom folder d' (ps.map Prod.fst) gs ∧ Later d d'
  | [], acc, fs, d, d', h => by
      cases h
      exact ⟨[], by simp, .nil, .now⟩
  | p :: ps, acc, fs, d, d', h => by
      rw [List.foldlM_cons] at h
      obtain ⟨a, h1, h2⟩ := bind_ok h
      obtain ⟨⟨f, d1⟩, h3, h4⟩ := bind_ok h1
      cases h4
      obtain ⟨gs, h5, h6, h7⟩ := loadFold_loaded ps (acc ++ [f]) fs d1 d' h2
      refine ⟨f :: gs, by rw [h5]; simp, ?_, (Later.loads .now h3).trans h7⟩
      exact .cons (later_remembered h7 (dlopen_remembered h3).2.1) h6

theorem loadPart_loaded {L : Listing} {folder : Key} {content : Dict Key Content} {key : Key × ℤ × Part} {d d' : Disk}
    {fs : List CFunc} (h : loadPart L folder content key d = .ok (fs, d')) : LoadedFrom folder d' (lazyPart L content key) fs := by
  obtain ⟨gs, h1, h2, _⟩ := loadFold_loaded _ _ _ _ _ h
  rw [h1, List.nil_append]
  exact h2

/-- The two dictionaries have the same keys, and the functions of the one are loaded from the files of the other. -/
def SameModel (folder : Key) (d : Disk) (fd : FuncDict) (ld : Dict (Key × ℤ × Part) (List Key)) : Prop :=
  ∀ key, (Dict.get? fd key = none ∧ Dict.get? ld key = none) ∨
    ∃ fs names, Dict.get? fd key = some fs ∧ Dict.get? ld key = some names ∧ LoadedFrom folder d names fs

theorem SameModel.later {folder : Key} {d d' : Disk} (h : Later d d') {fd : FuncDict} {ld : Dict (Key × ℤ × Part) (List Key)}
    (hs : SameModel folder d fd ld) : SameModel folder d' fd ld := by
  intro key
  rcases hs key with h1 | ⟨fs, names, h1, h2, h3⟩
  · exact Or.inl h1
  · exact Or.inr ⟨fs, names, h1, h2, h3.later h⟩

theorem sameModel_fold {L : Listing} {folder : Key} {content : Dict Key Content} : ∀ (keys : List (Key × ℤ × Part))
    (fd fd' : FuncDict) (ld : Dict (Key × ℤ × Part) (List Key)) (d d' : Disk), SameModel folder d fd ld →
    keys.foldlM (fun (acc : FuncDict × Disk) key => do
      let (fs, d) ← loadPart L folder content key acc.2
      return (Dict.set acc.1 key fs, d)) (fd, d) = Except.ok (fd', d') →
    SameModel folder d' fd' (keys.foldl (fun acc key => Dict.set acc key (lazyPart L content key)) ld)
  | [], fd, fd', ld, d, d', hs, h => by
      cases h
      exact hs
  | key :: keys, fd, fd', ld, d, d', hs, h => by
      rw [List.foldlM_cons] at h
      obtain ⟨a, h1, h2⟩ := bind_ok h
      obtain ⟨⟨fs, d1⟩, h3, h4⟩ := bind_ok h1
      cases h4
      rw [List.foldl_cons]
      refine sameModel_fold keys _ _ _ _ _ ?_ h2
      intro key'
      simp only [Dict.get?_set]
      by_cases hk : key = key'
      · rw [if_pos hk, if_pos hk]
        exact Or.inr ⟨fs, _, rfl, rfl, loadPart_loaded h3⟩
      · rw [if_neg hk, if_neg hk]
        exact hs.later (loadPart_later h3) key'

theorem lazyValues_loaded {folder : Key} (x : List ℝ) {d : Disk} {names : List Key} {fs : List CFunc}
    (h : LoadedFrom folder d names fs) : lazyValues folder names x d = .ok (fs.map (fun f => f x), d) := by
  have gen : ∀ (names : List Key) (fs : List CFunc) (acc : List ℝ), LoadedFrom folder d names fs →
      names.foldlM (fun (acc : List ℝ × Disk) name => do
        let (f, d) ← acc.2.dlopen (folder ++ '/' :: name) (Dict.get? ((Dict.get? acc.2.folders folder).getD []) name)
        return (acc.1 ++ [f x], d)) (acc, d) = Except.ok (acc ++ fs.map (fun f => f x), d) := by
    intro names
    induction names with
    | nil =>
      intro fs acc h
      cases h
      simp
      rfl
    | cons name names ih =>
      intro fs acc h
      cases h with
      | cons h1 h2 =>
        rw [List.foldlM_cons]
        simp only
        rw [dlopen_again (by simp) h1, ok_bind]
        refine (ih _ _ h2).trans ?_
        simp
  have := gen names fs [] h
  rw [List.nil_append] at this
  exact this

/-- C80.  A model function loaded with `multiprocessing=True` has the same values and exceptions as the one that was loaded
without it, at every later time of the process, whatever has happened to the folder. -/
theorem C80_model {L : Listing} {d d' d'' : Disk} {fform : FFormContainer} {folder : Key} {g : List ℝ → Key → ℤ → Except Err ℂ}
    (h : loadModelFunc L d fform folder = .ok (g, d')) (hlater : Later d' d'') (x : List ℝ) (k : Key) (m : ℤ) :
    (∀ v, g x k m = .ok v → lazyModelCall (lazyDict L d fform folder) folder d'' x k m = .ok (v, d'')) ∧
    ∀ e, g x k m = .error e → lazyModelCall (lazyDict L d fform folder) folder d'' x k m = .error e := by
  unfold loadModelFunc at h
  obtain ⟨⟨fd, d1⟩, h1, h2⟩ := bind_ok h
  cases h2
  have hs : SameModel folder d'' fd (lazyDict L d fform folder) :=
    (sameModel_fold (funcKeys fform) [] fd [] d d' (fun _ => Or.inl ⟨rfl, rfl⟩) h1).later hlater
  have hget : ∀ key, (∃ fs names, Dict.get fd key = .ok fs ∧ Dict.get (lazyDict L d fform folder) key = .ok names ∧
      LoadedFrom folder d'' names fs) ∨ (Dict.get fd key = .error .keyError ∧ Dict.get (lazyDict L d fform folder) key = .error .keyError) := by
    intro key
    rcases hs key with ⟨h3, h4⟩ | ⟨fs, names, h3, h4, h5⟩
    · right
      unfold Dict.get
      rw [h3, h4]
      exact ⟨rfl, rfl⟩
    · left
      refine ⟨fs, names, ?_, ?_, h5⟩
      · unfold Dict.get
        rw [h3]
      · unfold Dict.get
        rw [h4]
  have key : lazyModelCall (lazyDict L d fform folder) folder d'' x k m = (modelFunc fd x k m).map (fun v => (v, d'')) := by
    unfold lazyModelCall modelFunc
    rcases hget (k, m, .real) with ⟨fs, names, h3, h4, h5⟩ | ⟨h3, h4⟩
    · rw [h3, h4, ok_bind, ok_bind, lazyValues_loaded x h5, ok_bind]
      rcases hget (k, m, .imag) with ⟨fs', names', h3', h4', h5'⟩ | ⟨h3', h4'⟩
      · simp only
        rw [h3', h4', ok_bind, ok_bind, lazyValues_loaded x h5', ok_bind]
        simp only [pure, Except.pure, Except.map, List.map_map]
        rfl
      · simp only
        rw [h3', h4']
        rfl
    · rw [h3, h4]
      rfl
  rw [key]
  constructor
  · intro v hv
    rw [hv]
    rfl
  · intro e he
    rw [he]
    rfl

/-! ## The hypotheses can be met -/

namespace FitCases

/-- A cost function is loaded; the file is replaced by another one and then removed; the loaded library stays. -/
example (f g : CFunc) (x : List ℝ) : ∃ d', loadFunc ⟨[(['.', '/', 'c'], some f)], [], []⟩ ['.', '/', 'c'] = .ok (f, d') ∧
    lazyCall ['.', '/', 'c'] { d' with files := [(['.', '/', 'c'], some g)] } x =
      .ok (f x, { d' with files := [(['.', '/', 'c'], some g)] }) := by
  have h : loadFunc ⟨[(['.', '/', 'c'], some f)], [], []⟩ ['.', '/', 'c'] = .ok (f, ⟨[(['.', '/', 'c'], some f)], [], [(['.', '/', 'c'], f)]⟩) := rfl
  exact ⟨_, h, (C80_stable h (.files _ .now)).2 x⟩

/-- A function with `multiprocessing=True` can be made before its file exists. -/
example (f : CFunc) (x : List ℝ) : lazyCall ['.', '/', 'c'] noFiles x = .error .osError ∧
    ∃ d', lazyCall ['.', '/', 'c'] { noFiles with files := [(['.', '/', 'c'], some f)] } x = .ok (f x, d') := by
  refine ⟨(C80_first_call (by decide) (by simp [noFiles, Dict.keys]) x).2 (by simp [noFiles, Dict.get?]), ?_⟩
  obtain ⟨d', h, _⟩ := (C80_first_call (name := ['.', '/', 'c']) (d := { noFiles with files := [(['.', '/', 'c'], some f)] }) (by decide)
    (by simp [noFiles, Dict.keys]) x).1 f rfl
  exact ⟨d', h⟩

/-- A model function loaded with `multiprocessing=True` survives the removal of its folder once the other one was loaded. -/
example (L : Listing) : ∃ d' d'' : Disk, loadModelFunc L d' formula ['m'] ≠ .error .osError ∧
    (∀ r : Sym → ℝ, lazyModelCall (lazyDict L d' formula ['m']) ['m'] { d'' with folders := [] } [r symA, r symB] kPP 1 =
      .ok ((r symB : ℂ), { d'' with folders := [] })) := by
  obtain ⟨f, d', g, d'', h1, h2, h3, _⟩ := C58_loaded_model_partial Sympy.plain compiler L noFiles formula_reachable real_symbols
    plain_kPP free_symbols formulaIs ['m'] (fun _ => by simp [noFiles, Dict.keys]) (n := 10) (by norm_num)
  refine ⟨d', d'', by rw [h2]; simp, fun r => ?_⟩
  have h4 := h3 kPP (by simp [formula, FFormContainer.getKeys, Dict.keys]) 1 (by decide) (by decide) r []
  exact (C80_model h2 (.folders _ .now) [r symA, r symB] kPP 1).1 _ (by simpa [F, realVal] using h4)

end FitCases

end Shgpy
