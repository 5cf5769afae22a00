import Verif.Proofs.ModelParallel
import Verif.Props.FFormFitCases

/-!
# Model functions generated in several processes at the same time (C128, C129)
-/

set_option linter.unusedSectionVars false
set_option linter.unusedSimpArgs false

namespace Shgpy
open Spec

/-! ## Different folders -/

/-- C128.  Processes generate model functions in different folders, which are not files.  Whatever the order of their steps, none of
them fails.  The folder of each process is not there, is a part of what it was before, or has in it some of the libraries of this process,
of which one may be incomplete.  Nothing else is changed. -/
theorem C128_separate (L : Listing) {fs : Key → Option Node} {calls : List (Key × List (Key × CFunc))}
    (hne : (calls.map Prod.fst).Nodup) (hfile : ∀ call ∈ calls, ∀ c, fs call.1 ≠ some (.file c)) (schedule : List ℕ) :
    (∀ (i : ℕ) call, calls[i]? = some call →
      (∃ p, (runM L (fs, calls.map (fun c => MProc.start c.1 c.2)) schedule).2[i]? = some p ∧ p.failed = false) ∧
      FolderProgress (fs call.1) ((runM L (fs, calls.map (fun c => MProc.start c.1 c.2)) schedule).1 call.1) call.2) ∧
    ∀ path, path ∉ calls.map Prod.fst →
      (runM L (fs, calls.map (fun c => MProc.start c.1 c.2)) schedule).1 path = fs path := by
  have h := runM_ok L hne hfile schedule
  refine ⟨fun i call hi => ?_, h.others⟩
  obtain ⟨p, h1, _, h2, _⟩ := h.procs i call hi
  refine ⟨⟨p, h1, h2.failed⟩, ?_⟩
  rcases h2.progress with ⟨h3, h4⟩ | h3
  · rw [h3]
    cases hn : fs call.1 with
    | none => exact Or.inl rfl
    | some n =>
        cases n with
        | file c => exact absurd hn (h4 c)
        | dir c => exact Or.inr (Or.inl ⟨c, c, rfl, rfl, fun _ _ h => h⟩)
  · exact h3

/-- C128.  A process that has made enough steps is through, and its folder has exactly its libraries in it, whatever the others do and
whatever was in the folder before. -/
theorem C128_finished (L : Listing) {fs : Key → Option Node} {calls : List (Key × List (Key × CFunc))}
    (hne : (calls.map Prod.fst).Nodup) (hfile : ∀ call ∈ calls, ∀ c, fs call.1 ≠ some (.file c)) {schedule : List ℕ} {i : ℕ}
    {folder : Key} {libs : List (Key × CFunc)} (hi : calls[i]? = some (folder, libs))
    (hn : folderSteps (fs folder) libs ≤ schedule.count i) :
    (∃ p, (runM L (fs, calls.map (fun c => MProc.start c.1 c.2)) schedule).2[i]? = some p ∧ p.failed = false ∧ p.stage = .copy []) ∧
      (runM L (fs, calls.map (fun c => MProc.start c.1 c.2)) schedule).1 folder = some (libFolder libs) := by
  have h := runM_ok L hne hfile schedule
  obtain ⟨p, h1, _, h2, h3⟩ := h.procs i _ hi
  dsimp only at h2 h3
  have h0 : mLeft ((runM L (fs, calls.map (fun c => MProc.start c.1 c.2)) schedule).1 folder) libs p.stage = 0 := by omega
  obtain ⟨h4, h5⟩ := h2.finished h0
  exact ⟨⟨p, h1, h2.failed, h4⟩, h5⟩

/-! ## The calls -/

section
variable (S : Sympy) (C : Compiler)

/-- C128.  The libraries that a call of `gen_model_func` copies are the content of the folder that it leaves. -/
theorem C128_libraries (L : Listing) {d d' : Disk} {fform : FFormContainer} {folder : Key} {n : ℤ}
    {f : List ℝ → Key → ℤ → Except Err ℂ} (h : genModelFunc S C d fform folder n = .ok (f, d')) :
    (Dict.get? d'.folders folder).map Node.dir = some (libFolder (modelTrace S C L d fform folder n).libs) := by
  unfold genModelFunc fixedAutowrapModel at h
  cases hl : (funcKeys fform).mapM (fun key => do
      let fs ← modelFuncs S C fform none n key
      return (key, fs)) with
  | error e => rw [hl] at h; cases h
  | ok l =>
      rw [hl] at h
      cases h
      obtain ⟨_, h2⟩ := modelLoop_ok S C (folder := folder) _ hl
      have hlib : (modelTrace S C L d fform folder n).libs = l.flatMap Prod.snd := by
        unfold Trace.libs modelTrace
        dsimp only
        rw [h2, List.filterMap_append, libs_rmtree, libs_copySteps, List.nil_append]
      rw [hlib]
      show (Dict.get? (Dict.set d.folders folder _) folder).map Node.dir = _
      rw [Dict.get?_set, if_pos rfl]
      rfl

/-- C128.  Calls of `gen_model_func` at the same time, in as many processes, each with a folder of its own: when process `i` has made
enough steps, its folder is what the call leaves when no other process is there. -/
theorem C128_calls (L : Listing) {fs : Key → Option Node} {n : ℕ} {d d' : ℕ → Disk} {fform : ℕ → FFormContainer} {folder : ℕ → Key}
    {per : ℕ → ℤ} {f : ℕ → List ℝ → Key → ℤ → Except Err ℂ}
    (hok : ∀ i < n, genModelFunc S C (d i) (fform i) (folder i) (per i) = .ok (f i, d' i))
    (hne : ∀ i < n, ∀ j < n, folder i = folder j → i = j) (hfile : ∀ i < n, ∀ c, fs (folder i) ≠ some (.file c))
    {schedule : List ℕ} {i : ℕ} (hi : i < n)
    (hfin : folderSteps (fs (folder i)) (modelTrace S C L (d i) (fform i) (folder i) (per i)).libs ≤ schedule.count i) :
    (runM L (fs, (modelCalls S C L n d fform folder per).map (fun c => MProc.start c.1 c.2)) schedule).1 (folder i) =
      (Dict.get? (d' i).folders (folder i)).map Node.dir := by
  rw [C128_libraries S C L (hok i hi)]
  refine (C128_finished L ?_ ?_ (i := i) ?_ hfin).2
  · unfold modelCalls
    rw [List.map_map]
    exact List.Nodup.map_on (fun a ha b hb e => hne a (List.mem_range.1 ha) b (List.mem_range.1 hb) e) List.nodup_range
  · intro call hcall
    obtain ⟨j, hj, rfl⟩ := List.mem_map.1 hcall
    exact hfile j (List.mem_range.1 hj)
  · simp [modelCalls, hi]

/-- C128.  A later process that finds this folder, and has not loaded a library from it, loads the model function of process `i`: its
values are those of the formula of this process. -/
theorem C128_loaded (L L' : Listing) {fs : Key → Option Node} {n : ℕ} {d : ℕ → Disk} {fform : ℕ → FFormContainer}
    {folder : ℕ → Key} {per : ℕ → ℤ} (hok : ∀ i < n, ∃ r, genModelFunc S C (d i) (fform i) (folder i) (per i) = .ok r)
    (hne : ∀ i < n, ∀ j < n, folder i = folder j → i = j) (hfile : ∀ i < n, ∀ c, fs (folder i) ≠ some (.file c))
    {schedule : List ℕ} {i : ℕ} (hi : i < n)
    (hfin : folderSteps (fs (folder i)) (modelTrace S C L (d i) (fform i) (folder i) (per i)).libs ≤ schedule.count i)
    (hc : (fform i).Reachable S) (hreal : RealSymbols (fform i)) (hplain : ∀ k ∈ (fform i).getKeys, PlainName k) {l : List Sym}
    (hl : (fform i).getFreeSymbols S = .ok l) {F : Key → ℤ → Valuation → ℂ} (hF : FormulaIs (fform i) F) (hper : 0 < per i)
    {later : Disk} (hlater : (Dict.get? later.folders (folder i)).map Node.dir =
      (runM L (fs, (modelCalls S C L n d fform folder per).map (fun c => MProc.start c.1 c.2)) schedule).1 (folder i))
    (hfresh : ∀ name, folder i ++ '/' :: name ∉ Dict.keys later.loaded) :
    ∃ g d'', loadModelFunc L' later (fform i) (folder i) = .ok (g, d'') ∧
      ∀ k ∈ (fform i).getKeys, ∀ m : ℤ, -((fform i).getM : ℤ) ≤ m → m ≤ (fform i).getM → ∀ (r : Sym → ℝ) (extra : List ℝ),
        g (l.map r ++ extra) k m = .ok (F k m (realVal r)) := by
  obtain ⟨f₁, d₁, g, d'', h1, h2, h3, _⟩ := C58_loaded_model_partial S C L' later hc hreal hplain hl hF (folder i) hfresh hper
  have hok' : ∀ i < n, genModelFunc S C (d i) (fform i) (folder i) (per i) =
      .ok ((if h : i < n then (hok i h).choose else (f₁, d₁)).1, (if h : i < n then (hok i h).choose else (f₁, d₁)).2) := by
    intro j hj
    rw [dif_pos hj]
    exact (hok j hj).choose_spec
  rw [C128_calls S C L hok' hne hfile hi hfin] at hlater
  -- the folder that the call writes does not depend on the disk
  have hsame : Dict.get? later.folders (folder i) = Dict.get? d₁.folders (folder i) := by
    have h4 := C128_libraries S C L h1
    have h5 := C128_libraries S C L (hok' i hi)
    have h6 : (modelTrace S C L later (fform i) (folder i) (per i)).libs =
        (modelTrace S C L (d i) (fform i) (folder i) (per i)).libs := by
      unfold Trace.libs modelTrace
      dsimp only
      rw [List.filterMap_append (l := _ ++ _), libs_rmtree, List.filterMap_append (l := _ ++ _), libs_rmtree]
    rw [h6] at h4
    rw [h5, ← h4] at hlater
    cases ha : Dict.get? later.folders (folder i) <;> cases hb : Dict.get? d₁.folders (folder i) <;> rw [ha, hb] at hlater <;>
      simp at hlater ⊢
    exact hlater
  have hd : d₁ = later := by
    unfold genModelFunc at h1
    obtain ⟨⟨fd, content⟩, _, h8⟩ := bind_ok h1
    cases h8
    have h9 : Dict.get? later.folders (folder i) = some content := by
      rw [hsame]
      show Dict.get? (Dict.set later.folders (folder i) content) (folder i) = _
      rw [Dict.get?_set, if_pos rfl]
    rw [Dict.set_self _ h9]
  rw [hd] at h2
  exact ⟨g, d'', h2, h3⟩

end

/-! ## C129: the same folder -/

/-- C129, what holds.  Two processes generate model functions in the same folder, the second after the first is through: neither fails,
and the folder has exactly the libraries of the second one in it. -/
theorem C129_in_turn_partial (L : Listing) (fs : Key → Option Node) (folder : Key) (hfile : ∀ c, fs folder ≠ some (.file c))
    (libs₀ libs₁ : List (Key × CFunc)) {m n : ℕ} (hm : folderSteps (fs folder) libs₀ ≤ m)
    (hn : folderSteps (some (libFolder libs₀)) libs₁ ≤ n) :
    ∃ p₀ p₁, runM L (fs, [MProc.start folder libs₀, MProc.start folder libs₁]) (List.replicate m 0 ++ List.replicate n 1) =
        (Function.update fs folder (some (libFolder libs₁)), [p₀, p₁]) ∧
      p₀.failed = false ∧ p₀.stage = .copy [] ∧ p₁.failed = false ∧ p₁.stage = .copy [] := by
  obtain ⟨p₀, h1, h2, h3⟩ := runM_alone L hm (s := (fs, [MProc.start folder libs₀, MProc.start folder libs₁])) (i := 0) rfl hfile
  obtain ⟨p₁, h4, h5, h6⟩ := runM_alone L (n := n) (s := (Function.update fs folder (some (libFolder libs₀)), [p₀, MProc.start folder libs₁]))
    (i := 1) (folder := folder) (libs := libs₁) (by simpa using hn) rfl (by simp [libFolder])
  refine ⟨p₀, p₁, ?_, h2, h3, h5, h6⟩
  rw [runM_append, h1]
  simp only [List.set_cons_zero]
  rw [h4]
  simp only [Function.update_idem, List.set_cons_succ, List.set_cons_zero]

/-- C129.  two processes that both find no folder both make it, and the second one
fails with `FileExistsError`. -/
theorem C129_same_folder_broken (L : Listing) (fs : Key → Option Node) (folder : Key) (hno : fs folder = none)
    (libs₀ libs₁ : List (Key × CFunc)) :
    ∃ p, (runM L (fs, [MProc.start folder libs₀, MProc.start folder libs₁]) [0, 1, 0, 1]).2[1]? = some p ∧ p.failed = true := by
  refine ⟨⟨folder, libs₁, .mkdir, true⟩, ?_, rfl⟩
  simp [runM, stepM, MProc.step, MProc.start, listFolder, hno]

/-- C129.  both can finish without an exception and leave a folder with the first library
of one process and the other libraries of the other. -/
theorem C129_mixture_broken (L : Listing) (fs : Key → Option Node) (folder : Key) (hno : fs folder = none) {k : Key} {f g : CFunc}
    {r₀ r₁ : List (Key × CFunc)} (hk₀ : k ∉ r₀.map Prod.fst) (hk₁ : k ∉ r₁.map Prod.fst) (hnd : (r₁.map Prod.fst).Nodup)
    (hnames : r₀.map Prod.fst = r₁.map Prod.fst) :
    ∃ schedule p₀ p₁ c,
      runM L (fs, [MProc.start folder ((k, f) :: r₀), MProc.start folder ((k, g) :: r₁)]) schedule =
        (Function.update fs folder (some (.dir c)), [p₀, p₁]) ∧
      p₀.failed = false ∧ p₀.stage = .copy [] ∧ p₁.failed = false ∧ p₁.stage = .copy [] ∧
      c = ((k, f) :: r₁).map (fun p => (p.1, some p.2)) := by
  have hord : L.order [] = [] := List.Perm.eq_nil (L.perm [])
  have h8 : runM L (fs, [MProc.start folder ((k, f) :: r₀), MProc.start folder ((k, g) :: r₁)]) [0, 0, 1, 1, 1, 1, 1, 1] =
      (Function.update fs folder (some (.dir [(k, some g)])),
        [⟨folder, (k, f) :: r₀, .copy (copyWrites ((k, f) :: r₀)), false⟩, ⟨folder, (k, g) :: r₁, .copy (copyWrites r₁), false⟩]) := by
    simp [runM, stepM, MProc.step, MProc.start, listFolder, removeFolder, putLib, hno, hord, copyWrites, Dict.set, Dict.keys]
  refine ⟨[0, 0, 1, 1, 1, 1, 1, 1] ++ List.replicate (2 * ((k, f) :: r₀).length) 0 ++ List.replicate (2 * r₁.length) 1,
    ⟨folder, (k, f) :: r₀, .copy [], false⟩, ⟨folder, (k, g) :: r₁, .copy [], false⟩, _, ?_, rfl, rfl, rfl, rfl, rfl⟩
  rw [runM_append, runM_append, h8,
    runM_copy L ((k, f) :: r₀) _ 0 folder ((k, f) :: r₀) [(k, some g)] rfl (by simp),
    runM_copy L r₁ _ 1 folder ((k, g) :: r₁)
      ((((k, f) :: r₀).map (fun p => (p.1, some p.2))).foldl (fun d p => Dict.set d p.1 p.2) [(k, some g)]) rfl (by simp)]
  simp only [Function.update_idem, List.set_cons_zero, List.set_cons_succ]
  congr 3
  have hnd₀ : (((r₀.map (fun p => (p.1, some p.2))).map Prod.fst : List Key)).Nodup := by
    rw [List.map_map]; exact hnames ▸ hnd
  have h9 : ((((k, f) :: r₀).map (fun p => (p.1, some p.2))).foldl (fun (d : Dict Key Content) p => Dict.set d p.1 p.2) [(k, some g)]) =
      [(k, some f)] ++ r₀.map (fun p => (p.1, some p.2)) := by
    rw [List.map_cons, List.foldl_cons]
    have : Dict.set [(k, some g)] k (some f) = [(k, some f)] := by simp [Dict.set]
    rw [this, Dict.foldl_set_of_nodup]
    simp only [Dict.keys, List.map_cons, List.map_nil, List.singleton_append, List.nodup_cons]
    exact ⟨by rw [List.map_map]; exact hk₀, hnd₀⟩
  rw [h9, foldl_overwrite]
  · rfl
  · rw [List.map_map, List.map_map]; exact hnames
  · rw [List.map_map]
    simp only [Dict.keys, List.map_cons, List.map_nil, List.singleton_append, List.nodup_cons]
    exact ⟨hk₁, hnd⟩

namespace FitCases

/-- A formula with the combinations `a` and `b`, whose values are `p` and `q`. -/
def twoValues (p q : ℚ) : FFormContainer := ⟨[(['a'], .obj [.num p]), (['b'], .obj [.num q])], 0⟩

/-- The libraries of this formula. -/
noncomputable def twoLibs (p q : ℚ) : List (Key × CFunc) :=
  [(chunkName ['a'] 0 .real 0, const p .real), (chunkName ['a'] 0 .imag 0, const p .imag),
   (chunkName ['b'] 0 .real 0, const q .real), (chunkName ['b'] 0 .imag 0, const q .imag)]

theorem twoValues_reachable (p q : ℚ) : (twoValues p q).Reachable Sympy.plain :=
  ⟨[(.str ['a'], .objArr [.sy (.num p)]), (.str ['b'], .objArr [.sy (.num q)])], 0, twoValues p q, [], rfl, rfl⟩

theorem twoValues_keys (p q : ℚ) : funcKeys (twoValues p q) =
    [(['a'], 0, .real), (['a'], 0, .imag), (['b'], 0, .real), (['b'], 0, .imag)] := rfl

theorem twoValues_free (p q : ℚ) : (twoValues p q).getFreeSymbols Sympy.plain = .ok [] := by
  show Except.ok (Sympy.plain.sortSyms []) = _
  congr 1
  show (List.dedup []).mergeSort _ = _
  simp

theorem twoValues_funcs (p q : ℚ) : (funcKeys (twoValues p q)).mapM (fun key => do
      let fs ← modelFuncs Sympy.plain compiler (twoValues p q) none 10 key
      return (key, fs)) =
    .ok [((['a'], 0, .real), [(chunkName ['a'] 0 .real 0, const p .real)]), ((['a'], 0, .imag), [(chunkName ['a'] 0 .imag 0, const p .imag)]),
      ((['b'], 0, .real), [(chunkName ['b'] 0 .real 0, const q .real)]), ((['b'], 0, .imag), [(chunkName ['b'] 0 .imag 0, const q .imag)])] := by
  have h1 : ∀ t, modelFuncs Sympy.plain compiler (twoValues p q) none 10 (['a'], 0, t) = .ok [(chunkName ['a'] 0 t 0, const p t)] := by
    intro t
    unfold modelFuncs modelExpr argumentSymbols
    rw [twoValues_free]
    cases t <;> rfl
  have h2 : ∀ t, modelFuncs Sympy.plain compiler (twoValues p q) none 10 (['b'], 0, t) = .ok [(chunkName ['b'] 0 t 0, const q t)] := by
    intro t
    unfold modelFuncs modelExpr argumentSymbols
    rw [twoValues_free]
    cases t <;> rfl
  rw [twoValues_keys]
  simp only [List.mapM_cons, List.mapM_nil, h1, h2, ok_bind, bind_pure_comp]
  rfl

theorem twoValues_model (d : Disk) (p q : ℚ) (folder : Key) :
    ∃ r, genModelFunc Sympy.plain compiler d (twoValues p q) folder 10 = .ok r := by
  unfold genModelFunc fixedAutowrapModel
  rw [twoValues_funcs]
  exact ⟨_, rfl⟩

theorem twoValues_libs (L : Listing) (d : Disk) (p q : ℚ) (folder : Key) :
    (modelTrace Sympy.plain compiler L d (twoValues p q) folder 10).libs = twoLibs p q := by
  obtain ⟨_, h2⟩ := modelLoop_ok Sympy.plain compiler (folder := folder) _ (twoValues_funcs p q)
  unfold Trace.libs modelTrace
  dsimp only
  rw [h2, List.filterMap_append, libs_rmtree, libs_copySteps]
  rfl

theorem twoLibs_names (p q : ℚ) : (twoLibs p q).map Prod.fst =
    [chunkName ['a'] 0 .real 0, chunkName ['a'] 0 .imag 0, chunkName ['b'] 0 .real 0, chunkName ['b'] 0 .imag 0] := rfl

theorem twoNames_nodup :
    [chunkName ['a'] 0 .real 0, chunkName ['a'] 0 .imag 0, chunkName ['b'] 0 .real 0, chunkName ['b'] 0 .imag 0].Nodup := by
  decide +kernel

theorem const_value (q : ℚ) (t : Part) (x : List ℝ) : const q t x = t.value (q : ℂ) := by
  cases t
  · simp [const, compiler, Part.of, Sympy.plain, Expr.xreplace, Expr.xreplaceL, Expr.conj, Expr.eval, Expr.evalProd, Expr.evalSum,
      Part.value]
    ring
  · simp [const, compiler, Part.of, Sympy.plain, Expr.xreplace, Expr.xreplaceL, Expr.conj, Expr.eval, Expr.evalProd, Expr.evalSum,
      Part.value]

/-- The values of the mixed function. -/
noncomputable def mixedValues (p q' : ℚ) : Key → ℤ → Valuation → ℂ := fun k _ _ => if k = ['a'] then (p : ℂ) else (q' : ℂ)

/-- The libraries in the mixed folder. -/
noncomputable def mixedLibs (p p' q' : ℚ) : Key × ℤ × Part → List CFunc := fun key =>
  if key.1 = ['a'] then (match key.2.2 with
    | .real => [const p .real]
    | .imag => [const p' .imag])
  else [const q' key.2.2]

/-- C129.  two processes generate model functions for formulas with the values `(p, q)`
and `(p', q')`; both calls return; and the function that a later process loads from the folder has the values `p` and `q'`, which
are those of neither. -/
theorem C129_mixture_loaded_broken (L : Listing) (fs : Key → Option Node) (folder : Key) (hno : fs folder = none) (d : Disk)
    (p q p' q' : ℚ) :
    ∃ schedule p₀ p₁ c,
      (∃ r, genModelFunc Sympy.plain compiler d (twoValues p q) folder 10 = .ok r) ∧
      (∃ r, genModelFunc Sympy.plain compiler d (twoValues p' q') folder 10 = .ok r) ∧
      runM L (fs, [MProc.start folder (modelTrace Sympy.plain compiler L d (twoValues p q) folder 10).libs,
          MProc.start folder (modelTrace Sympy.plain compiler L d (twoValues p' q') folder 10).libs]) schedule =
        (Function.update fs folder (some (.dir c)), [p₀, p₁]) ∧
      p₀.failed = false ∧ p₀.stage = .copy [] ∧ p₁.failed = false ∧ p₁.stage = .copy [] ∧
      ∀ later : Disk, Dict.get? later.folders folder = some c → later.loaded = [] →
        ∃ g d'', loadModelFunc L later (twoValues p q) folder = .ok (g, d'') ∧
          g [] ['a'] 0 = .ok (p : ℂ) ∧ g [] ['b'] 0 = .ok (q' : ℂ) := by
  have hnd := twoNames_nodup
  rw [← twoLibs_names p' q'] at hnd
  have hnd' := twoNames_nodup
  rw [← twoLibs_names p q] at hnd'
  rw [twoValues_libs, twoValues_libs]
  have hnd1 := hnd
  simp only [twoLibs, List.map_cons, List.map_nil] at hnd1
  obtain ⟨hk, hnd1⟩ := List.nodup_cons.1 hnd1
  obtain ⟨schedule, p₀, p₁, c, h1, h2, h3, h4, h5, h6⟩ := C129_mixture_broken L fs folder hno
    (k := chunkName ['a'] 0 .real 0) (f := const p .real) (g := const p' .real) (r₀ := (twoLibs p q).tail) (r₁ := (twoLibs p' q').tail)
    hk hk hnd1 rfl
  refine ⟨schedule, p₀, p₁, c, twoValues_model d p q folder, twoValues_model d p' q' folder, h1, h2, h3, h4, h5, fun later hl hfr => ?_⟩
  have hc : c = contentOf (funcKeys (twoValues p q)) (mixedLibs p p' q') := by
    rw [h6, twoValues_keys]
    simp [contentOf, blockOf, mixedLibs, twoLibs]
  obtain ⟨gs, d'', h7, h8⟩ := loadFuncDict_ok L (twoValues_reachable p q).good (mixedLibs p p' q')
    (by intro k hk; simp only [twoValues, FFormContainer.getKeys, Dict.keys, List.map_cons, List.map_nil, List.mem_cons,
          List.not_mem_nil, or_false] at hk; rcases hk with rfl | rfl <;> decide) folder later (by rw [hl, hc])
    (fun name f _ => Or.inl (by rw [hfr]; rfl))
  have h9 : ∀ key ∈ funcKeys (twoValues p q), ∀ (r : Sym → ℝ) (extra : List ℝ),
      ((gs key).map (fun g => g (([] : List Sym).map r ++ extra))).sum =
        key.2.2.value (mixedValues p q' key.1 key.2.1 (realVal r)) := by
    intro key hkey r extra
    rw [((h8 key hkey).map _).sum_eq]
    rw [twoValues_keys] at hkey
    simp only [List.mem_cons, List.not_mem_nil, or_false] at hkey
    rcases hkey with rfl | rfl | rfl | rfl <;> (simp [mixedLibs, mixedValues, const_value]; try simp [Part.value])
  refine ⟨modelFunc _, d'', by unfold loadModelFunc; rw [h7]; rfl, ?_, ?_⟩
  · have := modelFunc_ok (l := []) (F := mixedValues p q') (twoValues_reachable p q).good h9 (k := ['a']) (m := 0)
      (by simp [twoValues, FFormContainer.getKeys, Dict.keys]) (by simp) (by simp) (fun _ => 0) []
    simpa [mixedValues] using this
  · have := modelFunc_ok (l := []) (F := mixedValues p q') (twoValues_reachable p q).good h9 (k := ['b']) (m := 0)
      (by simp [twoValues, FFormContainer.getKeys, Dict.keys]) (by simp) (by simp) (fun _ => 0) []
    simpa [mixedValues] using this

/-- The hypotheses of the theorem on calls in turn are met by two calls for different formulas. -/
example (L : Listing) (d : Disk) : ∃ p₀ p₁, runM L (fun _ => none,
      [MProc.start ['m'] (modelTrace Sympy.plain compiler L d (twoValues 1 2) ['m'] 10).libs,
       MProc.start ['m'] (modelTrace Sympy.plain compiler L d (twoValues 3 4) ['m'] 10).libs])
      (List.replicate 12 0 ++ List.replicate 16 1) =
        (Function.update (fun _ => none) ['m'] (some (libFolder (twoLibs 3 4))), [p₀, p₁]) ∧
      p₀.failed = false ∧ p₀.stage = .copy [] ∧ p₁.failed = false ∧ p₁.stage = .copy [] := by
  rw [twoValues_libs, twoValues_libs]
  refine C129_in_turn_partial L _ _ (by simp) _ _ (by simp [folderSteps, fileCount, twoLibs]) ?_
  have h : Dict.ofPairs ((twoLibs 1 2).map (fun p => (p.1, some p.2))) = (twoLibs 1 2).map (fun p => (p.1, some p.2)) :=
    Dict.ofPairs_of_nodup (by rw [List.map_map]; exact twoLibs_names 1 2 ▸ twoNames_nodup)
  simp only [folderSteps, libFolder, fileCount, h]
  simp [twoLibs]

/-! ### A concrete case -/

/-- A file system with an old folder `m` in which there is a file. -/
def oldFolder : Key → Option Node := fun path => if path = ['m'] then some (.dir [(['o', 'l', 'd'], none)]) else none

/-- The two folders. -/
def mFolder (i : ℕ) : Key := if i = 0 then ['m'] else ['n']

/-- The two formulas. -/
def mFormula (i : ℕ) : FFormContainer := if i = 0 then twoValues 1 2 else twoValues 3 4

theorem twoValues_is (p q : ℚ) : FormulaIs (twoValues p q) (mixedValues p q) := by
  intro k hk m h1 h2
  have hm : m = 0 := by simp only [twoValues, FFormContainer.getM] at h1 h2; omega
  subst hm
  simp only [twoValues, FFormContainer.getKeys, Dict.keys, List.map_cons, List.map_nil, List.mem_cons, List.not_mem_nil, or_false] at hk
  rcases hk with rfl | rfl
  · exact ⟨_, _, rfl, ⟨⟨by simp, by simp⟩, rfl⟩, fun σ => by simp [objValue, Expr.eval, mixedValues]⟩
  · exact ⟨_, _, rfl, ⟨⟨by simp, by simp⟩, rfl⟩, fun σ => by simp [objValue, Expr.eval, mixedValues]⟩

/-- The hypotheses are met: two processes take turns, one of them finds an old folder, and a later process loads both functions. -/
example (L L' : Listing) (later : Disk)
    (hlater : ∀ i, (Dict.get? later.folders (mFolder i)).map Node.dir =
      (runM L (oldFolder, (modelCalls Sympy.plain compiler L 2 (fun _ => noFiles) mFormula mFolder (fun _ => 10)).map
        (fun c => MProc.start c.1 c.2)) ((List.replicate 13 [0, 1]).flatten)).1 (mFolder i))
    (hfresh : later.loaded = []) :
    (∃ g d', loadModelFunc L' later (twoValues 1 2) ['m'] = .ok (g, d') ∧ g [] ['a'] 0 = .ok 1 ∧ g [] ['b'] 0 = .ok 2) ∧
    ∃ g d', loadModelFunc L' later (twoValues 3 4) ['n'] = .ok (g, d') ∧ g [] ['a'] 0 = .ok 3 ∧ g [] ['b'] 0 = .ok 4 := by
  have hf : ∀ i, ∃ p q, mFormula i = twoValues p q := by
    intro i; unfold mFormula; split <;> exact ⟨_, _, rfl⟩
  have hlibs : ∀ i, (modelTrace Sympy.plain compiler L noFiles (mFormula i) (mFolder i) 10).libs.length = 4 := by
    intro i
    obtain ⟨p, q, h⟩ := hf i
    rw [h, twoValues_libs]
    rfl
  have key : ∀ i < 2, ∀ p q, mFormula i = twoValues p q →
      ∃ g d', loadModelFunc L' later (mFormula i) (mFolder i) = .ok (g, d') ∧ g [] ['a'] 0 = .ok (p : ℂ) ∧ g [] ['b'] 0 = .ok (q : ℂ) := by
    intro i hi p q hpq
    obtain ⟨g, d', h1, h2⟩ := C128_loaded Sympy.plain compiler L L' (fs := oldFolder) (n := 2) (d := fun _ => noFiles)
      (fform := mFormula) (folder := mFolder) (per := fun _ => 10)
      (fun j _ => by obtain ⟨a, b, h⟩ := hf j; rw [h]; exact twoValues_model _ _ _ _)
      (by intro a ha b hb e; interval_cases a <;> interval_cases b <;> simp [mFolder] at e ⊢)
      (by intro a ha c; interval_cases a <;> simp [mFolder, oldFolder])
      (schedule := (List.replicate 13 [0, 1]).flatten) hi
      (by
        unfold folderSteps
        rw [hlibs]
        interval_cases i
        · simp [oldFolder, mFolder, fileCount]
        · simp [oldFolder, mFolder, fileCount])
      (by rw [hpq]; exact twoValues_reachable p q)
      (by
        rw [hpq]
        rintro s ⟨k, a, m, e, ha, ⟨hm, he⟩, hs⟩
        have := Dict.mem_of_get? (Dict.get_ok_iff.1 ha)
        simp only [twoValues, List.mem_cons, List.not_mem_nil, or_false, Prod.mk.injEq] at this
        rcases this with ⟨rfl, rfl⟩ | ⟨rfl, rfl⟩ <;>
        · have h2 := List.mem_of_getElem? he
          simp only [FArr.objs, List.map_cons, List.map_nil, List.mem_cons, List.not_mem_nil, or_false, PyObj.sy.injEq] at h2
          subst h2
          simp [Expr.free] at hs)
      (by rw [hpq]; intro k hk; simp only [twoValues, FFormContainer.getKeys, Dict.keys, List.map_cons, List.map_nil, List.mem_cons,
            List.not_mem_nil, or_false] at hk; rcases hk with rfl | rfl <;> (unfold PlainName; decide))
      (l := []) (by rw [hpq]; exact twoValues_free p q) (F := mixedValues p q) (by rw [hpq]; exact twoValues_is p q) (by norm_num)
      (hlater i) (fun name => by rw [hfresh]; simp [Dict.keys])
    refine ⟨g, d', h1, ?_, ?_⟩
    · have := h2 ['a'] (by rw [hpq]; simp [twoValues, FFormContainer.getKeys, Dict.keys]) 0 (by simp) (by simp) (fun _ => 0) []
      simpa [mixedValues] using this
    · have := h2 ['b'] (by rw [hpq]; simp [twoValues, FFormContainer.getKeys, Dict.keys]) 0 (by simp) (by simp) (fun _ => 0) []
      simpa [mixedValues] using this
  refine ⟨?_, ?_⟩
  · have := key 0 (by norm_num) 1 2 rfl
    simpa [mFormula, mFolder] using this
  · have := key 1 (by norm_num) 3 4 rfl
    simpa [mFormula, mFolder] using this

end FitCases

end Shgpy
