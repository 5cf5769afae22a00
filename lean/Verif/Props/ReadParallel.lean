import Verif.Proofs.ReadParallel
import Verif.Props.ModelParallel

/-!
# Loading while another process writes (C130)

The process that loads is new: it has loaded nothing before (`r.loaded = []`).
-/

set_option linter.unusedSectionVars false
set_option linter.unusedSimpArgs false

namespace Shgpy
open Spec

/-! ## A disk that does not change -/

/-- C130.  on a disk that does not change, loading step by step is what `load_func`, `load_model_func` and the loading of a cost with
its gradient do. -/
theorem C130_still (L : Listing) (d : Disk) (hwf : ∀ p, Dict.WF ((Dict.get? d.folders p).getD [])) :
    (∀ t name, loadFuncDuring (fun _ => d) t d name = loadFunc d name) ∧
    (∀ fform folder, loadModelFuncDuring L (fun _ => d) d fform folder = loadModelFunc L d fform folder) ∧
    ∀ name pre, loadEnergyAndDenergyDuring (fun _ => d) (d.files.length + 1) d name pre = some (loadEnergyAndDenergy d name pre) := by
  refine ⟨fun _ _ => rfl, fun fform folder => ?_, fun name pre => ?_⟩
  · unfold loadModelFuncDuring loadModelFunc
    rw [loadFuncDictDuring_still L (v := fun _ => d) (hwf folder) (fun _ => rfl) fform]
    cases loadFuncDictDuring L (fun _ => d) d fform folder <;> rfl
  · unfold loadEnergyAndDenergyDuring loadEnergyAndDenergy
    show (match loadFunc d name with | .error e => _ | .ok (f, d) => _) = _
    cases h : loadFunc d name with
    | error e => rfl
    | ok r =>
      obtain ⟨f, d1⟩ := r
      have hf : d1.files = d.files := (dlopen_same h).1
      simp only [ok_bind]
      rw [hf]
      rcases loadGradsDuring_still (v := fun _ => d) pre (fun _ => rfl) (d.files.length + 1) 0 1 d1 hf with h1 | h1
      · rw [h1]
        cases loadGrads pre (d.files.length + 1) 0 d1 <;> rfl
      · have := files_length (name := gradName pre) (fun i j h => gradName_inj h) (n := d.files.length + 1)
          (fun i hi => by simpa using h1 i hi)
        omega

section
variable (S : Sympy) (C : Compiler)

/-! ## Cost functions -/

/-- C130.  `load_func` at any moment while another process saves a cost function gives the function that was saved before, the one
that is being saved, or `OSError`. -/
theorem C130_cost {d : Disk} {fform : FFormContainer} {fdat : FDataContainer} {arguments : Option (List Sym)} {chunk : Bool}
    {save : Option Key} {v : ℕ → Disk} (hw : Watches d (costTrace S C d fform fdat arguments chunk save) v) {r : Disk}
    (hr : r.loaded = []) (t : ℕ) (name : Key) :
    (∀ g r', loadFuncDuring v t r name = .ok (g, r') → Loads d name g ∨
      (save = some name ∧ ∃ d', genCostFunc S C d fform fdat arguments chunk save = .ok (g, d'))) ∧
    ∀ e, loadFuncDuring v t r name = .error e → e = .osError := by
  obtain ⟨n, _, hn⟩ := hw
  refine ⟨fun g r' h => ?_, fun e h => dlopen_error h⟩
  have h1 := (dlopen_inv (P := fun p g => '/' ∈ p ∧ Dict.get? (v t).files p = some (some g)) (by rw [hr]; intro p g h; cases h)
    (fun g hs hg => ⟨hs, hg⟩) h).1
  exact (C78_cost S C ⟨n t, hn t⟩).2 name g (loads_iff.2 h1)

/-! ## Gradients -/

/-- C130.  a cost with its gradient, loaded while another process saves one: the cost and every derivative
are what was saved under their names before, or what is being saved.  Partial: they may come from different calls, and derivatives may
be missing at the end, see `C130_gradient_broken`. -/
theorem C130_gradient_partial {d : Disk} {fform : FFormContainer} {fdat : FDataContainer} {l : List Sym} {chunk : Bool}
    {save gradSave : Option Key} {v : ℕ → Disk} (hw : Watches d (gradTrace S C d fform fdat l chunk save gradSave) v) {r : Disk}
    (hr : r.loaded = []) (name pre : Key) (fuel : ℕ) {g : CGrad} {r' : Disk}
    (h : loadEnergyAndDenergyDuring v fuel r name pre = some (.ok (g, r'))) :
    ∃ (c : CFunc) (gs : List CFunc), (∀ x, g x = (c x, gs.map (fun q => q x))) ∧
      ∀ p q, (p = name ∧ q = c ∨ ∃ i, p = gradName pre i ∧ gs[i]? = some q) → Loads d p q ∨
        ∃ f d', energyAndDenergy S C d fform fdat l chunk save gradSave = .ok (f, d') ∧
          ((save = some p ∧ ∀ x, q x = (f x).1) ∨
            ∃ pre' i, gradSave = some pre' ∧ p = gradName pre' i ∧ ∀ x, (f x).2[i]? = some (q x)) := by
  obtain ⟨n, _, hn⟩ := hw
  have hv : ∀ t p q, '/' ∈ p → Dict.get? (v t).files p = some (some q) → Loads d p q ∨
        ∃ f d', energyAndDenergy S C d fform fdat l chunk save gradSave = .ok (f, d') ∧
          ((save = some p ∧ ∀ x, q x = (f x).1) ∨
            ∃ pre' i, gradSave = some pre' ∧ p = gradName pre' i ∧ ∀ x, (f x).2[i]? = some (q x)) :=
    fun t p q hs hq => (C78_gradient_partial S C ⟨n t, hn t⟩).2 p q (loads_iff.2 ⟨hs, hq⟩)
  unfold loadEnergyAndDenergyDuring at h
  split at h
  · cases h
  · rename_i f d1 h1
    obtain ⟨h2, h3⟩ := dlopen_inv (P := fun p q => Loads d p q ∨
        ∃ f d', energyAndDenergy S C d fform fdat l chunk save gradSave = .ok (f, d') ∧
          ((save = some p ∧ ∀ x, q x = (f x).1) ∨
            ∃ pre' i, gradSave = some pre' ∧ p = gradName pre' i ∧ ∀ x, (f x).2[i]? = some (q x)))
      (by rw [hr]; intro p g h; cases h) (fun q hs hq => hv _ _ _ hs hq) h1
    cases h4 : loadGradsDuring v pre fuel 0 1 d1 with
    | none => rw [h4] at h; cases h
    | some q =>
      rw [h4] at h
      cases q with
      | error e => cases h
      | ok q =>
        obtain ⟨fs, d2⟩ := q
        cases h
        refine ⟨f, fs, fun _ => rfl, ?_⟩
        rintro p q (⟨rfl, rfl⟩ | ⟨i, rfl, hi⟩)
        · exact h2
        · have := loadGradsDuring_inv hv fuel 0 1 d1 h3 h4 i q hi
          rwa [Nat.zero_add] at this

/-! ## Models -/

/-- C130.  a model loaded while another process generates one in the same folder: every value is the sum of
libraries with different names of that component, each of them in the old or in the new folder.  Partial: some may be missing, and
old and new ones may be mixed, see `C130_model_broken`. -/
theorem C130_model_partial (L : Listing) {d : Disk} (hwf : ∀ p, Dict.WF ((Dict.get? d.folders p).getD []))
    {fform : FFormContainer} (hc : fform.Reachable S) {folder : Key} {n : ℤ}
    {f : List ℝ → Key → ℤ → Except Err ℂ} {d' : Disk} (h : genModelFunc S C d fform folder n = .ok (f, d'))
    {v : ℕ → Disk} (hw : Watches d (modelTrace S C L d fform folder n) v) {r : Disk} (hr : r.loaded = [])
    {fform' : FFormContainer} (hc' : fform'.Reachable S) {g : List ℝ → Key → ℤ → Except Err ℂ} {r' : Disk}
    (hg : loadModelFuncDuring L v r fform' folder = .ok (g, r')) :
    ∃ libs : Key × ℤ × Part → List (Key × CFunc),
      (∀ key, ((libs key).map Prod.fst).Nodup ∧ ∀ p ∈ libs key,
        globMatch (partName key.1 key.2.1 key.2.2 ++ ['*', '.', 's', 'o']) p.1 = true ∧
        (InFolder d folder p.1 p.2 ∨ InFolder d' folder p.1 p.2)) ∧
      ∀ k ∈ fform'.getKeys, ∀ m : ℤ, -(fform'.getM : ℤ) ≤ m → m ≤ fform'.getM → ∀ x,
        g x k m = .ok (sumOf (libs (k, m, .real)) (libs (k, m, .imag)) x) := by
  obtain ⟨N, _, hN⟩ := hw
  have hv : ∀ t name q, Dict.get? ((Dict.get? (v t).folders folder).getD []) name = some (some q) →
      ∃ name', folder ++ '/' :: name = folder ++ '/' :: name' ∧ (InFolder d folder name' q ∨ InFolder d' folder name' q) := by
    intro t name q hq
    refine ⟨name, rfl, ?_⟩
    have h1 : InFolder (v t) folder name q := by
      cases hf : Dict.get? (v t).folders folder with
      | none => rw [hf] at hq; cases hq
      | some c => rw [hf] at hq; exact ⟨c, hf, hq⟩
    rcases (C78_model_partial S C L hc h ⟨N t, hN t⟩).2 with h2 | h2
    · exact Or.inl (h2 _ _ h1)
    · exact Or.inr (h2 _ _ h1)
  unfold loadModelFuncDuring at hg
  obtain ⟨⟨fd, t', d1⟩, h1, h2⟩ := bind_ok hg
  cases h2
  obtain ⟨ps, h3, h4⟩ := loadFuncDictDuring_inv
    (P := fun p q => ∃ name', p = folder ++ '/' :: name' ∧ (InFolder d folder name' q ∨ InFolder d' folder name' q))
    hv (fun t => by rw [hN]; exact after_wf _ hwf _) hc'.good (by rw [hr]; intro p g h; cases h) h1
  refine ⟨fun key => if key ∈ funcKeys fform' then ps key else [], fun key => ?_, fun k hk m hm1 hm2 x => ?_⟩
  · dsimp only
    split
    · rename_i hkey
      refine ⟨(h4 key hkey).1, fun p hp => ⟨((h4 key hkey).2 p hp).1, ?_⟩⟩
      obtain ⟨name', h5, h6⟩ := ((h4 key hkey).2 p hp).2
      have h7 : p.1 = name' := by simpa using h5
      rw [h7]
      exact h6
    · simp
  · have k1 : (k, m, Part.real) ∈ funcKeys fform' := mem_funcKeys.2 ⟨hk, hm1, hm2⟩
    have k2 : (k, m, Part.imag) ∈ funcKeys fform' := mem_funcKeys.2 ⟨hk, hm1, hm2⟩
    rw [h3]
    unfold modelFunc sumOf
    rw [get_funcDict (funcKeys_nodup hc'.good) (fun key => (ps key).map Prod.snd) k1, ok_bind,
      get_funcDict (funcKeys_nodup hc'.good) (fun key => (ps key).map Prod.snd) k2, ok_bind]
    simp only [k1, k2, if_true, List.map_map]
    show Except.ok _ = Except.ok _
    congr 2
    rw [← List.sum_map_mul_left]
    rfl

/-- C130 fails for gradients: a cost with its gradient is saved under the names of an earlier one; a process that loads at the moment
when the first derivative has been removed gets the new cost and no gradient at all, without an exception. -/
theorem C130_gradient_missing {d : Disk} {fform : FFormContainer} {fdat : FDataContainer} {l : List Sym} {name pre : Key}
    (hslash : '/' ∈ name) (hne : ∀ i, gradName pre i ≠ name) (hold : (Dict.get? d.files (gradName pre 0)).isSome = true)
    {f : CGrad} {d' : Disk} (h : energyAndDenergy S C d fform fdat l false (some name) (some pre) = .ok (f, d')) (hl : l ≠ [])
    {r : Disk} (hr : r.loaded = []) :
    ∃ v, Watches d (gradTrace S C d fform fdat l false (some name) (some pre)) v ∧
      ∃ g r', loadEnergyAndDenergyDuring v 1 r name pre = some (.ok (g, r')) ∧ ∀ x, g x = ((f x).1, []) := by
  unfold energyAndDenergy at h
  simp only [Bool.false_eq_true, if_false] at h
  obtain ⟨e, h1, h⟩ := bind_ok h
  obtain ⟨de, h2, h⟩ := bind_ok h
  simp only [fixedAutowrap, denergyFuncs_fst] at h
  cases h
  have hlen : de.length = l.length := by
    unfold denergyExpr at h2
    split at h2
    · cases h2
    · cases h2
      simp
  have hs := (saveSteps_after d (C.run e) (some name)).1
  set s := saveSteps d (C.run e) (some name) with hsdef
  have h0 : Dict.get? (d.after s).files (gradName pre 0) = Dict.get? d.files (gradName pre 0) := by
    rw [hs.1, save_get, if_neg (fun h => hne 0 h.symm)]
  have hfile : Dict.get? (d.after s).files name = some (some (C.run e)) := by
    rw [hs.1, save_get, if_pos rfl]
  obtain ⟨e0, de, rfl⟩ := List.exists_cons_of_ne_nil (fun h => hl (List.length_eq_zero_iff.1 (by rw [← hlen, h]; rfl)) : de ≠ [])
  have hsteps : (gradTrace S C d fform fdat l false (some name) (some pre)).steps.take (s.length + 1) = s ++ [.unlink (gradName pre 0)] := by
    unfold gradTrace
    simp only [Bool.false_eq_true, if_false]
    rw [h1]
    simp only
    rw [h2]
    simp only
    rw [← hsdef, List.take_length_add_append]
    congr 1
    unfold denergySteps
    simp only [Option.map_some, saveSteps, unlinkSteps]
    rw [h0, if_pos hold]
    rfl
  refine ⟨fun _ => (d.after s).step (.unlink (gradName pre 0)), ⟨fun _ => s.length + 1, monotone_const, fun _ => ?_⟩, ?_⟩
  · rw [hsteps, after_append]
    rfl
  · obtain ⟨r1, k1, _⟩ := dlopen_ok (d := r) (f := C.run e) hslash (Or.inl (by rw [hr]; rfl))
    refine ⟨fun x => (C.run e x, []), r1, ?_, fun _ => rfl⟩
    unfold loadEnergyAndDenergyDuring loadFuncDuring
    have k2 : Dict.get? ((d.after s).step (.unlink (gradName pre 0))).files name = some (some (C.run e)) := by
      simp only [Disk.step, Dict.get?_erase]
      rw [if_neg (hne 0), hfile]
    rw [k2, k1]
    simp only
    unfold loadGradsDuring
    simp only [Disk.step, Dict.get?_erase, if_true]
    rfl

end

namespace FitCases

/-- C130 fails for gradients: the second of two calls with the same names saves a cost and its gradient; a process that loads
meanwhile gets the cost without a gradient. -/
theorem C130_gradient_broken (r : Disk) (hr : r.loaded = []) : ∃ f₀ d f d' v g r',
    energyAndDenergy Sympy.plain compiler noFiles formula data0 [symA, symB] false (some ['.', '/', 'c']) (some pre) = .ok (f₀, d) ∧
    energyAndDenergy Sympy.plain compiler d formula data [symA, symB] false (some ['.', '/', 'c']) (some pre) = .ok (f, d') ∧
    Watches d (gradTrace Sympy.plain compiler d formula data [symA, symB] false (some ['.', '/', 'c']) (some pre)) v ∧
    loadEnergyAndDenergyDuring v 1 r ['.', '/', 'c'] pre = some (.ok (g, r')) ∧ ∀ x, (f x).2.length = 2 ∧ (g x).2 = [] := by
  have hl := (getFreeSymbols_lists formula_reachable.good free_symbols).2
  obtain ⟨f₀, d, h1, _⟩ := C70_gradient Sympy.plain compiler noFiles formula_reachable real_symbols hl (fdat := data0) rfl
    formulaIs dataIs0 not_constant0 (some ['.', '/', 'c']) (some pre)
  obtain ⟨f, d', h3, h4⟩ := C70_gradient Sympy.plain compiler d formula_reachable real_symbols hl rfl
    formulaIs dataIs not_constant (some ['.', '/', 'c']) (some pre)
  have hne : ∀ i, gradName pre i ≠ ['.', '/', 'c'] := by
    intro i h
    have := congrArg (fun l => l[2]?) h
    simp [gradName, pre] at this
  obtain ⟨gs, k1, k2, _⟩ := saved_gradient Sympy.plain compiler h1
  obtain ⟨gs', k3, _, k4⟩ := saved_gradient Sympy.plain compiler h3
  have hold : (Dict.get? d.files (gradName pre 0)).isSome = true := by
    have h0 : 0 < gs.length := by rw [k1]; decide
    rw [k2 0 gs[0] (List.getElem?_eq_getElem h0)]
    rfl
  obtain ⟨v, h5, g, r', h6, h7⟩ := C130_gradient_missing Sympy.plain compiler (by simp) hne hold h3 (by simp) hr
  refine ⟨f₀, d, f, d', v, g, r', h1, h3, h5, h6, fun x => ⟨?_, ?_⟩⟩
  · rw [k4, List.length_map, k3]
    rfl
  · rw [h7]

theorem loadPartDuring_one (L : Listing) {v : ℕ → Disk} {folder : Key} {key : Key × ℤ × Part} {t : ℕ} {d : Disk} {c : Dict Key Content}
    (h0 : Dict.get? (v t).folders folder = some c) (h1 : Dict.get? (v (t + 1)).folders folder = some c) (hwf : Dict.WF c)
    {name : Key} {f : CFunc}
    (hc : c.filter (fun p => globMatch (partName key.1 key.2.1 key.2.2 ++ ['*', '.', 's', 'o']) p.1) = [(name, some f)])
    (hd : Dict.get? d.loaded (folder ++ '/' :: name) = none) :
    ∃ d', loadPartDuring L v folder key t d = .ok ([f], t + 2, d') ∧
      ∀ p, p ≠ folder ++ '/' :: name → Dict.get? d'.loaded p = Dict.get? d.loaded p := by
  have hmem : (name, some f) ∈ c := (List.mem_filter.1 (hc ▸ List.mem_singleton.2 rfl)).1
  have hf : (L.order c).filter (fun p => globMatch (partName key.1 key.2.1 key.2.2 ++ ['*', '.', 's', 'o']) p.1) = [(name, some f)] := by
    have := (L.perm c).filter (fun p => globMatch (partName key.1 key.2.1 key.2.2 ++ ['*', '.', 's', 'o']) p.1)
    rw [hc] at this
    exact List.perm_singleton.1 this
  obtain ⟨d1, k1, _, _, _, k2⟩ := dlopen_ok (d := d) (path := folder ++ '/' :: name) (f := f) (by simp) (Or.inl hd)
  refine ⟨d1, ?_, k2⟩
  unfold loadPartDuring
  rw [h0, Option.getD_some, hf]
  simp only [List.map_cons, List.map_nil]
  unfold loadFilesDuring
  rw [h1, Option.getD_some, (Dict.get?_eq_some_iff hwf).2 hmem, k1]
  rfl

/-- C130 fails for models: the folder has the model of a formula with the values `p` and `q`; while another process generates
the model of a formula with the values `p'` and `q'` there, `load_model_func` returns a function with the values `p` and `q'`. -/
theorem C130_model_broken (L : Listing) (p q p' q' : ℚ) (r : Disk) (hr : r.loaded = []) :
    ∃ f d f' d' v g r', genModelFunc Sympy.plain compiler noFiles (twoValues p q) ['m'] 10 = .ok (f, d) ∧
      genModelFunc Sympy.plain compiler d (twoValues p' q') ['m'] 10 = .ok (f', d') ∧
      Watches d (modelTrace Sympy.plain compiler L d (twoValues p' q') ['m'] 10) v ∧
      loadModelFuncDuring L v r (twoValues p q) ['m'] = .ok (g, r') ∧
      g [] ['a'] 0 = .ok (p : ℂ) ∧ g [] ['b'] 0 = .ok (q' : ℂ) := by
  have hgen : ∀ (d : Disk) (p q : ℚ), ∃ f, genModelFunc Sympy.plain compiler d (twoValues p q) ['m'] 10 =
      .ok (f, { d with folders := Dict.set d.folders ['m'] ((twoLibs p q).map (fun x => (x.1, some x.2))) }) := by
    intro d p q
    have hnd : ((twoLibs p q).map (fun x => (x.1, some x.2)) |>.map Prod.fst).Nodup := by
      rw [List.map_map]; exact twoLibs_names p q ▸ twoNames_nodup
    unfold genModelFunc fixedAutowrapModel
    rw [twoValues_funcs]
    simp only [ok_bind]
    have : ([((['a'], 0, .real), [(chunkName ['a'] 0 .real 0, const p .real)]), ((['a'], 0, .imag), [(chunkName ['a'] 0 .imag 0, const p .imag)]),
      ((['b'], 0, .real), [(chunkName ['b'] 0 .real 0, const q .real)]), ((['b'], 0, .imag), [(chunkName ['b'] 0 .imag 0, const q .imag)])] :
        List ((Key × ℤ × Part) × List (Key × CFunc))).flatMap Prod.snd = twoLibs p q := rfl
    rw [this, Dict.ofPairs_of_nodup hnd]
    exact ⟨_, rfl⟩
  have hglob : ∀ t t' : Part,
      globMatch (partName ['a'] 0 t ++ ['*', '.', 's', 'o']) (chunkName ['a'] 0 t' 0) = decide (t = t') ∧
      globMatch (partName ['a'] 0 t ++ ['*', '.', 's', 'o']) (chunkName ['b'] 0 t' 0) = false ∧
      globMatch (partName ['b'] 0 t ++ ['*', '.', 's', 'o']) (chunkName ['a'] 0 t' 0) = false ∧
      globMatch (partName ['b'] 0 t ++ ['*', '.', 's', 'o']) (chunkName ['b'] 0 t' 0) = decide (t = t') := by
    intro t t'
    cases t <;> cases t' <;> decide +kernel
  obtain ⟨f, h1⟩ := hgen noFiles p q
  obtain ⟨f', h2⟩ := hgen _ p' q'
  set d : Disk := { noFiles with folders := Dict.set noFiles.folders ['m'] ((twoLibs p q).map (fun x => (x.1, some x.2))) } with hd
  set steps := (modelTrace Sympy.plain compiler L d (twoValues p' q') ['m'] 10).steps with hsteps
  let v : ℕ → Disk := fun t => d.after (steps.take (if t < 4 then 0 else steps.length))
  have hold : ∀ t < 4, Dict.get? (v t).folders ['m'] = some ((twoLibs p q).map (fun x => (x.1, some x.2))) := by
    intro t ht
    simp only [v, if_pos ht, List.take_zero]
    show Dict.get? (Dict.set _ _ _) _ = _
    rw [Dict.get?_set, if_pos rfl]
  have hnew : ∀ t, 4 ≤ t → Dict.get? (v t).folders ['m'] = some ((twoLibs p' q').map (fun x => (x.1, some x.2))) := by
    intro t ht
    simp only [v, if_neg (by omega : ¬ t < 4), List.take_length]
    rw [((C78_model_steps Sympy.plain compiler L d (twoValues p' q') ['m'] 10).2 f' _ h2).2]
    show Dict.get? (Dict.set _ _ _) _ = _
    rw [Dict.get?_set, if_pos rfl]
  have hwf : ∀ p q, Dict.WF ((twoLibs p q).map (fun x => (x.1, (some x.2 : Content)))) := by
    intro p q
    unfold Dict.WF Dict.keys
    rw [List.map_map]; exact twoLibs_names p q ▸ twoNames_nodup
  have hne : ∀ a b : Key, a ≠ b → ['m'] ++ '/' :: a ≠ ['m'] ++ '/' :: b := by
    intro a b h h'
    simp at h'
    exact h h'
  obtain ⟨d1, a1, b1⟩ := loadPartDuring_one L (key := (['a'], 0, .real)) (t := 0) (d := r) (hold 0 (by omega)) (hold 1 (by omega)) (hwf p q)
    (name := chunkName ['a'] 0 .real 0) (f := const p .real) (by simp [twoLibs, hglob]) (by rw [hr]; rfl)
  obtain ⟨d2, a2, b2⟩ := loadPartDuring_one L (key := (['a'], 0, .imag)) (t := 2) (d := d1) (hold 2 (by omega)) (hold 3 (by omega)) (hwf p q)
    (name := chunkName ['a'] 0 .imag 0) (f := const p .imag) (by simp [twoLibs, hglob]) (by rw [b1 _ (hne _ _ (by decide +kernel)), hr]; rfl)
  obtain ⟨d3, a3, b3⟩ := loadPartDuring_one L (key := (['b'], 0, .real)) (t := 4) (d := d2) (hnew 4 (by omega)) (hnew 5 (by omega)) (hwf p' q')
    (name := chunkName ['b'] 0 .real 0) (f := const q' .real) (by simp [twoLibs, hglob])
    (by rw [b2 _ (hne _ _ (by decide +kernel)), b1 _ (hne _ _ (by decide +kernel)), hr]; rfl)
  obtain ⟨d4, a4, _⟩ := loadPartDuring_one L (key := (['b'], 0, .imag)) (t := 6) (d := d3) (hnew 6 (by omega)) (hnew 7 (by omega)) (hwf p' q')
    (name := chunkName ['b'] 0 .imag 0) (f := const q' .imag) (by simp [twoLibs, hglob])
    (by rw [b3 _ (hne _ _ (by decide +kernel)), b2 _ (hne _ _ (by decide +kernel)), b1 _ (hne _ _ (by decide +kernel)), hr]; rfl)
  have hload : loadModelFuncDuring L v r (twoValues p q) ['m'] =
      .ok (modelFunc [((['a'], 0, .real), [const p .real]), ((['a'], 0, .imag), [const p .imag]),
        ((['b'], 0, .real), [const q' .real]), ((['b'], 0, .imag), [const q' .imag])], d4) := by
    unfold loadModelFuncDuring loadFuncDictDuring
    rw [twoValues_keys]
    simp only [List.foldlM_cons, List.foldlM_nil, a1, a2, a3, a4, ok_bind, Nat.zero_add, pure_bind]
    rfl
  refine ⟨f, d, f', _, v, _, d4, h1, h2, ⟨fun t => if t < 4 then 0 else steps.length, ?_, fun t => rfl⟩, hload, ?_, ?_⟩
  · intro a b hab
    dsimp only
    split
    · exact Nat.zero_le _
    · rw [if_neg (by omega)]
  · simp only [modelFunc, Dict.get, Dict.get?]
    simp [const_value, Part.value, ok_bind]
  · simp only [modelFunc, Dict.get, Dict.get?]
    simp [const_value, Part.value, ok_bind]

/-- The hypotheses on loading a cost function are met: a process that loads while another one replaces an old file, with one step of
the other process before each of its operations; at first it gets the old function, then an error. -/
example (old : CFunc) : ∃ v r', Watches ⟨[(['.', '/', 'c'], some old)], [], []⟩ (costTrace Sympy.plain compiler
      ⟨[(['.', '/', 'c'], some old)], [], []⟩ formula data none false (some ['.', '/', 'c'])) v ∧
    loadFuncDuring v 0 noFiles ['.', '/', 'c'] = .ok (old, r') ∧ loadFuncDuring v 1 noFiles ['.', '/', 'c'] = .error .osError := by
  obtain ⟨f, d', h1, h2⟩ := C57_cost Sympy.plain compiler ⟨[(['.', '/', 'c'], some old)], [], []⟩ formula_reachable
    (Or.inr ⟨rfl, free_symbols⟩) rfl formulaIs dataIs false (by simp) (some ['.', '/', 'c'])
  unfold genCostFunc at h1
  simp only [Bool.false_eq_true, if_false] at h1
  obtain ⟨e, h4, h5⟩ := bind_ok h1
  refine ⟨_, _, ⟨id, monotone_id, fun t => rfl⟩, rfl, ?_⟩
  have h6 : (costTrace Sympy.plain compiler ⟨[(['.', '/', 'c'], some old)], [], []⟩ formula data none false
      (some ['.', '/', 'c'])).steps.take 1 = [.unlink ['.', '/', 'c']] := by
    unfold costTrace
    simp only [Bool.false_eq_true, if_false]
    rw [h4]
    rfl
  unfold loadFuncDuring
  simp only [id]
  rw [h6]
  rfl

/-- The hypothesis on folders is met by a disk with a model in a folder. -/
example (p q : ℚ) : ∃ f d, genModelFunc Sympy.plain compiler noFiles (twoValues p q) ['m'] 10 = .ok (f, d) ∧
    ∀ p, Dict.WF ((Dict.get? d.folders p).getD []) := by
  unfold genModelFunc fixedAutowrapModel
  rw [twoValues_funcs]
  refine ⟨_, _, rfl, fun k => ?_⟩
  show Dict.WF ((Dict.get? (Dict.set _ _ _) k).getD [])
  rw [Dict.get?_set]
  split
  · exact Dict.WF_ofPairs _
  · exact Dict.WF_nil

end FitCases

end Shgpy
