import Verif.Proofs.FitCrash

/-!
# Interrupted calls and calls that raise: C78, C79

Properties of `shgpy/fformfit.py` about saved functions when a call that saves is interrupted at any point (C78) or raises
(C79).
-/

set_option linter.unusedSectionVars false
set_option linter.unusedSimpArgs false
set_option linter.unusedVariables false

namespace Shgpy
open Spec

section
variable (S : Sympy) (C : Compiler)

theorem loads_iff {d : Disk} {name : Key} {f : CFunc} : Loads d name f ↔ '/' ∈ name ∧ Dict.get? d.files name = some (some f) := by
  unfold Loads loadFunc Disk.dlopen Disk.restart
  by_cases hs : '/' ∈ name
  · simp only [hs, not_true_eq_false, if_false, true_and, Dict.get?]
    constructor
    · rintro ⟨d', h⟩
      split at h
      · next g hg =>
        cases h
        exact hg
      · cases h
    · intro h
      rw [h]
      exact ⟨_, rfl⟩
  · simp [hs]

/-! ## The steps are those of the calls -/

/-- C78.  The steps of `gen_cost_func` lead to its result and to the disk it leaves. -/
theorem C78_cost_steps (d : Disk) (fform : FFormContainer) (fdat : FDataContainer) (arguments : Option (List Sym)) (chunk : Bool)
    (save : Option Key) :
    (costTrace S C d fform fdat arguments chunk save).result = (genCostFunc S C d fform fdat arguments chunk save).map Prod.fst ∧
      ∀ f d', genCostFunc S C d fform fdat arguments chunk save = .ok (f, d') →
        SameFiles d' (d.after (costTrace S C d fform fdat arguments chunk save).steps) := by
  unfold costTrace genCostFunc
  cases chunk with
  | true =>
    simp only [if_true]
    cases h : energyExprList S fform fdat arguments with
    | error e => exact ⟨rfl, fun f d' h => by cases h⟩
    | ok l =>
      cases l with
      | nil => exact ⟨rfl, fun f d' h => by cases h⟩
      | cons e r =>
        refine ⟨rfl, fun f d' h => ?_⟩
        cases h
        exact (saveSteps_after d _ save).1
  | false =>
    simp only [Bool.false_eq_true, if_false]
    cases h : energyExpr S fform fdat arguments with
    | error e => exact ⟨rfl, fun f d' h => by cases h⟩
    | ok e =>
      refine ⟨rfl, fun f d' h => ?_⟩
      cases h
      exact (saveSteps_after d _ save).1

/-- C78.  The steps of the cost function with gradient lead to its result and to the disk it leaves. -/
theorem C78_gradient_steps (d : Disk) (fform : FFormContainer) (fdat : FDataContainer) (l : List Sym) (chunk : Bool)
    (save gradSave : Option Key) :
    (gradTrace S C d fform fdat l chunk save gradSave).result =
        (energyAndDenergy S C d fform fdat l chunk save gradSave).map Prod.fst ∧
      ∀ f d', energyAndDenergy S C d fform fdat l chunk save gradSave = .ok (f, d') →
        SameFiles d' (d.after (gradTrace S C d fform fdat l chunk save gradSave).steps) := by
  unfold gradTrace energyAndDenergy
  cases chunk with
  | true => exact ⟨rfl, fun f d' h => by cases h⟩
  | false =>
    simp only [Bool.false_eq_true, if_false]
    cases h : energyExpr S fform fdat (some l) with
    | error e => exact ⟨rfl, fun f d' h => by cases h⟩
    | ok e =>
      simp only [pure_bind, ok_bind]
      cases h' : denergyExpr S l.length e with
      | error e => exact ⟨rfl, fun f d' h => by cases h⟩
      | ok de =>
        simp only [ok_bind, fixedAutowrap, denergyFuncs_fst]
        refine ⟨rfl, fun f d' h => ?_⟩
        cases h
        rw [after_append]
        exact (sameFiles_denergy C gradSave de 0 (saveSteps_after d (C.run e) save).1).trans (denergySteps_after C gradSave de 0 _)

/-- C78.  The steps of `gen_model_func` lead to its result and to the disk it leaves. -/
theorem C78_model_steps (L : Listing) (d : Disk) (fform : FFormContainer) (folder : Key) (n : ℤ) :
    (modelTrace S C L d fform folder n).result = (genModelFunc S C d fform folder n).map Prod.fst ∧
      ∀ f d', genModelFunc S C d fform folder n = .ok (f, d') →
        SameFiles d' (d.after (modelTrace S C L d fform folder n).steps) := by
  unfold modelTrace genModelFunc fixedAutowrapModel
  cases h : (funcKeys fform).mapM (fun key => do
      let fs ← modelFuncs S C fform none n key
      return (key, fs)) with
  | error e => exact ⟨by simp only; rw [modelLoop_error S C _ h]; rfl, fun f d' h => by cases h⟩
  | ok l =>
    obtain ⟨h1, h2⟩ := modelLoop_ok S C (folder := folder) _ h
    refine ⟨by simp only; rw [h1]; rfl, fun f d' h3 => ?_⟩
    cases h3
    simp only
    rw [h2]
    have hb := after_betweenFolder (N := fun _ _ => True) (folder := folder)
      (rmtreeSteps L d folder ++ [Step.mkdir folder] ++ copySteps folder (l.flatMap Prod.snd)) d (by
        intro s hs
        rw [List.mem_append, List.mem_append, List.mem_singleton] at hs
        rcases hs with (hs | rfl) | hs
        · exact rmtreeSteps_folder L d folder s hs
        · rfl
        · exact copySteps_folder folder (fun _ _ => trivial) s hs)
    refine ⟨hb.1.1, fun p => ?_⟩
    by_cases hp : p = folder
    · subst hp
      rw [after_append, copySteps_after p _ _ []]
      · show _ = Dict.get? (Dict.set d.folders p _) p
        rw [Dict.get?_set, if_pos rfl]
        congr 1
        unfold Dict.ofPairs
        rw [List.foldl_map]
      · rw [after_append]
        show Dict.get? (Dict.set _ p []) p = _
        rw [Dict.get?_set, if_pos rfl]
    · rw [hb.1.2 p hp]
      show _ = Dict.get? (Dict.set d.folders folder _) p
      rw [Dict.get?_set, if_neg (fun h => hp h.symm)]

/-! ## C78: interruption at any point -/

/-- C78.  When `gen_cost_func` is interrupted at any point, what a new process loads from any file is what it loaded before, or
it is the file that was to be saved and has the function that `gen_cost_func` returns; other files and the folders are as
before. -/
theorem C78_cost {d d₁ : Disk} {fform : FFormContainer} {fdat : FDataContainer} {arguments : Option (List Sym)} {chunk : Bool}
    {save : Option Key} (h : Interrupted d (costTrace S C d fform fdat arguments chunk save) d₁) :
    OnlyFiles (fun p => save = some p) d d₁ ∧ ∀ name g, Loads d₁ name g → Loads d name g ∨
      (save = some name ∧ ∃ d', genCostFunc S C d fform fdat arguments chunk save = .ok (g, d')) := by
  obtain ⟨n, rfl⟩ := h
  have hall : ∀ s ∈ (costTrace S C d fform fdat arguments chunk save).steps,
      Allowed (fun p g => save = some p ∧ ∃ d', genCostFunc S C d fform fdat arguments chunk save = .ok (g, d'))
        (fun p => save = some p) s := by
    unfold costTrace genCostFunc
    cases chunk with
    | true =>
      simp only [if_true]
      cases energyExprList S fform fdat arguments with
      | error e => intro s hs; cases hs
      | ok l =>
        cases l with
        | nil => exact unlinkSteps_allowed d save (fun _ h => h)
        | cons e r => exact saveSteps_allowed d _ save (fun p hp => ⟨hp, hp, _, rfl⟩)
    | false =>
      simp only [Bool.false_eq_true, if_false]
      cases energyExpr S fform fdat arguments with
      | error e => intro s hs; cases hs
      | ok e => exact saveSteps_allowed d _ save (fun p hp => ⟨hp, hp, _, rfl⟩)
  obtain ⟨h1, h2, h3⟩ := after_between _ d (fun s hs => hall s (List.mem_of_mem_take (i := n) hs))
  refine ⟨h1, fun name g hg => ?_⟩
  rw [loads_iff] at hg ⊢
  rcases h3 name g hg.2 with h4 | h4
  · exact Or.inl ⟨hg.1, h4⟩
  · exact Or.inr h4

/-- C78.  When the generation of a cost function with gradient is interrupted at any point, each single file has its old
function, its new function, or cannot be loaded.  Partial: the files together may be a mixture, see `C78_gradient_broken`. -/
theorem C78_gradient_partial {d d₁ : Disk} {fform : FFormContainer} {fdat : FDataContainer} {l : List Sym} {chunk : Bool}
    {save gradSave : Option Key} (h : Interrupted d (gradTrace S C d fform fdat l chunk save gradSave) d₁) :
    OnlyFiles (fun p => save = some p ∨ ∃ pre i, gradSave = some pre ∧ i < l.length ∧ p = gradName pre i) d d₁ ∧
    ∀ name g, Loads d₁ name g → Loads d name g ∨
      ∃ f d', energyAndDenergy S C d fform fdat l chunk save gradSave = .ok (f, d') ∧
        ((save = some name ∧ ∀ x, g x = (f x).1) ∨
          ∃ pre i, gradSave = some pre ∧ name = gradName pre i ∧ ∀ x, (f x).2[i]? = some (g x)) := by
  obtain ⟨n, rfl⟩ := h
  have hall : ∀ s ∈ (gradTrace S C d fform fdat l chunk save gradSave).steps,
      Allowed (fun name g => ∃ f d', energyAndDenergy S C d fform fdat l chunk save gradSave = .ok (f, d') ∧
        ((save = some name ∧ ∀ x, g x = (f x).1) ∨
          ∃ pre i, gradSave = some pre ∧ name = gradName pre i ∧ ∀ x, (f x).2[i]? = some (g x)))
        (fun p => save = some p ∨ ∃ pre i, gradSave = some pre ∧ i < l.length ∧ p = gradName pre i) s := by
    unfold gradTrace energyAndDenergy
    cases chunk with
    | true => intro s hs; cases hs
    | false =>
      simp only [Bool.false_eq_true, if_false]
      cases h : energyExpr S fform fdat (some l) with
      | error e => intro s hs; cases hs
      | ok e =>
        simp only [pure_bind, ok_bind]
        cases h' : denergyExpr S l.length e with
        | error e => intro s hs; cases hs
        | ok de =>
          simp only [ok_bind, fixedAutowrap, denergyFuncs_fst]
          have hlen : de.length = l.length := by
            unfold denergyExpr at h'
            split at h'
            · cases h'
            · cases h'
              simp
          intro s hs
          rw [List.mem_append] at hs
          rcases hs with hs | hs
          · exact saveSteps_allowed d _ save (fun p hp => ⟨Or.inl hp, _, _, rfl, Or.inl ⟨hp, fun _ => rfl⟩⟩) s hs
          · refine denergySteps_allowed C gradSave de 0 _ (fun pre j e' h1 h2 => ⟨Or.inr ⟨pre, j, h1, ?_, by rw [Nat.zero_add]⟩,
              _, _, rfl, Or.inr ⟨pre, j, h1, by rw [Nat.zero_add], fun x => ?_⟩⟩) s hs
            · simp [h2]
            · rw [← hlen]
              exact (List.getElem?_eq_some_iff.1 h2).1
  obtain ⟨h1, h2, h3⟩ := after_between _ d (fun s hs => hall s (List.mem_of_mem_take (i := n) hs))
  refine ⟨h1, fun name g hg => ?_⟩
  rw [loads_iff] at hg ⊢
  rcases h3 name g hg.2 with h4 | h4
  · exact Or.inl ⟨hg.1, h4⟩
  · exact Or.inr h4

/-- The files that the loop of `gen_model_func` writes are those it has at the end. -/
theorem modelFuncs_content {fform : FFormContainer} (hc : fform.Good) {symbols : Option (List Sym)} {n : ℤ} {fd : FuncDict}
    {content : Dict Key Content} (h : fixedAutowrapModel S C fform symbols n = .ok (fd, content)) {key : Key × ℤ × Part}
    (hk : key ∈ funcKeys fform) {fs : List (Key × CFunc)} (hf : modelFuncs S C fform symbols n key = .ok fs) :
    ∀ p ∈ fs, Dict.get? content p.1 = some (some p.2) := by
  unfold fixedAutowrapModel at h
  obtain ⟨l, h1, h2⟩ := bind_ok h
  cases h2
  have huniq : ∀ q ∈ l.flatMap Prod.snd, ∃ key' fs', modelFuncs S C fform symbols n key' = .ok fs' ∧ q ∈ fs' := by
    intro q hq
    obtain ⟨⟨key', fs'⟩, h3, h4⟩ := List.mem_flatMap.1 hq
    obtain ⟨key'', _, h5⟩ := mapM_mem h1 h3
    obtain ⟨fs'', h6, h7⟩ := bind_ok h5
    cases h7
    exact ⟨_, _, h6, h4⟩
  have hsame : ∀ key₁ fs₁ key₂ fs₂, modelFuncs S C fform symbols n key₁ = .ok fs₁ → modelFuncs S C fform symbols n key₂ = .ok fs₂ →
      ∀ p ∈ fs₁, ∀ q ∈ fs₂, p.1 = q.1 → p.2 = q.2 := by
    intro key₁ fs₁ key₂ fs₂ h3 h4 p hp q hq hpq
    unfold modelFuncs at h3 h4
    obtain ⟨e₁, h5, h3⟩ := bind_ok h3
    obtain ⟨c₁, h6, h3⟩ := bind_ok h3
    obtain ⟨e₂, h7, h4⟩ := bind_ok h4
    obtain ⟨c₂, h8, h4⟩ := bind_ok h4
    cases h3
    cases h4
    obtain ⟨⟨x₁, i₁⟩, hx₁, rfl⟩ := List.mem_map.1 hp
    obtain ⟨⟨x₂, i₂⟩, hx₂, rfl⟩ := List.mem_map.1 hq
    obtain ⟨a1, a2, a3, a4⟩ := chunkName_inj hpq
    obtain ⟨k₁, m₁, p₁⟩ := key₁
    obtain ⟨k₂, m₂, p₂⟩ := key₂
    simp only at a1 a2 a3 a4
    subst a1 a2 a3 a4
    rw [h5] at h7
    cases h7
    rw [h6] at h8
    cases h8
    have b1 := List.mem_zipIdx_iff_getElem?.1 hx₁
    have b2 := List.mem_zipIdx_iff_getElem?.1 hx₂
    simp only at b1 b2
    rw [b1] at b2
    cases b2
    rfl
  intro p hp
  obtain ⟨i, hi, hki⟩ := List.mem_iff_getElem.1 hk
  have hpl : p ∈ l.flatMap Prod.snd := by
    obtain ⟨q, hq, hq'⟩ := mapM_mem' h1 hk
    obtain ⟨fs', h6, h7⟩ := bind_ok hq'
    cases h7
    rw [hf] at h6
    cases h6
    exact List.mem_flatMap.2 ⟨_, hq, hp⟩
  have hin : p.1 ∈ Dict.keys (Dict.ofPairs ((l.flatMap Prod.snd).map (fun p => (p.1, some p.2)))) := by
    rw [Dict.mem_keys_ofPairs]
    exact List.mem_map.2 ⟨_, List.mem_map.2 ⟨p, hpl, rfl⟩, rfl⟩
  rw [Dict.get?_ofPairs]
  cases hlast : (((l.flatMap Prod.snd).map (fun p => (p.1, some p.2))).filter (fun q => q.1 = p.1)).getLast? with
  | none =>
    exfalso
    rw [List.getLast?_eq_none_iff, List.filter_eq_nil_iff] at hlast
    exact hlast (p.1, some p.2) (List.mem_map.2 ⟨p, hpl, rfl⟩) (by simp)
  | some q =>
    have hq := List.mem_of_getLast? hlast
    rw [List.mem_filter] at hq
    obtain ⟨hq1, hq2⟩ := hq
    obtain ⟨q', hq', rfl⟩ := List.mem_map.1 hq1
    obtain ⟨key', fs', h8, h9⟩ := huniq q' hq'
    have := hsame _ _ _ _ h8 hf q' h9 p hp (by simpa using hq2)
    simp [this]

/-- C78.  When `gen_model_func` is interrupted at any point, the libraries in the folder are all old or all new; other folders
and the files are as before.  Partial: some of them may be missing, see `C78_model_broken`. -/
theorem C78_model_partial (L : Listing) {d d₁ : Disk} {fform : FFormContainer} (hc : fform.Reachable S) {folder : Key} {n : ℤ}
    {f : List ℝ → Key → ℤ → Except Err ℂ} {d' : Disk} (h : genModelFunc S C d fform folder n = .ok (f, d'))
    (hi : Interrupted d (modelTrace S C L d fform folder n) d₁) :
    OnlyFolder folder d d₁ ∧ ((∀ p g, InFolder d₁ folder p g → InFolder d folder p g) ∨
      ∀ p g, InFolder d₁ folder p g → InFolder d' folder p g) := by
  obtain ⟨i, rfl⟩ := hi
  unfold genModelFunc at h
  obtain ⟨⟨fd, content⟩, h1, h2⟩ := bind_ok h
  cases h2
  have hloop := modelLoop_steps S C (fform := fform) (symbols := none) (folder := folder) (n := n)
    (N := fun p g => Dict.get? content p = some (some g)) (funcKeys fform)
    (fun key hk fs hf p hp => modelFuncs_content S C hc.good h1 hk hf p hp)
  have hnew : ∀ p g, Dict.get? content p = some (some g) → InFolder { d with folders := Dict.set d.folders folder content } folder p g := by
    intro p g hg
    refine ⟨content, ?_, hg⟩
    show Dict.get? (Dict.set d.folders folder content) folder = _
    rw [Dict.get?_set, if_pos rfl]
  have hwhole := after_betweenFolder (N := fun p g => Dict.get? content p = some (some g)) (folder := folder)
    ((modelTrace S C L d fform folder n).steps.take i) d (fun s hs => by
      have hs := List.mem_of_mem_take hs
      change s ∈ rmtreeSteps L d folder ++ [Step.mkdir folder] ++ (modelLoop S C fform none folder n (funcKeys fform)).steps at hs
      rw [List.mem_append, List.mem_append, List.mem_singleton] at hs
      rcases hs with (hs | rfl) | hs
      · exact rmtreeSteps_folder L d folder s hs
      · rfl
      · exact hloop s hs)
  refine ⟨hwhole.1, ?_⟩
  have hsteps : (modelTrace S C L d fform folder n).steps.take i =
      (rmtreeSteps L d folder).take i ++ ([Step.mkdir folder] ++ (modelLoop S C fform none folder n (funcKeys fform)).steps).take
        (i - (rmtreeSteps L d folder).length) := by
    show (rmtreeSteps L d folder ++ [Step.mkdir folder] ++ (modelLoop S C fform none folder n (funcKeys fform)).steps).take i = _
    rw [List.append_assoc, List.take_append]
  rw [hsteps, after_append]
  by_cases hle : i ≤ (rmtreeSteps L d folder).length
  · left
    rw [Nat.sub_eq_zero_of_le hle, List.take_zero]
    have h3 := after_betweenFolder (N := fun _ _ => False) (folder := folder) ((rmtreeSteps L d folder).take i) d
      (fun s hs => rmtreeSteps_folder L d folder s (List.mem_of_mem_take hs))
    intro p g hg
    rcases h3.2.2 p g hg with h4 | h4
    · exact h4
    · exact h4.elim
  · right
    rw [List.take_of_length_le (by omega)]
    have h3 := after_betweenFolder (N := fun p g => Dict.get? content p = some (some g)) (folder := folder)
      (([Step.mkdir folder] ++ (modelLoop S C fform none folder n (funcKeys fform)).steps).take (i - (rmtreeSteps L d folder).length))
      (d.after (rmtreeSteps L d folder)) (fun s hs => by
        have hs := List.mem_of_mem_take hs
        rw [List.mem_append, List.mem_singleton] at hs
        rcases hs with rfl | hs
        · rfl
        · exact hloop s hs)
    intro p g hg
    rcases h3.2.2 p g hg with ⟨c, h4, _⟩ | h4
    · rw [rmtree_after] at h4
      cases h4
    · exact hnew p g h4

/-- Loading from an empty folder, or from none, raises nothing and gives a model that is zero. -/
theorem load_empty (L : Listing) (d : Disk) {fform : FFormContainer} (hc : fform.Good) {folder : Key}
    (hd : (Dict.get? d.folders folder).getD [] = []) :
    ∃ g, loadModelFunc L d fform folder = .ok (g, d) ∧
      ∀ k ∈ fform.getKeys, ∀ m : ℤ, -(fform.getM : ℤ) ≤ m → m ≤ fform.getM → ∀ x, g x k m = .ok 0 := by
  have hpart : ∀ key d', loadPart L folder [] key d' = .ok ([], d') := by
    intro key d'
    have : L.order [] = [] := (L.perm []).eq_nil
    unfold loadPart
    rw [this]
    rfl
  have gen : ∀ (ks : List (Key × ℤ × Part)) (acc : FuncDict), (∀ k ∈ ks, k ∉ Dict.keys acc) → ks.Nodup →
      ks.foldlM (fun (acc : FuncDict × Disk) key => do
        let (fs, d) ← loadPart L folder [] key acc.2
        return (Dict.set acc.1 key fs, d)) (acc, d) = .ok (acc ++ ks.map (fun key => (key, [])), d) := by
    intro ks
    induction ks with
    | nil => intro acc _ _; simp; rfl
    | cons k ks ih =>
      intro acc h1 h2
      rw [List.foldlM_cons, hpart]
      show ks.foldlM _ (Dict.set acc k [], d) = _
      rw [Dict.set_of_notMem (h1 k (by simp)), ih]
      · simp
      · intro k' hk' hcon
        unfold Dict.keys at hcon
        rw [List.map_append, List.mem_append] at hcon
        rcases hcon with hcon | hcon
        · exact h1 k' (by simp [hk']) hcon
        · simp [Dict.keys] at hcon
          rw [hcon] at hk'
          exact (List.nodup_cons.1 h2).1 hk'
      · exact (List.nodup_cons.1 h2).2
  have hload : loadFuncDict L d fform folder = .ok ((funcKeys fform).map (fun key => (key, [])), d) := by
    unfold loadFuncDict
    rw [hd]
    simpa using gen (funcKeys fform) [] (by simp [Dict.keys]) (funcKeys_nodup hc)
  refine ⟨modelFunc ((funcKeys fform).map (fun key => (key, []))), ?_, ?_⟩
  · unfold loadModelFunc
    rw [hload]
    rfl
  · intro k hk m h1 h2 x
    unfold modelFunc
    rw [get_funcDict (funcKeys_nodup hc) (fun _ => []) (mem_funcKeys.2 ⟨hk, h1, h2⟩), ok_bind,
      get_funcDict (funcKeys_nodup hc) (fun _ => []) (mem_funcKeys.2 ⟨hk, h1, h2⟩), ok_bind]
    simp
    rfl

/-- C78 fails for models: `gen_model_func` can be interrupted so that a new process loads a model from the folder without any
error, and the model is zero, whatever the formula and whatever was in the folder before. -/
theorem C78_interrupted_model (L : Listing) (d : Disk) {fform : FFormContainer} (hc : fform.Reachable S) (folder : Key) (n : ℤ) :
    ∃ d₁ g d₂, Interrupted d (modelTrace S C L d fform folder n) d₁ ∧ loadModelFunc L d₁.restart fform folder = .ok (g, d₂) ∧
      ∀ k ∈ fform.getKeys, ∀ m : ℤ, -(fform.getM : ℤ) ≤ m → m ≤ fform.getM → ∀ x, g x k m = .ok 0 := by
  have hd : (Dict.get? (d.after (rmtreeSteps L d folder)).restart.folders folder).getD [] = [] := by
    show (Dict.get? (d.after (rmtreeSteps L d folder)).folders folder).getD [] = []
    rw [rmtree_after]
    rfl
  obtain ⟨g, h1, h2⟩ := load_empty L _ hc.good hd
  refine ⟨_, g, _, ⟨(rmtreeSteps L d folder).length, ?_⟩, h1, h2⟩
  show _ = d.after ((rmtreeSteps L d folder ++ [Step.mkdir folder] ++ _).take _)
  rw [List.append_assoc, List.take_left']
  rfl

/-- C78 fails for gradients: when the generation of a cost function with gradient is interrupted after the cost function has
been saved, a new process loads the new cost function together with the old gradient. -/
theorem C78_interrupted_gradient {d : Disk} {fform : FFormContainer} {fdat : FDataContainer} {l : List Sym} {name pre : Key}
    (hslash : '/' ∈ name) (hslash' : '/' ∈ pre) (hne : ∀ i, gradName pre i ≠ name) {gs : List CFunc}
    (hold : ∀ i g, gs[i]? = some g → Dict.get? d.files (gradName pre i) = some (some g))
    (hend : Dict.get? d.files (gradName pre gs.length) = none) {f : CGrad} {d' : Disk}
    (h : energyAndDenergy S C d fform fdat l false (some name) (some pre) = .ok (f, d')) :
    ∃ d₁ g d₂, Interrupted d (gradTrace S C d fform fdat l false (some name) (some pre)) d₁ ∧
      loadEnergyAndDenergy d₁.restart name pre = .ok (g, d₂) ∧ ∀ x, g x = ((f x).1, gs.map (fun q => q x)) := by
  unfold energyAndDenergy at h
  simp only [Bool.false_eq_true, if_false] at h
  obtain ⟨e, h1, h⟩ := bind_ok h
  obtain ⟨de, h2, h⟩ := bind_ok h
  simp only [fixedAutowrap, denergyFuncs_fst] at h
  cases h
  have hs := (saveSteps_after d (C.run e) (some name)).1
  set d₁ := d.after (saveSteps d (C.run e) (some name)) with hd₁
  have hfile : Dict.get? d₁.files name = some (some (C.run e)) := by
    rw [hs.1, save_get, if_pos rfl]
  have hother : ∀ i, Dict.get? d₁.files (gradName pre i) = Dict.get? d.files (gradName pre i) := by
    intro i
    rw [hs.1, save_get, if_neg (fun h => hne i h.symm)]
  obtain ⟨d2, h3, h4, h5, h6, h7⟩ := dlopen_ok (d := d₁.restart) (f := C.run e) hslash (Or.inl rfl)
  have hfuel : gs.length < d2.files.length + 1 := by
    rw [h4]
    refine Nat.lt_succ_of_le (files_length (name := gradName pre) (fun i j h => gradName_inj h) (fun i hi => ?_))
    show (Dict.get? d₁.files (gradName pre i)).isSome
    rw [hother, hold i gs[i] (List.getElem?_eq_getElem hi)]
    rfl
  obtain ⟨d3, h8⟩ := loadGrads_ok pre hslash' gs (d2.files.length + 1) 0 d2 hfuel
    (fun j g hj => by
      rw [h4, Nat.zero_add]
      show Dict.get? d₁.files _ = _
      rw [hother]
      exact hold j g hj)
    (by
      rw [h4, Nat.zero_add]
      show Dict.get? d₁.files _ = _
      rw [hother]
      exact hend)
    (fun j hj => by
      rw [h7 _ (hne _)]
      rfl)
  refine ⟨d₁, _, d3, ⟨(saveSteps d (C.run e) (some name)).length, ?_⟩, ?_, fun x => rfl⟩
  · unfold gradTrace
    simp only [Bool.false_eq_true, if_false]
    rw [h1]
    simp only
    rw [h2]
    simp only
    rw [List.take_left']
    rfl
  · unfold loadEnergyAndDenergy loadFunc
    have : Dict.get? d₁.restart.files name = some (some (C.run e)) := hfile
    rw [this, h3, ok_bind]
    simp only
    rw [h8]
    rfl

/-! ## C79: calls that raise -/

/-- C79.  When `gen_cost_func` raises, the files are as before.  Partial: not for chunks of a container without combinations,
see `C79_chunks_broken`. -/
theorem C79_cost_partial {d : Disk} {fform : FFormContainer} {fdat : FDataContainer} {arguments : Option (List Sym)} {chunk : Bool}
    {save : Option Key} (hk : chunk = false ∨ fform.getKeys ≠ []) {e : Err}
    (h : (costTrace S C d fform fdat arguments chunk save).result = .error e) :
    SameFiles d (d.after (costTrace S C d fform fdat arguments chunk save).steps) := by
  unfold costTrace at h ⊢
  cases chunk with
  | true =>
    simp only [if_true] at h ⊢
    cases hl : energyExprList S fform fdat arguments with
    | error e => exact .refl _
    | ok l =>
      rw [hl] at h
      cases l with
      | nil =>
        exfalso
        rcases hk with hk | hk
        · cases hk
        unfold energyExprList at hl
        obtain ⟨ss, _, hl⟩ := bind_ok hl
        obtain ⟨ls, h1, hl⟩ := bind_ok hl
        have hl := Except.ok.inj hl
        obtain ⟨k, hk⟩ := List.exists_mem_of_ne_nil _ hk
        obtain ⟨b, hb, h2⟩ := mapM_mem' h1 hk
        have h3 := List.flatten_eq_nil_iff.1 hl b hb
        subst h3
        have h4 : (0 : ℤ) ∈ freqs fform.getM := by
          rw [mem_freqs]
          omega
        obtain ⟨c, hc, _⟩ := mapM_mem' h2 h4
        cases hc
      | cons e r => cases h
  | false =>
    simp only [Bool.false_eq_true, if_false] at h ⊢
    cases hl : energyExpr S fform fdat arguments with
    | error e => exact .refl _
    | ok l =>
      rw [hl] at h
      cases h

/-- C79.  When the generation of a cost function with gradient raises, the files are as before. -/
theorem C79_gradient {d : Disk} {fform : FFormContainer} {fdat : FDataContainer} {l : List Sym} {chunk : Bool}
    {save gradSave : Option Key} {e : Err} (h : (gradTrace S C d fform fdat l chunk save gradSave).result = .error e) :
    SameFiles d (d.after (gradTrace S C d fform fdat l chunk save gradSave).steps) := by
  unfold gradTrace at h ⊢
  cases chunk with
  | true => exact .refl _
  | false =>
    simp only [Bool.false_eq_true, if_false] at h ⊢
    cases h1 : energyExpr S fform fdat (some l) with
    | error e => exact .refl _
    | ok e =>
      rw [h1] at h
      simp only at h ⊢
      cases h2 : denergyExpr S l.length e with
      | error e => exact .refl _
      | ok de =>
        rw [h2] at h
        cases h

/-- C79 fails for models: `gen_model_func` removes the folder first.  When the first component raises, the folder is there, but
empty, whatever was in it before. -/
theorem C79_model_lost (L : Listing) (d : Disk) {fform : FFormContainer} {folder : Key} {n : ℤ} {key : Key × ℤ × Part}
    {keys : List (Key × ℤ × Part)} (hk : funcKeys fform = key :: keys) {e : Err}
    (he : modelFuncs S C fform none n key = .error e) :
    (modelTrace S C L d fform folder n).result = .error e ∧
      Dict.get? (d.after (modelTrace S C L d fform folder n).steps).folders folder = some [] := by
  have hloop : modelLoop S C fform none folder n (key :: keys) = ⟨[], .error e⟩ := by
    unfold modelLoop
    rw [he]
  unfold modelTrace
  rw [hk, hloop]
  refine ⟨rfl, ?_⟩
  simp only
  rw [List.append_nil, after_append]
  show Dict.get? (Dict.set _ folder []) folder = _
  rw [Dict.get?_set, if_pos rfl]

end

/-! ## Concrete cases -/

namespace FitCases

/-- C78 fails: a model is generated and saved; generating it again into the same folder is interrupted; a new process loads a
model from the folder without any error, and the value of the model is wrong. -/
theorem C78_model_broken (L : Listing) : ∃ f d d₁ g d₂, genModelFunc Sympy.plain compiler noFiles formula ['m'] 10 = .ok (f, d) ∧
    Interrupted d (modelTrace Sympy.plain compiler L d formula ['m'] 10) d₁ ∧
    loadModelFunc L d₁.restart formula ['m'] = .ok (g, d₂) ∧ f [1, 1] kPP 0 = .ok 1 ∧ g [1, 1] kPP 0 = .ok 0 := by
  obtain ⟨f, d, h1, h2, _⟩ := C58_model Sympy.plain compiler noFiles formula_reachable real_symbols free_symbols formulaIs ['m']
    (n := 10) (by norm_num)
  obtain ⟨d₁, g, d₂, h3, h4, h5⟩ := C78_interrupted_model Sympy.plain compiler L d formula_reachable ['m'] 10
  refine ⟨f, d, d₁, g, d₂, h1, h3, h4, ?_, h5 kPP (by decide) 0 (by decide) (by decide) _⟩
  have := h2 kPP (by decide) 0 (by decide) (by decide) (fun _ => 1) []
  simpa [F, realVal] using this

theorem misfit0_eq (r : Sym → ℝ) : misfit formula.getKeys formula.getM F (fun _ _ => 0) r = 2 * r symB ^ 2 + r symA ^ 2 := by
  have h : Finset.Icc (-((1 : ℕ) : ℤ)) (1 : ℕ) = {-1, 0, 1} := by decide
  simp only [misfit, formula, FFormContainer.getKeys, FFormContainer.getM, Dict.keys, List.map_cons, List.map_nil, List.sum_cons,
    List.sum_nil, add_zero, h]
  rw [Finset.sum_insert (by decide), Finset.sum_insert (by decide), Finset.sum_singleton]
  simp only [F, realVal]
  norm_num
  ring

theorem not_constant0 : misfit formula.getKeys formula.getM F (fun _ _ => 0) (fun _ => 0) ≠
    misfit formula.getKeys formula.getM F (fun _ _ => 0) (fun _ => 1) := by
  rw [misfit0_eq, misfit0_eq]
  norm_num

theorem saved_gradient (S : Sympy) (C : Compiler) {d : Disk} {fform : FFormContainer} {fdat : FDataContainer} {l : List Sym}
    {name pre : Key} {f : CGrad} {d' : Disk} (h : energyAndDenergy S C d fform fdat l false (some name) (some pre) = .ok (f, d')) :
    ∃ gs : List CFunc, gs.length = l.length ∧ (∀ i g, gs[i]? = some g → Dict.get? d'.files (gradName pre i) = some (some g)) ∧
      ∀ x, (f x).2 = gs.map (fun q => q x) := by
  unfold energyAndDenergy at h
  simp only [Bool.false_eq_true, if_false] at h
  obtain ⟨e, h1, h⟩ := bind_ok h
  obtain ⟨de, h2, h⟩ := bind_ok h
  simp only [fixedAutowrap, denergyFuncs_fst] at h
  cases h
  refine ⟨de.map C.run, ?_, fun i g hg => ?_, fun x => rfl⟩
  · unfold denergyExpr at h2
    split at h2
    · cases h2
    · cases h2
      simp
  · rw [List.getElem?_map, Option.map_eq_some_iff] at hg
    obtain ⟨e', he', rfl⟩ := hg
    have := (denergyFuncs_disk C pre de 0 (d.save (C.run e) (some name))).2.2 i e' he'
    rwa [Nat.zero_add] at this

theorem gradient_two {g : (Sym → ℝ) → ℝ} {r : Sym → ℝ} {v : List ℝ} (h : IsGradient [symA, symB] g r v) {a b : ℝ}
    (ha : HasDerivAt (fun t => g (Function.update r symA t)) a (r symA))
    (hb : HasDerivAt (fun t => g (Function.update r symB t)) b (r symB)) : v = [a, b] := by
  obtain ⟨h1, h2⟩ := h
  obtain ⟨y, h3, h4⟩ := h2 0 symA rfl
  obtain ⟨z, h5, h6⟩ := h2 1 symB rfl
  match v, h1 with
  | [p, q], _ =>
    cases h3
    cases h5
    rw [h4.unique ha, h6.unique hb]

/-- C78 fails: the cost function and the gradient for some data are saved; saving those for other data to the same files is
interrupted; a new process loads a cost function that is zero at its minimum, with a gradient that is not. -/
theorem C78_gradient_broken : ∃ f₀ d f d' d₁ g d₂,
    energyAndDenergy Sympy.plain compiler noFiles formula data0 [symA, symB] false (some ['.', '/', 'c']) (some pre) = .ok (f₀, d) ∧
    energyAndDenergy Sympy.plain compiler d formula data [symA, symB] false (some ['.', '/', 'c']) (some pre) = .ok (f, d') ∧
    Interrupted d (gradTrace Sympy.plain compiler d formula data [symA, symB] false (some ['.', '/', 'c']) (some pre)) d₁ ∧
    loadEnergyAndDenergy d₁.restart ['.', '/', 'c'] pre = .ok (g, d₂) ∧ f [2, 1] = (0, [0, 0]) ∧ g [2, 1] = (0, [4, 4]) := by
  have hl := (getFreeSymbols_lists formula_reachable.good free_symbols).2
  obtain ⟨f₀, d, h1, h2⟩ := C70_gradient Sympy.plain compiler noFiles formula_reachable real_symbols hl (fdat := data0) rfl
    formulaIs dataIs0 not_constant0 (some ['.', '/', 'c']) (some pre)
  obtain ⟨f, d', h3, h4⟩ := C70_gradient Sympy.plain compiler d formula_reachable real_symbols hl rfl
    formulaIs dataIs not_constant (some ['.', '/', 'c']) (some pre)
  have hne : ∀ i, gradName pre i ≠ ['.', '/', 'c'] := by
    intro i h
    have := congrArg (fun l => l[2]?) h
    simp [gradName, pre] at this
  obtain ⟨gs, k1, k2, k3⟩ := saved_gradient Sympy.plain compiler h1
  have hend : Dict.get? d.files (gradName pre gs.length) = none := by
    rw [(C75_gradient Sympy.plain compiler _ h1).1.1 _ ?_]
    · rfl
    · rintro (h | ⟨pre', i, h5, h6, h7⟩)
      · exact hne _ (Option.some.inj h).symm
      · cases h5
        have := gradName_inj h7
        omega
  obtain ⟨d₁, g, d₂, k4, k5, k6⟩ := C78_interrupted_gradient Sympy.plain compiler (by simp) (by simp [pre]) hne k2 hend h3
  have hr : [symA, symB].map (fun s => if s = symA then (2 : ℝ) else 1) = [2, 1] := by simp [symA, symB]
  have hAB : symA ≠ symB := by decide
  have e1 := h2 (fun s => if s = symA then 2 else 1)
  have e2 := h4 (fun s => if s = symA then 2 else 1)
  rw [hr] at e1 e2
  have v1 : (f₀ [2, 1]).2 = [4, 4] := by
    refine gradient_two e1.2 ?_ ?_
    · simp only [misfit0_eq, Function.update_self, Function.update_of_ne hAB.symm, if_true]
      have h : HasDerivAt (fun t : ℝ => 2 * (1 : ℝ) ^ 2 + t ^ 2) (2 * 2) 2 := by
        simpa using (hasDerivAt_pow 2 (2 : ℝ)).const_add (2 * (1 : ℝ) ^ 2)
      norm_num at h ⊢
      simpa [hAB.symm] using h
    · simp only [misfit0_eq, Function.update_self, Function.update_of_ne hAB, if_true, if_neg hAB.symm]
      have h : HasDerivAt (fun t : ℝ => 2 * t ^ 2 + (2 : ℝ) ^ 2) (2 * (2 * 1)) 1 := by
        simpa using ((hasDerivAt_pow 2 (1 : ℝ)).const_mul 2).add_const ((2 : ℝ) ^ 2)
      norm_num at h ⊢
      exact h
  have v2 : (f [2, 1]).2 = [0, 0] := by
    refine gradient_two e2.2 ?_ ?_
    · simp only [misfit_eq, Function.update_self, Function.update_of_ne hAB.symm, if_true, if_neg hAB.symm]
      have h : HasDerivAt (fun t : ℝ => 2 * ((1 : ℝ) - 1) ^ 2 + (t - 2) ^ 2) (2 * (2 - 2)) 2 := by
        simpa using (((hasDerivAt_id (2 : ℝ)).sub_const 2).pow 2).const_add (2 * ((1 : ℝ) - 1) ^ 2)
      norm_num at h ⊢
      exact h
    · simp only [misfit_eq, Function.update_self, Function.update_of_ne hAB, if_true, if_neg hAB.symm]
      have h : HasDerivAt (fun t : ℝ => 2 * (t - 1) ^ 2 + ((2 : ℝ) - 2) ^ 2) (2 * (2 * (1 - 1))) 1 := by
        simpa using ((((hasDerivAt_id (1 : ℝ)).sub_const 1).pow 2).const_mul 2).add_const (((2 : ℝ) - 2) ^ 2)
      norm_num at h ⊢
      exact h
  have v3 : (f [2, 1]).1 = 0 := by
    rw [e2.1, misfit_eq]
    simp [hAB.symm]
  refine ⟨f₀, d, f, d', d₁, g, d₂, h1, h3, k4, k5, Prod.ext v3 v2, ?_⟩
  rw [k6, v3, ← k3, v1]

/-- A container without combinations. -/
def emptyFormula : FFormContainer := ⟨[], 1⟩

/-- C79 fails: with chunks, a container without combinations and a file that exists, the call raises and the file is lost. -/
theorem C79_chunks_broken (S : Sympy) (C : Compiler) (f : CFunc) : emptyFormula.Reachable S ∧
    Loads ⟨[(['.', '/', 'c'], some f)], [], []⟩ ['.', '/', 'c'] f ∧
    (costTrace S C ⟨[(['.', '/', 'c'], some f)], [], []⟩ emptyFormula data none true (some ['.', '/', 'c'])).result =
      .error .fileNotFoundError ∧
    Dict.get? (Disk.after ⟨[(['.', '/', 'c'], some f)], [], []⟩
      (costTrace S C ⟨[(['.', '/', 'c'], some f)], [], []⟩ emptyFormula data none true (some ['.', '/', 'c'])).steps).files
      ['.', '/', 'c'] = none := by
  refine ⟨⟨[], 1, _, [], rfl, rfl⟩, loads_iff.2 ⟨by simp, by simp [Dict.get?]⟩, rfl, rfl⟩

/-- A formula with numbers only. -/
def numericFormula : FFormContainer := ⟨[(kPP, .native [(1, 0), (0, 0), (1, 0)])], 1⟩

/-- C79 fails: a model is generated and saved; generating a model from a formula with numbers only into the same folder
raises, and the folder is empty: a new process loads zero from it for the first formula. -/
theorem C79_model_broken (L : Listing) : ∃ f d g d₂, genModelFunc Sympy.plain compiler noFiles formula ['m'] 10 = .ok (f, d) ∧
    numericFormula.Reachable Sympy.plain ∧
    (modelTrace Sympy.plain compiler L d numericFormula ['m'] 10).result = .error .attributeError ∧
    loadModelFunc L (d.after (modelTrace Sympy.plain compiler L d numericFormula ['m'] 10).steps).restart formula ['m'] = .ok (g, d₂) ∧
    f [1, 1] kPP 0 = .ok 1 ∧ g [1, 1] kPP 0 = .ok 0 := by
  obtain ⟨f, d, h1, h2, _⟩ := C58_model Sympy.plain compiler noFiles formula_reachable real_symbols free_symbols formulaIs ['m']
    (n := 10) (by norm_num)
  obtain ⟨h3, h4⟩ := C79_model_lost Sympy.plain compiler L d (fform := numericFormula) (folder := ['m']) (n := 10)
    (key := (kPP, -1, .real)) (keys := (funcKeys numericFormula).tail) rfl (e := .attributeError) rfl
  obtain ⟨g, h5, h6⟩ := load_empty L (d.after (modelTrace Sympy.plain compiler L d numericFormula ['m'] 10).steps).restart
    formula_reachable.good (folder := ['m']) (by
      show (Dict.get? (d.after _).folders ['m']).getD [] = []
      rw [h4]
      rfl)
  refine ⟨f, d, g, _, h1, ⟨[(.str kPP, .objArr [.native 1 0, .native 0 0, .native 1 0])], 1, _, [], rfl, rfl⟩, h3, h5, ?_,
    h6 kPP (by decide) 0 (by decide) (by decide) _⟩
  have := h2 kPP (by decide) 0 (by decide) (by decide) (fun _ => 1) []
  simpa [F, realVal] using this

/-- The hypotheses on interrupted calls are met: saving over an old file, interrupted after the old file has been removed. -/
example (old : CFunc) : ∃ d₁, Interrupted ⟨[(['.', '/', 'c'], some old)], [], []⟩ (costTrace Sympy.plain compiler
      ⟨[(['.', '/', 'c'], some old)], [], []⟩ formula data none false (some ['.', '/', 'c'])) d₁ ∧
    Loads ⟨[(['.', '/', 'c'], some old)], [], []⟩ ['.', '/', 'c'] old ∧ ∀ g, ¬ Loads d₁ ['.', '/', 'c'] g := by
  obtain ⟨f, d', h1, h2⟩ := C57_cost Sympy.plain compiler ⟨[(['.', '/', 'c'], some old)], [], []⟩ formula_reachable
    (Or.inr ⟨rfl, free_symbols⟩) rfl formulaIs dataIs false (by simp) (some ['.', '/', 'c'])
  refine ⟨_, ⟨1, rfl⟩, loads_iff.2 ⟨by simp, by simp [Dict.get?]⟩, fun g hg => ?_⟩
  have h3 := (loads_iff.1 hg).2
  unfold genCostFunc at h1
  simp only [Bool.false_eq_true, if_false] at h1
  obtain ⟨e, h4, h5⟩ := bind_ok h1
  have h6 : (costTrace Sympy.plain compiler ⟨[(['.', '/', 'c'], some old)], [], []⟩ formula data none false
      (some ['.', '/', 'c'])).steps.take 1 = [.unlink ['.', '/', 'c']] := by
    unfold costTrace
    simp only [Bool.false_eq_true, if_false]
    rw [h4]
    rfl
  rw [h6] at h3
  cases h3

/-- The hypotheses on interrupted models are met. -/
example (L : Listing) : ∃ f d f' d' d₁, genModelFunc Sympy.plain compiler noFiles formula ['m'] 10 = .ok (f, d) ∧
    genModelFunc Sympy.plain compiler d formula ['m'] 1 = .ok (f', d') ∧
    Interrupted d (modelTrace Sympy.plain compiler L d formula ['m'] 1) d₁ ∧
    ((∀ p g, InFolder d₁ ['m'] p g → InFolder d ['m'] p g) ∨ ∀ p g, InFolder d₁ ['m'] p g → InFolder d' ['m'] p g) := by
  obtain ⟨f, d, h1, _⟩ := C58_model Sympy.plain compiler noFiles formula_reachable real_symbols free_symbols formulaIs ['m']
    (n := 10) (by norm_num)
  obtain ⟨f', d', h2, _⟩ := C58_model Sympy.plain compiler d formula_reachable real_symbols free_symbols formulaIs ['m']
    (n := 1) (by norm_num)
  exact ⟨f, d, f', d', _, h1, h2, ⟨17, rfl⟩, (C78_model_partial Sympy.plain compiler L formula_reachable h2 ⟨17, rfl⟩).2⟩

/-- The hypotheses on calls that raise are met. -/
example (save gradSave : Option Key) (d : Disk) :
    (costTrace Sympy.plain compiler d numericFormula data none true save).result = .error .attributeError ∧
    (gradTrace Sympy.plain compiler d formula data [symA, symB] true save gradSave).result = .error .notImplementedError :=
  ⟨rfl, rfl⟩

end FitCases

end Shgpy
