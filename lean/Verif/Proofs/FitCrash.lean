import Verif.Spec.Crash
import Verif.Props.FFormFit2

/-!
# Lemmas on interrupted calls
-/

set_option linter.unusedSectionVars false
set_option linter.unusedSimpArgs false
set_option linter.unusedVariables false

namespace Shgpy
open Spec

theorem Dict.get?_erase {κ : Type} [DecidableEq κ] {α : Type} (d : Dict κ α) (k k' : κ) :
    Dict.get? (Dict.erase d k) k' = if k = k' then none else Dict.get? d k' := by
  induction d with
  | nil => simp [Dict.erase, Dict.get?]
  | cons p d ih =>
    obtain ⟨k₀, v₀⟩ := p
    unfold Dict.erase at ih ⊢
    rw [List.filter_cons]
    by_cases h : k₀ = k
    · subst h
      simp only [ne_eq, not_true_eq_false, decide_false, Bool.false_eq_true, if_false, ih, Dict.get?]
      split <;> rfl
    · simp only [ne_eq, h, not_false_eq_true, decide_true, if_true, Dict.get?, ih]
      split
      · next h' => subst h'; rw [if_neg (fun h' => h h'.symm)]
      · rfl

theorem Dict.set_set {κ : Type} [DecidableEq κ] {α : Type} (d : Dict κ α) (k : κ) (v w : α) :
    Dict.set (Dict.set d k v) k w = Dict.set d k w := by
  induction d with
  | nil => simp [Dict.set]
  | cons p d ih =>
    obtain ⟨k₀, v₀⟩ := p
    simp only [Dict.set]
    split
    · simp [Dict.set]
    · next h => simp [Dict.set, h, ih]

theorem after_append (d : Disk) (l l' : List Step) : d.after (l ++ l') = (d.after l).after l' := by
  unfold Disk.after
  rw [List.foldl_append]

/-- A step on files that removes a file, begins a file, or completes a file with a function allowed by `N`. -/
def Allowed (N : Key → CFunc → Prop) (names : Key → Prop) : Step → Prop
  | .unlink p => names p
  | .write p none => names p
  | .write p (some f) => names p ∧ N p f
  | _ => False

/-- Files between the old and the new state. -/
def Between (N : Key → CFunc → Prop) (names : Key → Prop) (d d' : Disk) : Prop :=
  OnlyFiles names d d' ∧ d'.loaded = d.loaded ∧ ∀ p f, Dict.get? d'.files p = some (some f) → Dict.get? d.files p = some (some f) ∨ N p f

theorem step_between {N : Key → CFunc → Prop} {names : Key → Prop} (d : Disk) {s : Step} (h : Allowed N names s) :
    Between N names d (d.step s) := by
  cases s with
  | unlink q =>
    refine ⟨⟨fun p hp => ?_, fun _ => rfl⟩, rfl, fun p f hf => ?_⟩
    · show Dict.get? (Dict.erase d.files q) p = _
      rw [Dict.get?_erase, if_neg (fun (e : q = p) => hp (e ▸ h))]
    · change Dict.get? (Dict.erase d.files q) p = _ at hf
      rw [Dict.get?_erase] at hf
      split at hf
      · cases hf
      · exact Or.inl hf
  | write q c =>
    have hq : names q := by
      cases c with
      | none => exact h
      | some f => exact h.1
    refine ⟨⟨fun p hp => ?_, fun _ => rfl⟩, rfl, fun p f hf => ?_⟩
    · show Dict.get? (Dict.set d.files q c) p = _
      rw [Dict.get?_set, if_neg (fun (e : q = p) => hp (e ▸ hq))]
    · change Dict.get? (Dict.set d.files q c) p = _ at hf
      rw [Dict.get?_set] at hf
      split at hf
      · next e =>
        subst e
        cases hf
        exact Or.inr h.2
      · exact Or.inl hf
  | _ => cases h

theorem after_between {N : Key → CFunc → Prop} {names : Key → Prop} : ∀ (l : List Step) (d : Disk), (∀ s ∈ l, Allowed N names s) →
    Between N names d (d.after l)
  | [], d, _ => ⟨.refl _ _, rfl, fun _ _ h => Or.inl h⟩
  | s :: l, d, h => by
      have h1 := step_between d (h s (by simp))
      have h2 := after_between l (d.step s) (fun s' hs' => h s' (by simp [hs']))
      refine ⟨h1.1.trans h2.1, h2.2.1.trans h1.2.1, fun p f hf => ?_⟩
      rcases h2.2.2 p f hf with h3 | h3
      · exact h1.2.2 p f h3
      · exact Or.inr h3

theorem unlinkSteps_allowed {N : Key → CFunc → Prop} {names : Key → Prop} (d : Disk) (save : Option Key)
    (hn : ∀ p, save = some p → names p) : ∀ s ∈ unlinkSteps d save, Allowed N names s := by
  intro s hs
  unfold unlinkSteps at hs
  cases save with
  | none => cases hs
  | some name =>
    simp only at hs
    split at hs
    · rw [List.mem_singleton.1 hs]
      exact hn _ rfl
    · cases hs

theorem saveSteps_allowed {N : Key → CFunc → Prop} {names : Key → Prop} (d : Disk) (f : CFunc) (save : Option Key)
    (hn : ∀ p, save = some p → names p ∧ N p f) : ∀ s ∈ saveSteps d f save, Allowed N names s := by
  intro s hs
  unfold saveSteps at hs
  cases save with
  | none => cases hs
  | some name =>
    simp only [List.mem_append, List.mem_cons, List.not_mem_nil, or_false] at hs
    rcases hs with hs | rfl | rfl
    · exact unlinkSteps_allowed d (some name) (fun p hp => (hn p hp).1) s hs
    · exact (hn _ rfl).1
    · exact hn _ rfl

/-- All steps of saving together are what `Disk.save` does. -/
theorem saveSteps_after (d : Disk) (f : CFunc) (save : Option Key) :
    SameFiles (d.save f save) (d.after (saveSteps d f save)) ∧ (d.after (saveSteps d f save)).loaded = (d.save f save).loaded := by
  cases save with
  | none => exact ⟨⟨fun _ => rfl, fun _ => rfl⟩, rfl⟩
  | some name =>
    unfold saveSteps unlinkSteps
    simp only
    split
    · refine ⟨⟨fun p => ?_, fun _ => rfl⟩, rfl⟩
      show Dict.get? (Dict.set (Dict.set (Dict.erase d.files name) name none) name (some f)) p = Dict.get? (Dict.set d.files name (some f)) p
      rw [Dict.set_set, Dict.get?_set, Dict.get?_set, Dict.get?_erase]
      split <;> rfl
    · refine ⟨⟨fun p => ?_, fun _ => rfl⟩, rfl⟩
      show Dict.get? (Dict.set (Dict.set d.files name none) name (some f)) p = Dict.get? (Dict.set d.files name (some f)) p
      rw [Dict.set_set]

theorem Spec.SameFiles.refl (d : Disk) : SameFiles d d := ⟨fun _ => rfl, fun _ => rfl⟩

theorem Spec.SameFiles.trans {d d' d'' : Disk} (h : SameFiles d d') (h' : SameFiles d' d'') : SameFiles d d'' :=
  ⟨fun p => (h'.1 p).trans (h.1 p), fun p => (h'.2 p).trans (h.2 p)⟩

theorem sameFiles_save {d d' : Disk} (h : SameFiles d d') (f : CFunc) (save : Option Key) : SameFiles (d.save f save) (d'.save f save) := by
  cases save with
  | none => exact h
  | some name =>
    refine ⟨fun p => ?_, h.2⟩
    rw [save_get, save_get, h.1]

theorem sameFiles_denergy (C : Compiler) (save : Option Key) : ∀ (es : List Expr) (i : ℕ) {d d' : Disk}, SameFiles d d' →
    SameFiles (denergyFuncs C save es i d).2 (denergyFuncs C save es i d').2
  | [], i, d, d', h => h
  | e :: r, i, d, d', h => by
      have h1 := sameFiles_denergy C save r (i + 1) (sameFiles_save h (C.run e) (save.map (fun p => gradName p i)))
      exact h1

theorem denergySteps_after (C : Compiler) (save : Option Key) : ∀ (es : List Expr) (i : ℕ) (d : Disk),
    SameFiles (denergyFuncs C save es i d).2 (d.after (denergySteps C save es i d))
  | [], i, d => .refl _
  | e :: r, i, d => by
      show SameFiles _ (d.after (saveSteps d (C.run e) (save.map (fun p => gradName p i)) ++ denergySteps C save r (i + 1) _))
      rw [after_append]
      refine Spec.SameFiles.trans ?_ (denergySteps_after C save r (i + 1) _)
      exact sameFiles_denergy C save r (i + 1) (saveSteps_after d (C.run e) _).1

theorem denergySteps_allowed (C : Compiler) {N : Key → CFunc → Prop} {names : Key → Prop} (save : Option Key) :
    ∀ (es : List Expr) (i : ℕ) (d : Disk), (∀ pre j e, save = some pre → es[j]? = some e →
      names (gradName pre (i + j)) ∧ N (gradName pre (i + j)) (C.run e)) →
    ∀ s ∈ denergySteps C save es i d, Allowed N names s
  | [], i, d, _, s, hs => by cases hs
  | e :: r, i, d, h, s, hs => by
      change s ∈ saveSteps d (C.run e) (save.map (fun p => gradName p i)) ++ denergySteps C save r (i + 1) _ at hs
      rw [List.mem_append] at hs
      rcases hs with hs | hs
      · refine saveSteps_allowed d (C.run e) _ (fun p hp => ?_) s hs
        cases save with
        | none => cases hp
        | some pre =>
          simp only [Option.map_some, Option.some.injEq] at hp
          subst hp
          exact h pre 0 e rfl rfl
      · refine denergySteps_allowed C save r (i + 1) _ (fun pre j e' h1 h2 => ?_) s hs
        have := h pre (j + 1) e' h1 (by simpa using h2)
        rw [show i + (j + 1) = i + 1 + j by omega] at this
        exact this

/-! ## Folders -/

/-- Steps in one folder. -/
def InFolderStep (N : Key → CFunc → Prop) (folder : Key) : Step → Prop
  | .unlinkIn fo _ => fo = folder
  | .rmdir fo => fo = folder
  | .mkdir fo => fo = folder
  | .writeIn fo _ none => fo = folder
  | .writeIn fo name (some f) => fo = folder ∧ N name f
  | _ => False

/-- Folders between the old and the new state. -/
def BetweenFolder (N : Key → CFunc → Prop) (folder : Key) (d d' : Disk) : Prop :=
  OnlyFolder folder d d' ∧ d'.loaded = d.loaded ∧ ∀ p f, InFolder d' folder p f → InFolder d folder p f ∨ N p f

theorem step_betweenFolder {N : Key → CFunc → Prop} {folder : Key} (d : Disk) {s : Step} (h : InFolderStep N folder s) :
    BetweenFolder N folder d (d.step s) := by
  have hset : ∀ (c : Dict Key Content), (∀ p f, Dict.get? c p = some (some f) → InFolder d folder p f ∨ N p f) →
      BetweenFolder N folder d { d with folders := Dict.set d.folders folder c } := by
    intro c hc
    refine ⟨⟨fun _ => rfl, fun p hp => ?_⟩, rfl, ?_⟩
    · show Dict.get? (Dict.set d.folders folder c) p = _
      rw [Dict.get?_set, if_neg (fun e => hp e.symm)]
    · rintro p f ⟨content, h1, h2⟩
      change Dict.get? (Dict.set d.folders folder c) folder = _ at h1
      rw [Dict.get?_set, if_pos rfl] at h1
      cases h1
      exact hc p f h2
  have hin : ∀ p f, Dict.get? ((Dict.get? d.folders folder).getD []) p = some (some f) → InFolder d folder p f := by
    intro p f hf
    cases hd : Dict.get? d.folders folder with
    | none => rw [hd] at hf; simp [Dict.get?] at hf
    | some c => rw [hd] at hf; exact ⟨c, hd, hf⟩
  cases s with
  | unlinkIn fo name =>
    obtain rfl : fo = folder := h
    refine hset _ (fun p f hf => ?_)
    rw [Dict.get?_erase] at hf
    split at hf
    · cases hf
    · exact Or.inl (hin p f hf)
  | rmdir fo =>
    obtain rfl : fo = folder := h
    refine ⟨⟨fun _ => rfl, fun p hp => ?_⟩, rfl, ?_⟩
    · show Dict.get? (Dict.erase d.folders fo) p = _
      rw [Dict.get?_erase, if_neg (fun e => hp e.symm)]
    · rintro p f ⟨content, h1, h2⟩
      change Dict.get? (Dict.erase d.folders fo) fo = _ at h1
      rw [Dict.get?_erase, if_pos rfl] at h1
      cases h1
  | mkdir fo =>
    obtain rfl : fo = folder := h
    refine hset _ (fun p f hf => ?_)
    simp [Dict.get?] at hf
  | writeIn fo name c =>
    have hfo : fo = folder := by
      cases c with
      | none => exact h
      | some f => exact h.1
    subst hfo
    refine hset _ (fun p f hf => ?_)
    rw [Dict.get?_set] at hf
    split at hf
    · next e =>
      subst e
      cases hf
      exact Or.inr h.2
    · exact Or.inl (hin p f hf)
  | _ => cases h

theorem after_betweenFolder {N : Key → CFunc → Prop} {folder : Key} : ∀ (l : List Step) (d : Disk),
    (∀ s ∈ l, InFolderStep N folder s) → BetweenFolder N folder d (d.after l)
  | [], d, _ => ⟨⟨fun _ => rfl, fun _ _ => rfl⟩, rfl, fun _ _ h => Or.inl h⟩
  | s :: l, d, h => by
      have h1 := step_betweenFolder d (h s (by simp))
      have h2 := after_betweenFolder l (d.step s) (fun s' hs' => h s' (by simp [hs']))
      refine ⟨⟨fun p => (h2.1.1 p).trans (h1.1.1 p), fun p hp => (h2.1.2 p hp).trans (h1.1.2 p hp)⟩, h2.2.1.trans h1.2.1, fun p f hf => ?_⟩
      rcases h2.2.2 p f hf with h3 | h3
      · exact h1.2.2 p f h3
      · exact Or.inr h3

theorem rmtreeSteps_folder {N : Key → CFunc → Prop} (L : Listing) (d : Disk) (folder : Key) :
    ∀ s ∈ rmtreeSteps L d folder, InFolderStep N folder s := by
  intro s hs
  unfold rmtreeSteps at hs
  split at hs
  · cases hs
  · rw [List.mem_append, List.mem_map, List.mem_singleton] at hs
    rcases hs with ⟨p, _, rfl⟩ | rfl <;> rfl

theorem copySteps_folder {N : Key → CFunc → Prop} (folder : Key) {fs : List (Key × CFunc)} (h : ∀ p ∈ fs, N p.1 p.2) :
    ∀ s ∈ copySteps folder fs, InFolderStep N folder s := by
  intro s hs
  unfold copySteps at hs
  obtain ⟨p, hp, hs⟩ := List.mem_flatMap.1 hs
  simp only [List.mem_cons, List.not_mem_nil, or_false] at hs
  rcases hs with rfl | rfl
  · rfl
  · exact ⟨rfl, h p hp⟩

/-- After the old files and the folder have been removed there is no folder. -/
theorem rmtree_after (L : Listing) (d : Disk) (folder : Key) : Dict.get? (d.after (rmtreeSteps L d folder)).folders folder = none := by
  unfold rmtreeSteps
  cases h : Dict.get? d.folders folder with
  | none => exact h
  | some c =>
    simp only
    rw [after_append]
    show Dict.get? (Dict.erase _ folder) folder = none
    rw [Dict.get?_erase, if_pos rfl]

theorem copySteps_after (folder : Key) : ∀ (fs : List (Key × CFunc)) (d : Disk) (c : Dict Key Content),
    Dict.get? d.folders folder = some c →
    Dict.get? (d.after (copySteps folder fs)).folders folder = some (fs.foldl (fun c p => Dict.set c p.1 (some p.2)) c)
  | [], d, c, h => h
  | p :: fs, d, c, h => by
      have hstep : d.after (copySteps folder (p :: fs)) =
          (d.after [.writeIn folder p.1 none, .writeIn folder p.1 (some p.2)]).after (copySteps folder fs) := by
        rw [← after_append]
        rfl
      rw [hstep]
      refine copySteps_after folder fs _ _ ?_
      show Dict.get? (Dict.set (Dict.set d.folders folder (Dict.set ((Dict.get? d.folders folder).getD []) p.1 none)) folder
        (Dict.set ((Dict.get? (Dict.set d.folders folder (Dict.set ((Dict.get? d.folders folder).getD []) p.1 none)) folder).getD [])
          p.1 (some p.2))) folder = _
      rw [Dict.get?_set, if_pos rfl, Dict.get?_set, if_pos rfl, h]
      simp only [Option.getD_some]
      rw [Dict.set_set]

section
variable (S : Sympy) (C : Compiler)

/-- The loop writes the files of the components, in order; it ends with all of them, or with an error. -/
theorem modelLoop_ok {fform : FFormContainer} {symbols : Option (List Sym)} {folder : Key} {n : ℤ} :
    ∀ (keys : List (Key × ℤ × Part)) {l : List ((Key × ℤ × Part) × List (Key × CFunc))},
      keys.mapM (fun key => do
        let fs ← modelFuncs S C fform symbols n key
        return (key, fs)) = Except.ok l →
      (modelLoop S C fform symbols folder n keys).result = .ok l ∧
        (modelLoop S C fform symbols folder n keys).steps = copySteps folder (l.flatMap Prod.snd)
  | [], l, h => by
      cases h
      exact ⟨rfl, rfl⟩
  | key :: keys, l, h => by
      rw [List.mapM_cons] at h
      obtain ⟨q, h1, h2⟩ := bind_ok h
      obtain ⟨l', h3, h4⟩ := bind_ok h2
      cases h4
      obtain ⟨fs, h5, h6⟩ := bind_ok h1
      cases h6
      obtain ⟨h7, h8⟩ := modelLoop_ok keys h3
      unfold modelLoop
      rw [h5]
      refine ⟨by simp only; rw [h7]; rfl, ?_⟩
      simp only
      rw [h8]
      simp [copySteps]

theorem mapM_bind_error {α β : Type} {x : Except Err α} {g : α → β} {e : Err} (h : (x >>= fun a => Except.ok (g a)) = .error e) :
    x = .error e := by
  cases x with
  | ok a => cases h
  | error e' => cases h; rfl

theorem modelLoop_error {fform : FFormContainer} {symbols : Option (List Sym)} {folder : Key} {n : ℤ} :
    ∀ (keys : List (Key × ℤ × Part)) {e : Err},
      keys.mapM (fun key => do
        let fs ← modelFuncs S C fform symbols n key
        return (key, fs)) = Except.error e →
      (modelLoop S C fform symbols folder n keys).result = .error e
  | [], e, h => by cases h
  | key :: keys, e, h => by
      rw [List.mapM_cons] at h
      unfold modelLoop
      cases h5 : modelFuncs S C fform symbols n key with
      | error e' =>
        rw [h5] at h
        cases h
        rfl
      | ok fs =>
        rw [h5, ok_bind] at h
        simp only [pure, Except.pure, ok_bind] at h
        rcases mapM_bind_error h with h3
        simp only
        rw [modelLoop_error keys h3]
        rfl

theorem modelLoop_steps {fform : FFormContainer} {symbols : Option (List Sym)} {folder : Key} {n : ℤ} {N : Key → CFunc → Prop} :
    ∀ (keys : List (Key × ℤ × Part)), (∀ key ∈ keys, ∀ fs, modelFuncs S C fform symbols n key = .ok fs → ∀ p ∈ fs, N p.1 p.2) →
      ∀ s ∈ (modelLoop S C fform symbols folder n keys).steps, InFolderStep N folder s
  | [], _, s, hs => by cases hs
  | key :: keys, hN, s, hs => by
      unfold modelLoop at hs
      cases h : modelFuncs S C fform symbols n key with
      | error e =>
        rw [h] at hs
        cases hs
      | ok fs =>
        rw [h] at hs
        simp only [List.mem_append] at hs
        rcases hs with hs | hs
        · exact copySteps_folder folder (hN key (by simp) fs h) s hs
        · exact modelLoop_steps keys (fun k hk => hN k (by simp [hk])) s hs

theorem mapM_mem' {α β : Type} {f : α → Except Err β} : ∀ {l : List α} {l' : List β}, l.mapM f = .ok l' → ∀ {a : α}, a ∈ l →
    ∃ b ∈ l', f a = .ok b
  | [], l', h, a, ha => by cases ha
  | x :: l, l', h, a, ha => by
      rw [List.mapM_cons] at h
      obtain ⟨b, h1, h2⟩ := bind_ok h
      obtain ⟨bs, h3, h4⟩ := bind_ok h2
      cases h4
      rcases List.mem_cons.1 ha with rfl | ha
      · exact ⟨b, by simp, h1⟩
      · obtain ⟨b', hb', h5⟩ := mapM_mem' h3 ha
        exact ⟨b', by simp [hb'], h5⟩

end

end Shgpy
