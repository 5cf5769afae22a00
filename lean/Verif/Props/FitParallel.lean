import Verif.Proofs.FitParallel
import Verif.Props.FitCrash

/-!
# Calls in several processes at the same time: different files (C91), the same file (C92)
-/

namespace Shgpy
open Spec

/-! ## C91: processes that save different files -/

/-- C91.  Processes save files, no name occurring twice.  Whatever the order of their steps, none of them fails; for each process
the files it is through with have exactly the bytes it wrote, the file it is at is as before, missing or the beginning of the new
content, and its later files are as before.  All other files are as before. -/
theorem C91_separate {fs : FS} (hs : SoundFS fs) {jobs : List (List (Key × List ℕ))} (hsep : Separate jobs) (schedule : List ℕ) :
    (∀ (i : ℕ) js, jobs[i]? = some js → ∃ p, (runProcs (fs, jobs.map Proc.start) schedule).2[i]? = some p ∧ p.failed = false ∧
      ∃ done, js = done ++ p.jobs ∧
        (∀ j ∈ done, (runProcs (fs, jobs.map Proc.start) schedule).1.read j.1 = some j.2) ∧
        (∀ j, p.jobs.head? = some j →
          InProgress (fs.read j.1) ((runProcs (fs, jobs.map Proc.start) schedule).1.read j.1) j.2) ∧
        ∀ j ∈ p.jobs.tail, (runProcs (fs, jobs.map Proc.start) schedule).1.read j.1 = fs.read j.1) ∧
    ∀ name, (∀ js ∈ jobs, ∀ j ∈ js, j.1 ≠ name) →
      (runProcs (fs, jobs.map Proc.start) schedule).1.read name = fs.read name := by
  have h := run_ok hsep schedule (start_ok hs jobs)
  refine ⟨fun i js hi => ?_, fun name hn => h.others name ?_⟩
  · obtain ⟨p, hp, hok⟩ := h.procs i js hi
    obtain ⟨done, h1, h2⟩ := hok.split
    refine ⟨p, hp, hok.failed, done, h1, h2, fun j hj => ?_, hok.later⟩
    obtain ⟨rest, hr⟩ : ∃ rest, p.jobs = j :: rest := by
      cases hpj : p.jobs with
      | nil => rw [hpj] at hj; cases hj
      | cons a r => rw [hpj] at hj; cases hj; exact ⟨r, rfl⟩
    have hst := hok.cur j.1 j.2 rest hr
    unfold InProgress
    generalize (runProcs (fs, jobs.map Proc.start) schedule).1 = fs' at hst ⊢
    cases hstage : p.stage with
    | check => rw [hstage] at hst; exact Or.inl hst
    | unlink => rw [hstage] at hst; exact Or.inl hst.1
    | openW =>
        rw [hstage] at hst
        have hno : Dict.get? fs'.names j.1 = none := hst
        exact Or.inr (Or.inl (by simp [FS.read, hno]))
    | copy k n =>
        rw [hstage] at hst
        obtain ⟨e1, e2, _⟩ := hst
        exact Or.inr (Or.inr ⟨n, by simp [FS.read, e1, e2]⟩)
  · intro hm
    obtain ⟨js, hjs, hm⟩ := List.mem_flatMap.1 hm
    obtain ⟨j, hj, e⟩ := List.mem_map.1 hm
    exact hn js hjs j hj e

/-- C91.  A process that has made enough steps is through, and its files have the bytes it wrote, whatever the others do. -/
theorem C91_finished {fs : FS} (hs : SoundFS fs) {jobs : List (List (Key × List ℕ))} (hsep : Separate jobs) {schedule : List ℕ}
    {i : ℕ} {js : List (Key × List ℕ)} (hi : jobs[i]? = some js) (hn : stepsNeeded js ≤ schedule.count i) :
    (∃ p, (runProcs (fs, jobs.map Proc.start) schedule).2[i]? = some p ∧ p.failed = false ∧ p.jobs = []) ∧
      ∀ j ∈ js, (runProcs (fs, jobs.map Proc.start) schedule).1.read j.1 = some j.2 := by
  obtain ⟨p, h1, h2, done, h3, h4, _⟩ := (C91_separate hs hsep schedule).1 i js hi
  obtain ⟨p', h5, h6⟩ := run_left hsep hi schedule (start_ok hs jobs) (Proc.start js) (by simp [hi])
  rw [h1] at h5; cases h5
  rw [left_start] at h6
  have hl : p.left = 0 := by omega
  have hj : p.jobs = [] := by
    unfold Proc.left at hl
    cases hpj : p.jobs with
    | nil => rfl
    | cons j r =>
        rw [hpj] at hl
        cases hst : p.stage <;> simp [hst, Stage.left] at hl
  refine ⟨⟨p, h1, h2, hj⟩, ?_⟩
  rw [hj, List.append_nil] at h3
  rw [h3]
  exact h4

/-! ### The files of the calls -/

section
variable (S : Sympy) (C : Compiler) (lib : CFunc → List ℕ)

theorem jobs_unlink (d : Disk) (save : Option Key) :
    (unlinkSteps d save).filterMap (Step.job lib) = [] := by
  cases save with
  | none => rfl
  | some name => unfold unlinkSteps; dsimp only; split <;> rfl

theorem jobs_save (d : Disk) (f : CFunc) (save : Option Key) :
    (saveSteps d f save).filterMap (Step.job lib) =
      save.toList.map (fun name => (name, lib f)) := by
  cases save with
  | none => rfl
  | some name => unfold saveSteps; rw [List.filterMap_append, jobs_unlink]; rfl

/-- C91.  `gen_cost_func` saves one file, the library of the function that it returns; a call that raises saves none. -/
theorem C91_cost_files (d : Disk) (fform : FFormContainer) (fdat : FDataContainer) (arguments : Option (List Sym)) (chunk : Bool)
    (save : Option Key) :
    (∀ f d', genCostFunc S C d fform fdat arguments chunk save = .ok (f, d') →
      (costTrace S C d fform fdat arguments chunk save).jobs lib = save.toList.map (fun name => (name, lib f))) ∧
    ∀ e, genCostFunc S C d fform fdat arguments chunk save = .error e →
      (costTrace S C d fform fdat arguments chunk save).jobs lib = [] := by
  have h := (C78_cost_steps S C d fform fdat arguments chunk save).1
  have key : (∀ f, (costTrace S C d fform fdat arguments chunk save).result = .ok f →
      (costTrace S C d fform fdat arguments chunk save).jobs lib = save.toList.map (fun name => (name, lib f))) ∧
      ∀ e, (costTrace S C d fform fdat arguments chunk save).result = .error e →
        (costTrace S C d fform fdat arguments chunk save).jobs lib = [] := by
    unfold costTrace
    split
    · split
      · exact ⟨fun f hf => by simp at hf, fun _ _ => rfl⟩
      · rename_i l _
        unfold chunkedTrace
        cases l with
        | nil => exact ⟨fun f hf => by simp at hf, fun _ _ => jobs_unlink lib d save⟩
        | cons a r =>
            refine ⟨fun f hf => ?_, fun _ he => by simp at he⟩
            simp only [Except.ok.injEq] at hf
            subst hf
            exact jobs_save lib d _ save
    · split
      · exact ⟨fun f hf => by simp at hf, fun _ _ => rfl⟩
      · refine ⟨fun f hf => ?_, fun _ he => by simp at he⟩
        simp only [Except.ok.injEq] at hf
        subst hf
        exact jobs_save lib d _ save
  constructor
  · intro f d' hf
    rw [hf] at h
    exact key.1 f h
  · intro e he
    rw [he] at h
    exact key.2 e h

/-- C91.  Calls of `gen_cost_func` at the same time, in as many processes, each with a file name of its own: when process `i` has
made enough steps, its file is the library of the function that it returns, whatever the order of the steps. -/
theorem C91_cost_calls {fs : FS} (hs : SoundFS fs) {n : ℕ} {d d' : ℕ → Disk} {fform : ℕ → FFormContainer} {fdat : ℕ → FDataContainer}
    {arguments : ℕ → Option (List Sym)} {chunk : ℕ → Bool} {name : ℕ → Key} {f : ℕ → CFunc}
    (hok : ∀ i < n, genCostFunc S C (d i) (fform i) (fdat i) (arguments i) (chunk i) (some (name i)) = .ok (f i, d' i))
    (hne : ∀ i < n, ∀ j < n, name i = name j → i = j) {schedule : List ℕ} {i : ℕ} (hi : i < n)
    (hfin : (lib (f i)).length + 4 ≤ schedule.count i) :
    (runProcs (fs, ((List.range n).map (fun i =>
      (costTrace S C (d i) (fform i) (fdat i) (arguments i) (chunk i) (some (name i))).jobs lib)).map Proc.start) schedule).1.read
        (name i) = some (lib (f i)) := by
  have hj : (List.range n).map (fun i =>
      (costTrace S C (d i) (fform i) (fdat i) (arguments i) (chunk i) (some (name i))).jobs lib) =
      (List.range n).map (fun i => [(name i, lib (f i))]) := by
    refine List.map_congr_left (fun j hj => ?_)
    exact (C91_cost_files S C lib _ _ _ _ _ _).1 _ _ (hok j (List.mem_range.1 hj))
  rw [hj]
  have hsep : Separate ((List.range n).map (fun i => [(name i, lib (f i))])) := by
    unfold Separate
    rw [List.flatMap_map]
    simp only [List.map_cons, List.map_nil, ← List.map_eq_flatMap]
    exact List.Nodup.map_on (fun a ha b hb e => hne a (List.mem_range.1 ha) b (List.mem_range.1 hb) e) List.nodup_range
  exact (C91_finished hs hsep (i := i) (js := [(name i, lib (f i))]) (by simp [hi]) (by simpa [stepsNeeded] using hfin)).2
    (name i, lib (f i)) (by simp)

theorem jobs_denergy (gradSave : Option Key) : ∀ (de : List Expr) (i : ℕ) (d : Disk),
    (denergySteps C gradSave de i d).filterMap (Step.job lib) =
      gradSave.toList.flatMap (fun pre => de.mapIdx (fun j e => (gradName pre (i + j), lib (C.run e))))
  | [], i, d => by cases gradSave <;> simp [denergySteps]
  | e :: r, i, d => by
      simp only [denergySteps, List.filterMap_append, jobs_save, jobs_denergy gradSave r]
      cases gradSave with
      | none => simp
      | some pre => simp [List.mapIdx_cons, Nat.add_assoc, Nat.add_comm 1]

/-- C91.  The files that a fit with gradient saves: the library of the cost function, and one file for each parameter with the
library of this component of the gradient. -/
theorem C91_gradient_files (d : Disk) (fform : FFormContainer) (fdat : FDataContainer) (l : List Sym) (chunk : Bool)
    (save gradSave : Option Key) {f : CGrad} {d' : Disk}
    (hf : energyAndDenergy S C d fform fdat l chunk save gradSave = .ok (f, d')) :
    (gradTrace S C d fform fdat l chunk save gradSave).jobs lib =
      save.toList.map (fun name => (name, lib (fun x => (f x).1))) ++
      gradSave.toList.flatMap (fun pre => (List.range l.length).map (fun i => (gradName pre i, lib (fun x => ((f x).2)[i]?.getD 0)))) := by
  have h := (C78_gradient_steps S C d fform fdat l chunk save gradSave).1
  rw [hf] at h
  unfold gradTrace at h ⊢
  split at h
  · cases h
  · rename_i hc
    rw [if_neg hc]
    split at h
    · cases h
    · rename_i e he
      split at h
      · cases h
      · rename_i de hde
        have hlen : de.length = l.length := by
          unfold denergyExpr at hde
          split at hde
          · cases hde
          · simp only [Except.ok.injEq] at hde
            rw [← hde]; simp
        have hf' : (fun x => (C.run e x, (de.map C.run).map (fun g => g x))) = f := by
          simpa [Except.map] using h
        subst hf'
        unfold Trace.jobs
        dsimp only
        rw [List.filterMap_append, jobs_save, jobs_denergy]
        congr 2
        funext pre
        refine List.ext_getElem (by simp [hlen]) (fun i h1 h2 => ?_)
        have hi : i < de.length := by simpa using h1
        simp [hi]

end

/-- The last character is not a digit. -/
def NoDigitAtEnd (p : Key) : Prop := ∀ c, p.getLast? = some c → c ∉ ['0', '1', '2', '3', '4', '5', '6', '7', '8', '9']

theorem digits_suffix {p q a b : Key} (hp : NoDigitAtEnd p) (hq : NoDigitAtEnd q)
    (ha : ∀ c ∈ a, c ∈ ['0', '1', '2', '3', '4', '5', '6', '7', '8', '9'])
    (hb : ∀ c ∈ b, c ∈ ['0', '1', '2', '3', '4', '5', '6', '7', '8', '9']) (h : p ++ a = q ++ b) : p = q ∧ a = b := by
  have key : ∀ {p q a b : Key}, NoDigitAtEnd p → (∀ c ∈ b, c ∈ ['0', '1', '2', '3', '4', '5', '6', '7', '8', '9']) →
      p ++ a = q ++ b → ∀ r, p = q ++ r → r = [] := by
    intro p q a b hp hb h r hr
    by_contra hne
    obtain ⟨c, hc⟩ : ∃ c, r.getLast? = some c := ⟨_, List.getLast?_eq_some_getLast hne⟩
    rw [hr, List.append_assoc, List.append_cancel_left_eq] at h
    have h1 : c ∈ b := by rw [← h]; exact List.mem_append_left _ (List.mem_of_getLast? hc)
    exact hp c (by rw [hr, List.getLast?_append, hc]; rfl) (hb c h1)
  rcases List.append_eq_append_iff.1 h with ⟨r, h1, h2⟩ | ⟨r, h1, h2⟩
  · have := key hq ha h.symm r h1
    subst this
    simp at h1 h2
    exact ⟨h1.symm, h2⟩
  · have := key hp hb h r h1
    subst this
    simp at h1 h2
    exact ⟨h1, h2.symm⟩

/-- C91.  Different prefixes that do not end in a digit have different gradient files. -/
theorem C91_prefixes {p q : Key} (hp : NoDigitAtEnd p) (hq : NoDigitAtEnd q) (hne : p ≠ q) (i j : ℕ) : gradName p i ≠ gradName q j := by
  intro h
  unfold gradName at h
  have h' : p ++ natStr i = q ++ natStr j := List.append_cancel_right h
  exact hne (digits_suffix hp hq natStr_digits natStr_digits h').1

/-- A prefix that ends in a digit can have a file in common with another prefix. -/
theorem C91_prefix_clash : gradName ['g'] 10 = gradName ['g', '1'] 0 := by decide

/-- The hypotheses of `C91_separate` are met: one process replaces a file and makes another one, a second process makes a
third. -/
example : ∃ (fs : FS) (jobs : List (List (Key × List ℕ))), SoundFS fs ∧ Separate jobs ∧ fs.read ['a'] = some [7] ∧
    jobs = [[(['a'], [1, 2]), (['b'], [3])], [(['c'], [4, 5])]] ∧
    (runProcs (fs, jobs.map Proc.start) [0, 1, 0, 1, 0, 1, 0, 1, 0, 1, 0, 0, 0, 0]).1.read ['a'] = some [1, 2] ∧
    (runProcs (fs, jobs.map Proc.start) [0, 1, 0, 1, 0, 1, 0, 1, 0, 1, 0, 0, 0, 0]).1.read ['b'] = some [3] ∧
    (runProcs (fs, jobs.map Proc.start) [0, 1, 0, 1, 0, 1, 0, 1, 0, 1, 0, 0, 0, 0]).1.read ['c'] = some [4, 5] := by
  refine ⟨⟨[(['a'], 0)], fun _ => [7], 1⟩, _, ?_, ?_, rfl, rfl, rfl, rfl, rfl⟩
  · constructor
    · intro n n' i h1 h2
      simp only [Dict.get?] at h1 h2
      split at h1
      · split at h2
        · subst_vars; rfl
        · cases h2
      · cases h1
    · intro n i h1
      simp only [Dict.get?] at h1
      split at h1
      · cases h1; decide
      · cases h1
  · unfold Separate; decide

/-- The hypotheses of `C91_cost_calls` are met: two processes make the same cost function, with and without chunks, and save it to
different files. -/
example (d : Disk) : ∃ f d' g d'',
    genCostFunc Sympy.plain FitCases.compiler d FitCases.formula FitCases.data none false (some ['a']) = .ok (f, d') ∧
    genCostFunc Sympy.plain FitCases.compiler d FitCases.formula FitCases.data none true (some ['b']) = .ok (g, d'') ∧
    (['a'] : Key) ≠ ['b'] := by
  obtain ⟨f, d', h1, _⟩ := C57_cost Sympy.plain FitCases.compiler d FitCases.formula_reachable (Or.inr ⟨rfl, FitCases.free_symbols⟩) rfl
    FitCases.formulaIs FitCases.dataIs false (by simp) (some ['a'])
  obtain ⟨g, d'', h2, _⟩ := C57_cost Sympy.plain FitCases.compiler d FitCases.formula_reachable (Or.inr ⟨rfl, FitCases.free_symbols⟩) rfl
    FitCases.formulaIs FitCases.dataIs true (by simp [FitCases.formula, FFormContainer.getKeys, Dict.keys]) (some ['b'])
  exact ⟨f, d', g, d'', h1, h2, by decide⟩

/-! ## C92: processes that save the same file -/

theorem stepProc_at {fs : FS} {ps : List Proc} {i : ℕ} {p : Proc} (h : ps[i]? = some p) :
    stepProc (fs, ps) i = ((p.step fs).1, ps.set i (p.step fs).2) := by
  unfold stepProc
  dsimp only
  rw [h]

theorem runProcs_append (s : FS × List Proc) (l l' : List ℕ) : runProcs s (l ++ l') = runProcs (runProcs s l) l' :=
  List.foldl_append ..

/-- A process that makes its steps alone does what it does when it is the only one. -/
theorem run_alone : ∀ (k : ℕ) {fs : FS} {ps : List Proc} {q : ℕ} {p : Proc}, ps[q]? = some p →
    ∃ fs' p', runProcs (fs, [p]) (List.replicate k 0) = (fs', [p']) ∧ runProcs (fs, ps) (List.replicate k q) = (fs', ps.set q p')
  | 0, fs, ps, q, p, h => by
      obtain ⟨hq, e⟩ := List.getElem?_eq_some_iff.1 h
      exact ⟨fs, p, rfl, by rw [← e, List.set_getElem_self]; rfl⟩
  | k + 1, fs, ps, q, p, h => by
      obtain ⟨hq, e⟩ := List.getElem?_eq_some_iff.1 h
      obtain ⟨fs', p', h1, h2⟩ := run_alone k (fs := (p.step fs).1) (ps := ps.set q (p.step fs).2) (q := q) (p := (p.step fs).2)
        (by simp [hq])
      refine ⟨fs', p', ?_, ?_⟩
      · rw [List.replicate_succ, runProcs, List.foldl_cons, stepProc_at (p := p) rfl]
        exact h1
      · rw [List.replicate_succ, runProcs, List.foldl_cons, stepProc_at h]
        rw [runProcs] at h2
        rw [h2, List.set_set]

/-- C92, what holds.  Two processes save the same file, the second after the first is through: neither fails, and the file is the
one of the second. -/
theorem C92_in_turn_partial {fs : FS} (hs : SoundFS fs) (name : Key) (a b : List ℕ) {m n : ℕ}
    (hm : stepsNeeded [(name, a)] ≤ m) (hn : stepsNeeded [(name, b)] ≤ n) :
    (∀ i < 2, ∃ p, (runProcs (fs, [Proc.start [(name, a)], Proc.start [(name, b)]]) (List.replicate m 0 ++ List.replicate n 1)).2[i]? =
        some p ∧ p.failed = false ∧ p.jobs = []) ∧
    (runProcs (fs, [Proc.start [(name, a)], Proc.start [(name, b)]]) (List.replicate m 0 ++ List.replicate n 1)).1.read name =
      some b := by
  have hsep : ∀ c : List ℕ, Separate [[(name, c)]] := fun c => by simp [Separate]
  have h1 := C91_finished hs (hsep a) (schedule := List.replicate m 0) (i := 0) rfl (by simpa using hm)
  have hs' := (run_ok (hsep a) (List.replicate m 0) (start_ok hs [[(name, a)]])).sound
  obtain ⟨fs1, p1, e1, e2⟩ := run_alone m (fs := fs) (ps := [Proc.start [(name, a)], Proc.start [(name, b)]]) (q := 0) rfl
  simp only [List.map_cons, List.map_nil, e1] at h1 hs'
  have h2 := C91_finished hs' (hsep b) (schedule := List.replicate n 0) (i := 0) rfl (by simpa using hn)
  obtain ⟨fs2, p2, e3, e4⟩ := run_alone n (fs := fs1) (ps := [p1, Proc.start [(name, b)]]) (q := 1) rfl
  simp only [List.map_cons, List.map_nil, e3] at h2
  have e5 : ([Proc.start [(name, a)], Proc.start [(name, b)]] : List Proc).set 0 p1 = [p1, Proc.start [(name, b)]] := rfl
  rw [runProcs_append, e2, e5, e4]
  refine ⟨fun i hi => ?_, h2.2 (name, b) (by simp)⟩
  have : i = 0 ∨ i = 1 := by omega
  rcases this with rfl | rfl
  · exact h1.1
  · exact h2.1

/-- C92.  Two processes that save to the same existing file at the same time: one of them can fail, because the other one removed
the file after the first had seen it. -/
theorem C92_removed_broken {fs : FS} {name : Key} (h : (Dict.get? fs.names name).isSome) (a b : List ℕ) :
    ∃ p, (runProcs (fs, [Proc.start [(name, a)], Proc.start [(name, b)]]) [0, 1, 0, 1]).2[1]? = some p ∧ p.failed = true := by
  refine ⟨⟨[(name, b)], .unlink, true⟩, ?_, rfl⟩
  simp [runProcs, stepProc, Proc.step, Proc.start, h, Dict.get?_erase]

/-- Copying the rest of a file, without interruption. -/
theorem run_copy {name : Key} {bytes : List ℕ} {i : ℕ} : ∀ (k : ℕ) {fs : FS} {ps : List Proc} {q n : ℕ},
    ps[q]? = some ⟨[(name, bytes)], .copy i n, false⟩ → n + k = bytes.length → n ≤ (fs.content i).length →
    ∃ fs', runProcs (fs, ps) (List.replicate k q) = (fs', ps.set q ⟨[(name, bytes)], .copy i (n + k), false⟩) ∧
      fs'.names = fs.names ∧ fs'.content i = (fs.content i).take n ++ bytes.drop n ++ (fs.content i).drop (n + k)
  | 0, fs, ps, q, n, h, hk, hl => by
      refine ⟨fs, ?_, rfl, ?_⟩
      · obtain ⟨hq, e⟩ := List.getElem?_eq_some_iff.1 h
        simp only [List.replicate_zero, runProcs, List.foldl_nil, Nat.add_zero, ← e, List.set_getElem_self]
      · rw [List.drop_eq_nil_of_le (by omega : bytes.length ≤ n)]; simp
  | k + 1, fs, ps, q, n, h, hk, hl => by
      have hn : n < bytes.length := by omega
      have hb : bytes[n]? = some bytes[n] := List.getElem?_eq_getElem hn
      obtain ⟨hq, e⟩ := List.getElem?_eq_some_iff.1 h
      have hstep : Proc.step fs ⟨[(name, bytes)], .copy i n, false⟩ =
          ({ fs with content := Function.update fs.content i (writeAt (fs.content i) n bytes[n]) },
            ⟨[(name, bytes)], .copy i (n + 1), false⟩) := by
        simp [Proc.step, hb]
      have hw : writeAt (fs.content i) n bytes[n] = (fs.content i).take n ++ bytes[n] :: (fs.content i).drop (n + 1) := by
        unfold writeAt
        split
        · rw [List.set_eq_take_append_cons_drop, if_pos (by assumption)]
        · have : n = (fs.content i).length := by omega
          subst this
          simp
      have hlen : ((fs.content i).take n).length = n := by simp; omega
      obtain ⟨fs', h1, h2, h3⟩ := run_copy (name := name) (bytes := bytes) (i := i) k (n := n + 1)
        (fs := { fs with content := Function.update fs.content i (writeAt (fs.content i) n bytes[n]) })
        (ps := ps.set q ⟨[(name, bytes)], .copy i (n + 1), false⟩) (q := q)
        (by simp [hq]) (by omega) (by simp [hw]; omega)
      refine ⟨fs', ?_, h2, ?_⟩
      · rw [List.replicate_succ, runProcs, List.foldl_cons, stepProc_at h, hstep]
        rw [runProcs] at h1
        rw [h1, List.set_set]
        congr 3
        congr 1
        omega
      · rw [h3]
        simp only [Function.update_self, hw]
        rw [List.take_append, hlen, List.drop_append, hlen, List.drop_eq_getElem_cons hn]
        have e1 : n + 1 + k - n = k + 1 := by omega
        have e2 : n + 1 - n = 1 := by omega
        rw [List.drop_eq_nil_of_le (by omega : ((fs.content i).take n).length ≤ n + 1 + k), e1, e2, List.take_take]
        simp only [List.take_succ_cons, List.take_zero, List.drop_succ_cons, List.drop_drop, List.nil_append]
        have e3 : min (n + 1) n = n := by omega
        have e4 : n + 1 + k = n + (k + 1) := by omega
        rw [e3, e4]
        simp

/-- C92.  Two processes that save libraries to the same new file at the same time, one library longer than the other and not an
extension of it: both can finish without an error, and the file is neither of the two libraries, but the second one with the end of
the first one behind it. -/
theorem C92_mixture_broken {fs : FS} {name : Key} (h : Dict.get? fs.names name = none) {a b : List ℕ} (hab : b.length < a.length)
    (hpre : ¬ b <+: a) :
    ∃ schedule, (∀ i < 2, ∃ p, (runProcs (fs, [Proc.start [(name, a)], Proc.start [(name, b)]]) schedule).2[i]? = some p ∧
        p.failed = false ∧ p.jobs = []) ∧
      (runProcs (fs, [Proc.start [(name, a)], Proc.start [(name, b)]]) schedule).1.read name = some (b ++ a.drop b.length) ∧
      b ++ a.drop b.length ≠ a ∧ b ++ a.drop b.length ≠ b := by
  refine ⟨[0, 1, 0, 1] ++ (List.replicate a.length 0 ++ (List.replicate b.length 1 ++ [0, 1])), ?_⟩
  let fs1 : FS := ⟨Dict.set fs.names name fs.next, Function.update (Function.update fs.content fs.next []) fs.next [], fs.next + 1⟩
  have h0 : runProcs (fs, [Proc.start [(name, a)], Proc.start [(name, b)]]) [0, 1, 0, 1] =
      (fs1, [⟨[(name, a)], .copy fs.next 0, false⟩, ⟨[(name, b)], .copy fs.next 0, false⟩]) := by
    simp [runProcs, stepProc, Proc.step, Proc.start, h, Dict.get?_set, fs1]
  obtain ⟨fs2, g1, g2, g3⟩ := run_copy (name := name) (bytes := a) (i := fs.next) a.length (fs := fs1)
    (ps := [⟨[(name, a)], .copy fs.next 0, false⟩, ⟨[(name, b)], .copy fs.next 0, false⟩]) (q := 0) (n := 0) rfl (by simp) (by simp)
  obtain ⟨fs3, g4, g5, g6⟩ := run_copy (name := name) (bytes := b) (i := fs.next) b.length (fs := fs2)
    (ps := [⟨[(name, a)], .copy fs.next a.length, false⟩, ⟨[(name, b)], .copy fs.next 0, false⟩]) (q := 1) (n := 0) rfl (by simp) (by simp)
  have hrun : runProcs (fs, [Proc.start [(name, a)], Proc.start [(name, b)]])
      ([0, 1, 0, 1] ++ (List.replicate a.length 0 ++ (List.replicate b.length 1 ++ [0, 1]))) =
      (fs3, [⟨[], .check, false⟩, ⟨[], .check, false⟩]) := by
    rw [runProcs_append, h0, runProcs_append, g1, runProcs_append]
    have e1 : ([⟨[(name, a)], .copy fs.next 0, false⟩, ⟨[(name, b)], .copy fs.next 0, false⟩] : List Proc).set 0
        ⟨[(name, a)], .copy fs.next (0 + a.length), false⟩ =
        [⟨[(name, a)], .copy fs.next a.length, false⟩, ⟨[(name, b)], .copy fs.next 0, false⟩] := by simp
    rw [e1, g4]
    simp [runProcs, stepProc, Proc.step]
  rw [hrun]
  refine ⟨fun i hi => ?_, ?_, fun e => hpre ⟨_, e⟩, fun e => ?_⟩
  · have : i = 0 ∨ i = 1 := by omega
    rcases this with rfl | rfl <;> exact ⟨_, rfl, rfl, rfl⟩
  · have hc1 : fs1.content fs.next = [] := by simp [fs1]
    rw [hc1] at g3
    simp only [List.take_nil, List.drop_zero, List.nil_append, List.drop_nil, List.append_nil] at g3
    rw [g3] at g6
    unfold FS.read
    rw [g5, g2]
    simp [fs1, Dict.get?_set, g6]
  · have := congrArg List.length e
    simp at this
    omega

/-- The mixture is neither of the two libraries. -/
example : ∃ schedule, (runProcs ((⟨[], fun _ => [], 0⟩ : FS), [Proc.start [(['f'], [1, 1, 1])], Proc.start [(['f'], [2, 2])]]) schedule).1.read ['f'] =
    some [2, 2, 1] := by
  obtain ⟨s, _, h, _⟩ := C92_mixture_broken (fs := ⟨[], fun _ => [], 0⟩) (name := ['f']) rfl (a := [1, 1, 1]) (b := [2, 2]) (by decide) (by decide)
  exact ⟨s, h⟩

end Shgpy
