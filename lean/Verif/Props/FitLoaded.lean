import Verif.Spec.Loaded
import Verif.Props.FitParallel

/-!
# C96: functions in use while files are saved
-/

namespace Shgpy
open Spec

/-- The invariant: a process that is about to open its file for writing has its name for itself, and what it still has to save is part of
what it had to save at the start. -/
structure LoadInv (jobs : List (List (Key × List ℕ))) (s : FitSystem) : Prop where
  below : ∀ n k, Dict.get? s.fs.names n = some k → k < s.fs.next
  mapped : ∀ r k, Dict.get? s.loaded r = some k → k < s.fs.next
  sub : ∀ (i : ℕ) p, s.procs[i]? = some p → ∃ js, jobs[i]? = some js ∧ ∀ a ∈ p.jobs, a ∈ js
  free : ∀ (i : ℕ) p name bytes rest, s.procs[i]? = some p → p.failed = false → p.jobs = (name, bytes) :: rest → p.stage = .openW →
    Dict.get? s.fs.names name = none

/-- A step of a process changes names only in its own files. -/
theorem step_names {fs fs' : FS} {p p' : Proc} (h : p.step fs = (fs', p')) {n : Key} (hn : ∀ a ∈ p.jobs, a.1 ≠ n) :
    Dict.get? fs'.names n = Dict.get? fs.names n := by
  unfold Proc.step at h
  split at h
  · cases h; rfl
  · split at h
    · cases h; rfl
    · rename_i name bytes rest hj
      have hne : name ≠ n := hn (name, bytes) (by rw [hj]; simp)
      split at h
      · cases h; rfl
      · split at h
        · cases h
          exact (Dict.get?_erase _ _ _).trans (by rw [if_neg hne])
        · cases h; rfl
      · split at h
        · cases h; rfl
        · cases h
          exact (Dict.get?_set _ _ _ _).trans (by rw [if_neg hne])
      · split at h <;> · cases h; rfl

theorem step_jobs {fs fs' : FS} {p p' : Proc} (h : p.step fs = (fs', p')) : ∀ a ∈ p'.jobs, a ∈ p.jobs := by
  unfold Proc.step at h
  split at h
  · cases h; exact fun _ h => h
  · split at h
    · cases h; exact fun _ h => h
    · rename_i name bytes rest hj
      split at h
      · cases h; exact fun _ h => h
      · split at h <;> · cases h; exact fun _ h => h
      · split at h <;> · cases h; exact fun _ h => h
      · split at h
        · cases h; exact fun _ h => h
        · cases h
          intro a ha
          rw [hj]; exact List.mem_cons_of_mem _ ha

/-- After a step of a process, if it is about to open its file, there is no file of this name. -/
theorem step_free {fs fs' : FS} {p p' : Proc} (h : p.step fs = (fs', p'))
    (hf : ∀ name bytes rest, p.failed = false → p.jobs = (name, bytes) :: rest → p.stage = .openW → Dict.get? fs.names name = none)
    {name : Key} {bytes : List ℕ} {rest : List (Key × List ℕ)} (h0 : p'.failed = false) (h1 : p'.jobs = (name, bytes) :: rest)
    (h2 : p'.stage = .openW) : Dict.get? fs'.names name = none := by
  unfold Proc.step at h
  split at h
  · cases h; exact hf name bytes rest h0 h1 h2
  · split at h
    · cases h; exact hf name bytes rest h0 h1 h2
    · rename_i name' bytes' rest' hj
      split at h
      · cases h
        have : name' = name := by rw [hj] at h1; cases h1; rfl
        subst this
        dsimp only at h2
        split at h2
        · cases h2
        · rename_i hs
          simpa using hs
      · split at h
        · cases h
          have : name' = name := by
            have h1 : p.jobs = _ := h1
            rw [hj] at h1; cases h1; rfl
          subst this
          exact (Dict.get?_erase _ _ _).trans (by rw [if_pos rfl])
        · cases h; cases h0
      · split at h <;> · cases h; cases h2
      · split at h <;> · cases h; cases h2

/-- A step touches only inodes that are new or that the process is writing. -/
theorem step_content {fs fs' : FS} {p p' : Proc} (h : p.step fs = (fs', p'))
    (hf : ∀ name bytes rest, p.failed = false → p.jobs = (name, bytes) :: rest → p.stage = .openW → Dict.get? fs.names name = none)
    {k : ℕ} (hk : k < fs.next)
    (hc : ∀ name bytes rest n, p.jobs = (name, bytes) :: rest → p.stage = .copy k n → bytes.length ≤ n) :
    fs'.content k = fs.content k ∧
    ∀ name bytes rest n, p'.jobs = (name, bytes) :: rest → p'.stage = .copy k n → bytes.length ≤ n := by
  unfold Proc.step at h
  split at h
  · cases h; exact ⟨rfl, hc⟩
  · rename_i hfail
    split at h
    · cases h; exact ⟨rfl, hc⟩
    · rename_i name' bytes' rest' hj
      split at h
      · cases h
        refine ⟨rfl, fun _ _ _ _ _ h2 => ?_⟩
        dsimp only at h2
        split at h2 <;> cases h2
      · split at h
        · cases h
          exact ⟨rfl, fun _ _ _ _ _ h2 => by cases h2⟩
        · rename_i hst _
          cases h
          refine ⟨rfl, fun _ _ _ _ _ h2 => ?_⟩
          have h2 : p.stage = _ := h2
          rw [hst] at h2; cases h2
      · rename_i hst
        have := hf name' bytes' rest' (by simpa using hfail) hj hst
        rw [this] at h
        cases h
        refine ⟨Function.update_of_ne (by omega) _ _, fun _ _ _ _ _ h2 => ?_⟩
        have h2 : Stage.copy fs.next 0 = _ := h2
        cases h2
        omega
      · rename_i i n hst
        split at h
        · rename_i b hb
          cases h
          have hik : i ≠ k := by
            rintro rfl
            have := hc name' bytes' rest' n hj hst
            have := (List.getElem?_eq_some_iff.1 hb).1
            omega
          refine ⟨Function.update_of_ne hik.symm _ _, fun _ _ _ _ _ h2 => ?_⟩
          have h2 : Stage.copy i (n + 1) = _ := h2
          cases h2
          exact absurd rfl hik
        · cases h
          exact ⟨rfl, fun _ _ _ _ _ h2 => by cases h2⟩

theorem step_below {fs fs' : FS} {p p' : Proc} (h : p.step fs = (fs', p'))
    (hb : ∀ n k, Dict.get? fs.names n = some k → k < fs.next) :
    fs.next ≤ fs'.next ∧ ∀ n k, Dict.get? fs'.names n = some k → k < fs'.next := by
  unfold Proc.step at h
  split at h
  · cases h; exact ⟨le_rfl, hb⟩
  · split at h
    · cases h; exact ⟨le_rfl, hb⟩
    · split at h
      · cases h; exact ⟨le_rfl, hb⟩
      · split at h
        · cases h
          refine ⟨le_rfl, fun n k hk => ?_⟩
          have hk : Dict.get? (Dict.erase _ _) n = _ := hk
          rw [Dict.get?_erase] at hk
          split at hk
          · cases hk
          · exact hb n k hk
        · cases h; exact ⟨le_rfl, hb⟩
      · split at h
        · cases h; exact ⟨le_rfl, hb⟩
        · cases h
          refine ⟨Nat.le_succ _, fun n k hk => ?_⟩
          have hk : Dict.get? (Dict.set _ _ _) n = _ := hk
          rw [Dict.get?_set] at hk
          show k < fs.next + 1
          split at hk
          · cases hk; omega
          · have := hb n k hk; omega
      · split at h <;> · cases h; exact ⟨le_rfl, hb⟩

theorem inv_step {jobs : List (List (Key × List ℕ))} (hown : OwnFiles jobs) {s : FitSystem} (h : LoadInv jobs s) (e : FitEvent) :
    LoadInv jobs (s.step e) := by
  cases e with
  | load r name =>
      unfold FitSystem.step
      dsimp only
      split
      · rename_i k hk
        refine ⟨h.below, fun r' k' hk' => ?_, h.sub, h.free⟩
        have hk' : Dict.get? (Dict.set _ _ _) r' = _ := hk'
        rw [Dict.get?_set] at hk'
        split at hk'
        · cases hk'; exact h.below _ _ hk
        · exact h.mapped _ _ hk'
      · exact h
  | save i =>
      unfold FitSystem.step stepProc
      dsimp only
      split
      · exact h
      · rename_i p hp
        cases hst : p.step s.fs with
        | mk fs' p' =>
        dsimp only
        obtain ⟨b1, b2⟩ := step_below hst h.below
        have hlen : i < s.procs.length := (List.getElem?_eq_some_iff.1 hp).1
        refine ⟨b2, fun r k hk => (h.mapped r k hk).trans_le b1, ?_, ?_⟩
        · intro j q hq
          dsimp only at hq
          rw [List.getElem?_set] at hq
          split at hq
          · rename_i hij
            subst hij
            cases hq
            obtain ⟨js, h1, h2⟩ := h.sub i p hp
            exact ⟨js, h1, fun a ha => h2 a (step_jobs hst a ha)⟩
          · exact h.sub j q hq
        · intro j q name bytes rest hq h0 h1 h2
          dsimp only at hq ⊢
          rw [List.getElem?_set] at hq
          split at hq
          · rename_i hij
            subst hij
            cases hq
            exact step_free hst (fun _ _ _ f0 f1 f2 => h.free i p _ _ _ hp f0 f1 f2) h0 h1 h2
          · rename_i hij
            rw [step_names hst, h.free j q name bytes rest hq h0 h1 h2]
            intro a ha
            obtain ⟨js, e1, e2⟩ := h.sub i p hp
            obtain ⟨ks, e3, e4⟩ := h.sub j q hq
            exact hown i j js ks e1 e3 hij a (e2 a ha) (name, bytes) (e4 _ (by rw [h1]; simp))

theorem inv_run {jobs : List (List (Key × List ℕ))} (hown : OwnFiles jobs) (events : List FitEvent) {s : FitSystem}
    (h : LoadInv jobs s) : LoadInv jobs (s.run events) := by
  unfold FitSystem.run
  induction events generalizing s with
  | nil => exact h
  | cons e r ih => exact ih (inv_step hown h e)

theorem inv_start {fs : FS} (hs : SoundFS fs) (jobs : List (List (Key × List ℕ))) : LoadInv jobs (FitSystem.start fs jobs) := by
  refine ⟨hs.2, fun r k hk => by simp [FitSystem.start, Dict.get?] at hk, fun i p hp => ?_, fun i p name bytes rest hp _ _ h2 => ?_⟩
  all_goals
    simp only [FitSystem.start, List.getElem?_map, Option.map_eq_some_iff] at hp
    obtain ⟨js, h1, rfl⟩ := hp
  · exact ⟨js, h1, fun _ h => h⟩
  · cases h2

theorem complete_step {jobs : List (List (Key × List ℕ))} {s : FitSystem} (h : LoadInv jobs s) {r : ℕ} (hc : CompleteFor s r)
    {e : FitEvent} (he : ∀ name, e ≠ .load r name) : (s.step e).code r = s.code r ∧ CompleteFor (s.step e) r := by
  obtain ⟨k, hk, hw⟩ := hc
  cases e with
  | load r' name =>
      have hne : r' ≠ r := by rintro rfl; exact he name rfl
      unfold FitSystem.step
      dsimp only
      split
      · have : Dict.get? (Dict.set s.loaded r' ‹ℕ›) r = some k := by rw [Dict.get?_set, if_neg hne]; exact hk
        refine ⟨?_, k, this, hw⟩
        unfold FitSystem.code
        dsimp only
        rw [this, hk]
      · exact ⟨rfl, k, hk, hw⟩
  | save i =>
      unfold FitSystem.step stepProc
      dsimp only
      split
      · exact ⟨rfl, k, hk, hw⟩
      · rename_i p hp
        cases hst : p.step s.fs with
        | mk fs' p' =>
        dsimp only
        obtain ⟨c1, c2⟩ := step_content hst (fun _ _ _ f0 f1 f2 => h.free i p _ _ _ hp f0 f1 f2) (h.mapped r k hk)
          (hw p (List.mem_of_getElem? hp))
        refine ⟨?_, k, hk, fun q hq => ?_⟩
        · unfold FitSystem.code
          dsimp only
          rw [hk, Option.map_some, Option.map_some, c1]
        · rcases List.mem_or_eq_of_mem_set hq with hq | rfl
          · exact hw q hq
          · exact c2

/-- C96.  Processes save files, none of which is saved by two of them, in any order and as often as they like, and other processes load
files.  If process `r` has loaded a complete library, the code that it runs never changes, whatever is saved or loaded after that; also
when the file is saved again or is being saved. -/
theorem C96_in_use_partial {fs : FS} (hs : SoundFS fs) {jobs : List (List (Key × List ℕ))} (hown : OwnFiles jobs) (before after : List FitEvent)
    {r : ℕ} (hc : CompleteFor ((FitSystem.start fs jobs).run before) r) (hr : NotReloaded r after) :
    (((FitSystem.start fs jobs).run before).run after).code r = ((FitSystem.start fs jobs).run before).code r := by
  have hi := inv_run hown before (inv_start hs jobs)
  generalize (FitSystem.start fs jobs).run before = s at hi hc ⊢
  induction after generalizing s with
  | nil => rfl
  | cons e l ih =>
      obtain ⟨h1, h2⟩ := complete_step hi hc (e := e) (fun name he => hr name (by simp [he]))
      exact (ih (fun name hm => hr name (List.mem_cons_of_mem _ hm)) _ (inv_step hown hi e) h2).trans h1

theorem run_saves (s : FitSystem) (l : List ℕ) :
    s.run (l.map .save) = { s with fs := (runProcs (s.fs, s.procs) l).1, procs := (runProcs (s.fs, s.procs) l).2 } := by
  induction l generalizing s with
  | nil => rfl
  | cons i l ih => exact ih (s.step (.save i))

theorem sys_run_append (s : FitSystem) (l l' : List FitEvent) : s.run (l ++ l') = (s.run l).run l' := by
  simp [FitSystem.run]

/-- C96 fails when two processes save the same file: the second one can have looked for the file before the first one made it; it then
opens the file that is in use and empties it.  For every new file and all libraries, the process that has loaded the complete library of
the first runs an empty file. -/
theorem C96_same_file_broken {fs : FS} {name : Key} (h : Dict.get? fs.names name = none) (a b : List ℕ) :
    ∃ before after : List FitEvent, NotReloaded 0 after ∧
      CompleteFor ((FitSystem.start fs [[(name, a)], [(name, b)]]).run before) 0 ∧
      ((FitSystem.start fs [[(name, a)], [(name, b)]]).run before).code 0 = some a ∧
      (((FitSystem.start fs [[(name, a)], [(name, b)]]).run before).run after).code 0 = some [] := by
  let fs1 : FS := ⟨Dict.set fs.names name fs.next, Function.update fs.content fs.next [], fs.next + 1⟩
  have h0 : runProcs (fs, [Proc.start [(name, a)], Proc.start [(name, b)]]) [1, 0, 0] =
      (fs1, [⟨[(name, a)], .copy fs.next 0, false⟩, ⟨[(name, b)], .openW, false⟩]) := by
    simp [runProcs, stepProc, Proc.step, Proc.start, h, fs1]
  obtain ⟨fs2, g1, g2, g3⟩ := run_copy (name := name) (bytes := a) (i := fs.next) a.length (fs := fs1)
    (ps := [⟨[(name, a)], .copy fs.next 0, false⟩, ⟨[(name, b)], .openW, false⟩]) (q := 0) (n := 0) rfl (by simp) (by simp)
  have hrun : runProcs (fs, [Proc.start [(name, a)], Proc.start [(name, b)]]) ([1, 0, 0] ++ (List.replicate a.length 0 ++ [0])) =
      (fs2, [⟨[], .check, false⟩, ⟨[(name, b)], .openW, false⟩]) := by
    rw [runProcs_append, h0, runProcs_append, g1]
    simp [runProcs, stepProc, Proc.step]
  have hget : Dict.get? fs2.names name = some fs.next := by
    rw [g2]; simp [fs1, Dict.get?_set]
  have hc : fs2.content fs.next = a := by
    rw [g3]; simp [fs1]
  have hb : (FitSystem.start fs [[(name, a)], [(name, b)]]).run
      (([1, 0, 0] ++ (List.replicate a.length 0 ++ [0])).map .save ++ [.load 0 name]) =
      ⟨fs2, [⟨[], .check, false⟩, ⟨[(name, b)], .openW, false⟩], [(0, fs.next)]⟩ := by
    have e : ((FitSystem.start fs [[(name, a)], [(name, b)]]).fs, (FitSystem.start fs [[(name, a)], [(name, b)]]).procs) =
        (fs, [Proc.start [(name, a)], Proc.start [(name, b)]]) := rfl
    rw [sys_run_append, run_saves, e, hrun]
    simp [FitSystem.run, FitSystem.step, hget, FitSystem.start, Dict.set]
  refine ⟨([1, 0, 0] ++ (List.replicate a.length 0 ++ [0])).map .save ++ [.load 0 name], [.save 1], by simp [NotReloaded], ?_, ?_, ?_⟩
  · rw [hb]
    refine ⟨fs.next, rfl, ?_⟩
    intro p hp n bytes rest m _ h2
    simp only [List.mem_cons, List.not_mem_nil, or_false] at hp
    rcases hp with rfl | rfl <;> cases h2
  · rw [hb]
    simp [FitSystem.code, Dict.get?, hc]
  · rw [hb]
    simp [FitSystem.run, FitSystem.step, stepProc, Proc.step, hget, FitSystem.code, Dict.get?]

/-- The hypotheses of `C96_in_use_partial` are met: a process saves a file twice, another one loads it after the first time. -/
example : ∃ s : FitSystem, s = (FitSystem.start ⟨[], fun _ => [], 0⟩ [[(['f'], [1]), (['f'], [2])]]).run
      ([.save 0, .save 0, .save 0, .save 0, .load 7 ['f']]) ∧ CompleteFor s 7 ∧ s.code 7 = some [1] ∧
    SoundFS ⟨[], fun _ => [], 0⟩ ∧ OwnFiles [[(['f'], [1]), (['f'], [2])]] ∧
    (s.run [.save 0, .save 0, .save 0, .save 0, .save 0]).fs.read ['f'] = some [2] := by
  refine ⟨_, rfl, ⟨0, rfl, ?_⟩, rfl, ⟨fun n n' i h => (by cases h), fun n i h => (by cases h)⟩, ?_, rfl⟩
  · intro p hp n bytes rest m _ h2
    have hp' : p ∈ [(⟨[(['f'], [2])], .check, false⟩ : Proc)] := hp
    rw [List.mem_singleton.1 hp'] at h2
    cases h2
  · intro i j js ks hi hj hij
    have h1 := (List.getElem?_eq_some_iff.1 hi).1
    have h2 := (List.getElem?_eq_some_iff.1 hj).1
    simp at h1 h2
    omega

end Shgpy
