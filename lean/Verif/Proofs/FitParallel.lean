import Verif.Spec.Parallel
import Verif.Proofs.FitCrash

/-!
# Proofs about processes that save files at the same time
-/

namespace Shgpy
open Spec

/-- The file `name` is untouched: same inode, same bytes. -/
def Untouched (fs fs' : FS) (name : Key) : Prop :=
  Dict.get? fs'.names name = Dict.get? fs.names name ∧
    ∀ i, Dict.get? fs.names name = some i → fs'.content i = fs.content i

theorem Untouched.read {fs fs' : FS} {name : Key} (h : Untouched fs fs' name) : fs'.read name = fs.read name := by
  unfold FS.read
  rw [h.1]
  cases hg : Dict.get? fs.names name with
  | none => rfl
  | some i => simp [h.2 i hg]

theorem Untouched.refl (fs : FS) (name : Key) : Untouched fs fs name := ⟨rfl, fun _ _ => rfl⟩

/-- Where a process is with its first file. -/
def StageOk (fs₀ fs : FS) (name : Key) (bytes : List ℕ) : Stage → Prop
  | .check => fs.read name = fs₀.read name
  | .unlink => fs.read name = fs₀.read name ∧ (Dict.get? fs.names name).isSome
  | .openW => Dict.get? fs.names name = none
  | .copy i n => Dict.get? fs.names name = some i ∧ fs.content i = bytes.take n ∧ n ≤ bytes.length

/-- The state of a process that began with the files `js`. -/
structure ProcOk (fs₀ fs : FS) (js : List (Key × List ℕ)) (p : Proc) : Prop where
  failed : p.failed = false
  split : ∃ done, js = done ++ p.jobs ∧ ∀ j ∈ done, fs.read j.1 = some j.2
  cur : ∀ name bytes rest, p.jobs = (name, bytes) :: rest → StageOk fs₀ fs name bytes p.stage
  later : ∀ j ∈ p.jobs.tail, fs.read j.1 = fs₀.read j.1

theorem StageOk.frame {fs₀ fs fs' : FS} {name : Key} {bytes : List ℕ} {st : Stage} (hu : Untouched fs fs' name)
    (h : StageOk fs₀ fs name bytes st) : StageOk fs₀ fs' name bytes st := by
  cases st with
  | check => exact hu.read.trans h
  | unlink => exact ⟨hu.read.trans h.1, by rw [hu.1]; exact h.2⟩
  | openW => exact hu.1.trans h
  | copy i n => exact ⟨hu.1.trans h.1, (hu.2 i h.1).trans h.2.1, h.2.2⟩

theorem ProcOk.frame {fs₀ fs fs' : FS} {js : List (Key × List ℕ)} {p : Proc} (h : ProcOk fs₀ fs js p)
    (hu : ∀ j ∈ js, Untouched fs fs' j.1) : ProcOk fs₀ fs' js p := by
  obtain ⟨done, hjs, hdone⟩ := h.split
  have hmem : ∀ j ∈ p.jobs, j ∈ js := fun j hj => by rw [hjs]; exact List.mem_append_right _ hj
  refine ⟨h.failed, ⟨done, hjs, fun j hj => ?_⟩, fun name bytes rest e => ?_, fun j hj => ?_⟩
  · rw [(hu j (by rw [hjs]; exact List.mem_append_left _ hj)).read]; exact hdone j hj
  · exact (h.cur name bytes rest e).frame (hu (name, bytes) (hmem _ (by rw [e]; simp)))
  · rw [(hu j (hmem j (List.mem_of_mem_tail hj))).read]; exact h.later j hj

theorem writeAt_take {bytes : List ℕ} {n b : ℕ} (h : bytes[n]? = some b) : writeAt (bytes.take n) n b = bytes.take (n + 1) := by
  obtain ⟨hn, hb⟩ := List.getElem?_eq_some_iff.1 h
  have hl : (bytes.take n).length = n := by simp; omega
  unfold writeAt
  rw [if_neg (by omega), hl, Nat.sub_self, List.take_succ_eq_append_getElem hn, hb]
  simp

theorem step_ok {fs₀ fs : FS} {js : List (Key × List ℕ)} {p : Proc} (hs : SoundFS fs) (hnd : (js.map Prod.fst).Nodup)
    (h : ProcOk fs₀ fs js p) :
    SoundFS (p.step fs).1 ∧ ProcOk fs₀ (p.step fs).1 js (p.step fs).2 ∧
      ∀ name, name ∉ js.map Prod.fst → Untouched fs (p.step fs).1 name := by
  obtain ⟨jobs, stage, failed⟩ := p
  obtain ⟨hf, ⟨done, hjs, hdone⟩, hcur, hlater⟩ := h
  simp only at hf hjs hcur hlater
  subst hf
  cases jobs with
  | nil =>
      exact ⟨hs, ⟨rfl, ⟨done, hjs, hdone⟩, hcur, hlater⟩, fun _ _ => Untouched.refl _ _⟩
  | cons j rest =>
      obtain ⟨name, bytes⟩ := j
      have hst := hcur name bytes rest rfl
      have hne : ∀ j ∈ js, j ≠ (name, bytes) → j.1 ≠ name := by
        intro j hj hne e
        rw [hjs] at hj hnd
        have hinj := List.inj_on_of_nodup_map hnd
        exact hne (hinj hj (by simp) e)
      have hdn : ∀ j ∈ done, j.1 ≠ name := by
        intro j hj e
        rw [hjs, List.map_append, List.nodup_append] at hnd
        exact hnd.2.2 j.1 (List.mem_map_of_mem hj) name (by simp) e
      have hrn : ∀ j ∈ rest, j.1 ≠ name := by
        intro j hj e
        rw [hjs, List.map_append, List.nodup_append] at hnd
        have := hnd.2.1
        simp only [List.map_cons, List.nodup_cons] at this
        exact this.1 (e ▸ List.mem_map_of_mem hj)
      have hmem : name ∈ js.map Prod.fst := by rw [hjs]; simp
      -- what remains when only the file `name` is touched
      have close : ∀ (fs' : FS) (st' : Stage), SoundFS fs' → (∀ n, n ≠ name → Untouched fs fs' n) →
          StageOk fs₀ fs' name bytes st' →
          SoundFS fs' ∧ ProcOk fs₀ fs' js ⟨(name, bytes) :: rest, st', false⟩ ∧
            ∀ n, n ∉ js.map Prod.fst → Untouched fs fs' n := by
        intro fs' st' h1 h2 h3
        refine ⟨h1, ⟨rfl, ⟨done, hjs, fun j hj => ?_⟩, ?_, fun j hj => ?_⟩, fun n hn => h2 n (fun e => hn (e ▸ hmem))⟩
        · rw [(h2 j.1 (hdn j hj)).read]; exact hdone j hj
        · intro n b r e
          simp only [List.cons.injEq, Prod.mk.injEq] at e
          obtain ⟨⟨rfl, rfl⟩, rfl⟩ := e
          exact h3
        · have hj' : j ∈ rest := hj
          rw [(h2 j.1 (hrn j hj')).read]; exact hlater j hj
      cases stage with
      | check =>
          refine close fs _ hs (fun _ _ => Untouched.refl _ _) ?_
          have hst' : fs.read name = fs₀.read name := hst
          by_cases hh : (Dict.get? fs.names name).isSome
          · rw [if_pos hh]; exact ⟨hst', hh⟩
          · rw [if_neg hh]; simpa [StageOk] using hh
      | unlink =>
          have hex := hst.2
          have e : Proc.step fs ⟨(name, bytes) :: rest, .unlink, false⟩ =
              ({ fs with names := Dict.erase fs.names name }, ⟨(name, bytes) :: rest, .openW, false⟩) := by
            simp [Proc.step, hex]
          rw [e]
          refine close _ _ ⟨?_, ?_⟩ ?_ ?_
          · intro n n' i h1 h2
            simp only [Dict.get?_erase] at h1 h2
            split at h1
            · cases h1
            · split at h2
              · cases h2
              · exact hs.1 n n' i h1 h2
          · intro n i h1
            simp only [Dict.get?_erase] at h1
            split at h1
            · cases h1
            · exact hs.2 n i h1
          · intro n hn
            exact ⟨by simp only [Dict.get?_erase]; rw [if_neg (Ne.symm hn)], fun _ _ => rfl⟩
          · simp [StageOk, Dict.get?_erase]
      | openW =>
          have hno : Dict.get? fs.names name = none := hst
          have e : Proc.step fs ⟨(name, bytes) :: rest, .openW, false⟩ =
              ({ names := Dict.set fs.names name fs.next, content := Function.update fs.content fs.next [], next := fs.next + 1 },
                ⟨(name, bytes) :: rest, .copy fs.next 0, false⟩) := by
            simp [Proc.step, hno]
          rw [e]
          refine close _ _ ⟨?_, ?_⟩ ?_ ?_
          · intro n n' i h1 h2
            simp only [Dict.get?_set] at h1 h2
            split at h1
            · split at h2
              · subst_vars; rfl
              · cases h1
                exact absurd (hs.2 _ _ h2) (lt_irrefl _)
            · split at h2
              · cases h2
                exact absurd (hs.2 _ _ h1) (lt_irrefl _)
              · exact hs.1 n n' i h1 h2
          · intro n i h1
            simp only [Dict.get?_set] at h1
            split at h1
            · cases h1; exact Nat.lt_succ_self _
            · exact Nat.lt_succ_of_lt (hs.2 n i h1)
          · intro n hn
            refine ⟨by simp only [Dict.get?_set]; rw [if_neg (Ne.symm hn)], fun i hi => ?_⟩
            have := hs.2 n i hi
            exact Function.update_of_ne (by omega) _ _
          · simp [StageOk, Dict.get?_set]
      | copy i n =>
          obtain ⟨h1, h2, h3⟩ := hst
          cases hb : bytes[n]? with
          | some b =>
              have e : Proc.step fs ⟨(name, bytes) :: rest, .copy i n, false⟩ =
                  ({ fs with content := Function.update fs.content i (writeAt (fs.content i) n b) },
                    ⟨(name, bytes) :: rest, .copy i (n + 1), false⟩) := by
                simp [Proc.step, hb]
              rw [e]
              refine close _ _ hs ?_ ?_
              · intro n' hn'
                refine ⟨rfl, fun i' hi' => ?_⟩
                refine Function.update_of_ne ?_ _ _
                rintro rfl
                exact hn' (hs.1 _ _ _ hi' h1)
              · refine ⟨h1, ?_, ?_⟩
                · simp only [Function.update_self, h2]
                  exact writeAt_take hb
                · obtain ⟨hlt, _⟩ := List.getElem?_eq_some_iff.1 hb
                  omega
          | none =>
              have e : Proc.step fs ⟨(name, bytes) :: rest, .copy i n, false⟩ = (fs, ⟨rest, .check, false⟩) := by
                simp [Proc.step, hb]
              rw [e]
              have hlen : n = bytes.length := by
                have := List.getElem?_eq_none_iff.1 hb
                omega
              have hread : fs.read name = some bytes := by
                unfold FS.read
                rw [h1, Option.map_some, h2, hlen, List.take_length]
              refine ⟨hs, ⟨rfl, ⟨done ++ [(name, bytes)], by simp [hjs], ?_⟩, ?_, ?_⟩, fun _ _ => Untouched.refl _ _⟩
              · intro j hj
                rcases List.mem_append.1 hj with hj | hj
                · exact hdone j hj
                · rw [List.mem_singleton.1 hj]; exact hread
              · intro n' b' r' e'
                simp only at e'
                exact hlater (n', b') (by simp [e'])
              · intro j hj
                exact hlater j (List.mem_of_mem_tail hj)

/-- The state of all processes. -/
structure AllOk (fs₀ : FS) (jobs : List (List (Key × List ℕ))) (s : FS × List Proc) : Prop where
  sound : SoundFS s.1
  procs : ∀ (i : ℕ) js, jobs[i]? = some js → ∃ p, s.2[i]? = some p ∧ ProcOk fs₀ s.1 js p
  len : s.2.length = jobs.length
  others : ∀ name, name ∉ jobs.flatMap (fun js => js.map Prod.fst) → s.1.read name = fs₀.read name

theorem separate_ne {jobs : List (List (Key × List ℕ))} (h : Separate jobs) {i i' : ℕ} {js js' : List (Key × List ℕ)}
    (hi : jobs[i]? = some js) (hi' : jobs[i']? = some js') (hne : i ≠ i') {name : Key} (h1 : name ∈ js.map Prod.fst) :
    name ∉ js'.map Prod.fst := by
  intro h2
  have hp := (List.nodup_flatMap.1 h).2
  obtain ⟨a, ha⟩ := List.getElem?_eq_some_iff.1 hi
  obtain ⟨b, hb⟩ := List.getElem?_eq_some_iff.1 hi'
  rw [List.pairwise_iff_getElem] at hp
  rcases Nat.lt_or_gt_of_ne hne with hlt | hlt
  · have := hp i i' a b hlt
    rw [ha, hb] at this
    exact this h1 h2
  · have := hp i' i b a hlt
    rw [ha, hb] at this
    exact this h2 h1

theorem separate_nodup {jobs : List (List (Key × List ℕ))} (h : Separate jobs) {i : ℕ} {js : List (Key × List ℕ)}
    (hi : jobs[i]? = some js) : (js.map Prod.fst).Nodup :=
  (List.nodup_flatMap.1 h).1 js (List.mem_of_getElem? hi)

theorem stepProc_ok {fs₀ : FS} {jobs : List (List (Key × List ℕ))} (hsep : Separate jobs) {s : FS × List Proc}
    (h : AllOk fs₀ jobs s) (i : ℕ) : AllOk fs₀ jobs (stepProc s i) := by
  unfold stepProc
  cases hp : s.2[i]? with
  | none => exact h
  | some p =>
      obtain ⟨hi, _⟩ := List.getElem?_eq_some_iff.1 hp
      have hij : i < jobs.length := by rw [← h.len]; exact hi
      have hjs : jobs[i]? = some jobs[i] := List.getElem?_eq_getElem hij
      obtain ⟨p', hp', hok⟩ := h.procs i _ hjs
      rw [hp] at hp'; cases hp'
      obtain ⟨h1, h2, h3⟩ := step_ok h.sound (separate_nodup hsep hjs) hok
      refine ⟨h1, ?_, by simpa using h.len, ?_⟩
      · intro i' js' hi'
        obtain ⟨q, hq, hqok⟩ := h.procs i' js' hi'
        by_cases e : i = i'
        · subst e
          rw [hjs] at hi'; cases hi'
          exact ⟨_, by simp [hi], h2⟩
        · refine ⟨q, by simp [List.getElem?_set_ne e, hq], hqok.frame (fun j hj => h3 j.1 ?_)⟩
          exact separate_ne hsep hi' hjs (Ne.symm e) (List.mem_map_of_mem hj)
      · intro name hn
        rw [(h3 name (fun hh => hn (List.mem_flatMap.2 ⟨_, List.mem_of_getElem? hjs, hh⟩))).read]
        exact h.others name hn

theorem start_ok {fs : FS} (hs : SoundFS fs) (jobs : List (List (Key × List ℕ))) : AllOk fs jobs (fs, jobs.map Proc.start) := by
  refine ⟨hs, fun i js hi => ⟨Proc.start js, by simp [hi], ?_⟩, by simp, fun _ _ => rfl⟩
  exact ⟨rfl, ⟨[], rfl, by simp⟩, fun _ _ _ _ => rfl, fun _ _ => rfl⟩

theorem run_ok {fs₀ : FS} {jobs : List (List (Key × List ℕ))} (hsep : Separate jobs) :
    ∀ (schedule : List ℕ) {s : FS × List Proc}, AllOk fs₀ jobs s → AllOk fs₀ jobs (runProcs s schedule)
  | [], _, h => h
  | i :: r, _, h => run_ok hsep r (stepProc_ok hsep h i)

/-- The number of steps that are left for a file of so many bytes. -/
def Stage.left (n : ℕ) : Stage → ℕ
  | .check => n + 4
  | .unlink => n + 3
  | .openW => n + 2
  | .copy _ k => n - k + 1

/-- The number of steps that are left. -/
def Proc.left (p : Proc) : ℕ :=
  match p.jobs with
  | [] => 0
  | (_, bytes) :: rest => p.stage.left bytes.length + stepsNeeded rest

theorem left_start (js : List (Key × List ℕ)) : (Proc.start js).left = stepsNeeded js := by
  unfold Proc.left Proc.start stepsNeeded
  cases js with
  | nil => rfl
  | cons j r => simp [Stage.left]

theorem left_step {fs₀ fs : FS} {js : List (Key × List ℕ)} {p : Proc} (h : ProcOk fs₀ fs js p) :
    (p.step fs).2.left ≤ p.left - 1 := by
  obtain ⟨jobs, stage, failed⟩ := p
  obtain ⟨hf, _, hcur, _⟩ := h
  simp only at hf hcur
  subst hf
  cases jobs with
  | nil => simp [Proc.step, Proc.left]
  | cons j rest =>
      obtain ⟨name, bytes⟩ := j
      have hst := hcur name bytes rest rfl
      cases stage with
      | check =>
          simp only [Proc.step, Proc.left, Stage.left, Bool.false_eq_true, if_false]
          by_cases hh : (Dict.get? fs.names name).isSome
          · simp only [hh, if_true]; omega
          · simp only [hh, if_false, Bool.false_eq_true]; omega
      | unlink =>
          simp only [Proc.step, Bool.false_eq_true, if_false, hst.2, if_true, Proc.left, Stage.left]
          omega
      | openW =>
          have hno : Dict.get? fs.names name = none := hst
          simp only [Proc.step, Bool.false_eq_true, if_false, hno, Proc.left, Stage.left]
          omega
      | copy i n =>
          cases hb : bytes[n]? with
          | some b =>
              obtain ⟨hlt, _⟩ := List.getElem?_eq_some_iff.1 hb
              simp only [Proc.step, Bool.false_eq_true, if_false, hb, Proc.left, Stage.left]
              omega
          | none =>
              simp only [Proc.step, Bool.false_eq_true, if_false, hb]
              have := left_start rest
              unfold Proc.start at this
              rw [this]
              simp only [Proc.left, Stage.left]
              omega

theorem run_left {fs₀ : FS} {jobs : List (List (Key × List ℕ))} (hsep : Separate jobs) {i : ℕ} {js : List (Key × List ℕ)}
    (hi : jobs[i]? = some js) : ∀ (schedule : List ℕ) {s : FS × List Proc}, AllOk fs₀ jobs s → ∀ p, s.2[i]? = some p →
      ∃ p', (runProcs s schedule).2[i]? = some p' ∧ p'.left ≤ p.left - schedule.count i
  | [], s, _, p, hp => ⟨p, hp, by simp⟩
  | j :: r, s, h, p, hp => by
      have hok := stepProc_ok hsep h j
      by_cases e : j = i
      · subst e
        obtain ⟨q, hq, hqok⟩ := h.procs j js hi
        rw [hp] at hq; cases hq
        have hl := left_step hqok
        have hi' : j < s.2.length := (List.getElem?_eq_some_iff.1 hp).1
        have hs : (stepProc s j).2[j]? = some (p.step s.1).2 := by
          unfold stepProc
          rw [hp]
          simp [hi']
        obtain ⟨p', h1, h2⟩ := run_left hsep hi r hok _ hs
        refine ⟨p', h1, ?_⟩
        rw [List.count_cons_self]
        omega
      · have hs : (stepProc s j).2[i]? = some p := by
          unfold stepProc
          split
          · exact hp
          · simp [List.getElem?_set_ne e, hp]
        obtain ⟨p', h1, h2⟩ := run_left hsep hi r hok _ hs
        refine ⟨p', h1, ?_⟩
        rw [List.count_cons_of_ne e]
        exact h2

end Shgpy
