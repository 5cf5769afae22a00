import Verif.Spec.ModelParallel
import Verif.Props.FitCrash

/-!
# Proofs about processes that generate model functions at the same time
-/

set_option linter.unusedSimpArgs false

namespace Shgpy
open Spec

theorem copyWrites_length (libs : List (Key × CFunc)) : (copyWrites libs).length = 2 * libs.length := by
  unfold copyWrites
  induction libs with
  | nil => rfl
  | cons p r ih => rw [List.flatMap_cons, List.length_append, ih]; simp; omega

theorem mem_copyWrites {libs : List (Key × CFunc)} {q : Key × Content} (h : q ∈ copyWrites libs) :
    ∃ f, (q.1, f) ∈ libs ∧ (q.2 = none ∨ q.2 = some f) := by
  obtain ⟨p, hp, hq⟩ := List.mem_flatMap.1 h
  simp only [List.mem_cons, List.not_mem_nil, or_false] at hq
  rcases hq with rfl | rfl
  · exact ⟨p.2, hp, Or.inl rfl⟩
  · exact ⟨p.2, hp, Or.inr rfl⟩

/-- A file is opened before it is completed. -/
theorem copyWrites_opened : ∀ (libs : List (Key × CFunc)) (done : List (Key × Content)) {name : Key} {f : CFunc}
    {r : List (Key × Content)}, copyWrites libs = done ++ (name, some f) :: r → name ∈ done.map Prod.fst
  | [], done, name, f, r, h => by
      have := congrArg List.length h
      simp [copyWrites] at this
  | p :: libs, done, name, f, r, h => by
      have h' : (p.1, none) :: (p.1, some p.2) :: copyWrites libs = done ++ (name, some f) :: r := h
      match done, h' with
      | [], h' => simp at h'
      | [q], h' =>
          simp only [List.cons_append, List.nil_append, List.cons.injEq, Prod.mk.injEq] at h'
          simp [← h'.1, h'.2.1.1]
      | q :: q' :: done, h' =>
          simp only [List.cons_append, List.cons.injEq] at h'
          have := copyWrites_opened libs done h'.2.2
          simp only [List.map_cons, List.mem_cons]
          exact Or.inr (Or.inr this)

theorem foldl_copyWrites : ∀ (libs : List (Key × CFunc)) (d : Dict Key Content),
    (copyWrites libs).foldl (fun d p => Dict.set d p.1 p.2) d =
      (libs.map (fun p => (p.1, some p.2))).foldl (fun d p => Dict.set d p.1 p.2) d
  | [], d => rfl
  | p :: libs, d => by
      show (copyWrites libs).foldl _ (Dict.set (Dict.set d p.1 none) p.1 (some p.2)) = _
      rw [Dict.set_set, foldl_copyWrites libs]
      rfl

/-- The state of a process that began with the path `n₀` and the libraries `libs`. -/
def MStageOk (n₀ n : Option Node) (libs : List (Key × CFunc)) : MStage → Prop
  | .check => n = n₀ ∧ ∀ c, n₀ ≠ some (.file c)
  | .remove todo => ∃ c₀ c, n₀ = some (.dir c₀) ∧ n = some (.dir c) ∧ (∀ k ∈ Dict.keys c, k ∈ todo) ∧
      ∀ name v, Dict.get? c name = some v → Dict.get? c₀ name = some v
  | .rmdir => n = some (.dir [])
  | .mkdir => n = none
  | .copy todo => ∃ done, copyWrites libs = done ++ todo ∧
      n = some (.dir (done.foldl (fun d p => Dict.set d p.1 p.2) []))

/-- How many steps remain. -/
def mLeft (n : Option Node) (libs : List (Key × CFunc)) : MStage → ℕ
  | .check => fileCount n + 2 * libs.length + 4
  | .remove todo => todo.length + 2 * libs.length + 3
  | .rmdir => 2 * libs.length + 2
  | .mkdir => 2 * libs.length + 1
  | .copy todo => todo.length

structure MOk (n₀ n : Option Node) (libs : List (Key × CFunc)) (p : MProc) : Prop where
  failed : p.failed = false
  libs_eq : p.libs = libs
  stage : MStageOk n₀ n libs p.stage

theorem mem_keys_erase {d : Dict Key Content} {k k' : Key} (h : k' ∈ Dict.keys (Dict.erase d k)) : k' ∈ Dict.keys d ∧ k' ≠ k := by
  obtain ⟨q, hq, rfl⟩ := List.mem_map.1 h
  obtain ⟨h1, h2⟩ := List.mem_filter.1 hq
  exact ⟨List.mem_map_of_mem h1, by simpa using h2⟩

theorem MOk.step (L : Listing) {n₀ n : Option Node} {libs : List (Key × CFunc)} {p : MProc} (h : MOk n₀ n libs p) :
    MOk n₀ (p.step L n).1 libs (p.step L n).2 ∧ (p.step L n).2.folder = p.folder ∧
      mLeft (p.step L n).1 libs (p.step L n).2.stage ≤ mLeft n libs p.stage - 1 := by
  obtain ⟨folder, libs', stage, failed⟩ := p
  obtain ⟨hf, hl, hst⟩ := h
  simp only at hf hl hst
  subst hf hl
  cases stage with
  | check =>
      obtain ⟨rfl, hfile⟩ := hst
      match n, hfile with
      | none, _ => exact ⟨⟨rfl, rfl, rfl⟩, rfl, by simp [MProc.step, mLeft, listFolder, fileCount]⟩
      | some (.file c), hfile => exact absurd rfl (hfile c)
      | some (.dir c), _ =>
          refine ⟨⟨rfl, rfl, c, c, rfl, rfl, fun k hk => ?_, fun _ _ h => h⟩, rfl, ?_⟩
          · exact ((L.perm c).map Prod.fst).mem_iff.2 hk
          · simp [MProc.step, mLeft, listFolder, fileCount, (L.perm c).length_eq]
  | remove todo =>
      obtain ⟨c₀, c, rfl, rfl, h1, h2⟩ := hst
      cases todo with
      | nil =>
          have hc : c = [] := by
            cases c with
            | nil => rfl
            | cons q r => exact absurd (h1 q.1 (by simp [Dict.keys])) (by simp)
          subst hc
          exact ⟨⟨rfl, rfl, rfl⟩, rfl, by simp [MProc.step, mLeft, listFolder]⟩
      | cons name r =>
          refine ⟨⟨rfl, rfl, c₀, Dict.erase c name, rfl, rfl, fun k hk => ?_, fun k v hv => ?_⟩, rfl, by simp [MProc.step, mLeft, listFolder]⟩
          · obtain ⟨h3, h4⟩ := mem_keys_erase hk
            exact (List.mem_cons.1 (h1 k h3)).resolve_left h4
          · rw [Dict.get?_erase] at hv
            split at hv
            · cases hv
            · exact h2 k v hv
  | rmdir =>
      have hn : n = some (.dir []) := hst
      subst hn
      exact ⟨⟨rfl, rfl, rfl⟩, rfl, by simp [MProc.step, mLeft, listFolder]⟩
  | mkdir =>
      have hn : n = none := hst
      subst hn
      exact ⟨⟨rfl, rfl, [], rfl, rfl⟩, rfl, by simp [MProc.step, mLeft, listFolder, copyWrites_length]⟩
  | copy todo =>
      obtain ⟨done, h1, rfl⟩ := hst
      cases todo with
      | nil => exact ⟨⟨rfl, rfl, done, h1, rfl⟩, rfl, by simp [MProc.step, mLeft, listFolder]⟩
      | cons q r =>
          obtain ⟨name, v⟩ := q
          refine ⟨⟨rfl, rfl, done ++ [(name, v)], by rw [h1]; simp, ?_⟩, rfl, by simp [MProc.step, mLeft, listFolder]⟩
          show putLib _ name v = _
          rw [List.foldl_append]
          cases v with
          | none => rfl
          | some f =>
              have := copyWrites_opened libs' done h1
              have hk : name ∈ Dict.keys (done.foldl (fun (d : Dict Key Content) p => Dict.set d p.1 p.2) []) := Dict.mem_keys_ofPairs.2 this
              simp only [putLib, if_pos hk]
              rfl

theorem MOk.progress {n₀ n : Option Node} {libs : List (Key × CFunc)} {p : MProc} (h : MOk n₀ n libs p) :
    (n = n₀ ∧ ∀ c, n₀ ≠ some (.file c)) ∨ FolderProgress n₀ n libs := by
  have hst := h.stage
  cases hs : p.stage with
  | check => rw [hs] at hst; exact Or.inl hst
  | remove todo =>
      rw [hs] at hst
      obtain ⟨c₀, c, h1, h2, _, h3⟩ := hst
      exact Or.inr (Or.inr (Or.inl ⟨c₀, c, h1, h2, h3⟩))
  | rmdir =>
      rw [hs] at hst
      exact Or.inr (Or.inr (Or.inr ⟨[], hst, fun name v hv => by cases hv⟩))
  | mkdir => rw [hs] at hst; exact Or.inr (Or.inl hst)
  | copy todo =>
      rw [hs] at hst
      obtain ⟨done, h1, h2⟩ := hst
      refine Or.inr (Or.inr (Or.inr ⟨_, h2, fun name v hv => ?_⟩))
      have hv' : Dict.get? (Dict.ofPairs done) name = some v := hv
      obtain ⟨pre, post, h3, _⟩ := (mem_ofPairs_iff done name v).1 ((Dict.get?_eq_some_iff (Dict.WF_ofPairs done)).1 hv')
      exact mem_copyWrites (q := (name, v)) (by rw [h1, h3]; simp)

/-- All processes at once, each after so many steps. -/
structure MAllOk (fs₀ : Key → Option Node) (calls : List (Key × List (Key × CFunc))) (cnt : ℕ → ℕ) (s : MState) : Prop where
  length : s.2.length = calls.length
  procs : ∀ (i : ℕ) call, calls[i]? = some call → ∃ p, s.2[i]? = some p ∧ p.folder = call.1 ∧
    MOk (fs₀ call.1) (s.1 call.1) call.2 p ∧ mLeft (s.1 call.1) call.2 p.stage ≤ folderSteps (fs₀ call.1) call.2 - cnt i
  others : ∀ path, path ∉ calls.map Prod.fst → s.1 path = fs₀ path

theorem runM_ok (L : Listing) {fs : Key → Option Node} {calls : List (Key × List (Key × CFunc))} (hne : (calls.map Prod.fst).Nodup)
    (hfile : ∀ call ∈ calls, ∀ c, fs call.1 ≠ some (.file c)) (schedule : List ℕ) :
    MAllOk fs calls (fun i => schedule.count i) (runM L (fs, calls.map (fun c => MProc.start c.1 c.2)) schedule) := by
  induction schedule using List.reverseRecOn with
  | nil =>
      refine ⟨by simp [runM], fun i call hi => ⟨MProc.start call.1 call.2, by simp [runM, hi], rfl, ⟨rfl, rfl, rfl, ?_⟩, ?_⟩, fun _ _ => rfl⟩
      · exact hfile call (List.mem_of_getElem? hi)
      · exact le_of_eq rfl
  | append_singleton sch j ih =>
      have hrun : runM L (fs, calls.map (fun c => MProc.start c.1 c.2)) (sch ++ [j]) =
          stepM L (runM L (fs, calls.map (fun c => MProc.start c.1 c.2)) sch) j := by
        unfold runM; rw [List.foldl_append]; rfl
      rw [hrun]
      generalize runM L (fs, calls.map (fun c => MProc.start c.1 c.2)) sch = s at ih ⊢
      unfold stepM
      cases hj : s.2[j]? with
      | none =>
          dsimp only
          refine ⟨ih.length, fun i call hi => ?_, ih.others⟩
          obtain ⟨p, h1, h2, h3, h4⟩ := ih.procs i call hi
          have : i ≠ j := by rintro rfl; rw [hj] at h1; cases h1
          refine ⟨p, h1, h2, h3, ?_⟩
          rw [List.count_append, List.count_singleton]
          simpa [Ne.symm this] using h4
      | some q =>
          dsimp only
          have hjl : j < calls.length := by rw [← ih.length]; exact (List.getElem?_eq_some_iff.1 hj).1
          obtain ⟨callj, hcj⟩ : ∃ c, calls[j]? = some c := ⟨_, List.getElem?_eq_getElem hjl⟩
          obtain ⟨q', g1, g2, g3, g4⟩ := ih.procs j callj hcj
          rw [hj] at g1; cases g1
          obtain ⟨k1, k2, k3⟩ := g3.step L
          rw [g2]
          refine ⟨by simp [ih.length], fun i call hi => ?_, fun path hp => ?_⟩
          · by_cases hij : i = j
            · subst hij
              rw [hcj] at hi; cases hi
              refine ⟨_, by rw [List.getElem?_set_self (by rw [ih.length]; exact hjl)], k2.trans g2, ?_, ?_⟩
              · dsimp only; rw [Function.update_self]; exact k1
              · dsimp only; rw [Function.update_self, List.count_append, List.count_singleton]
                simp only [beq_self_eq_true, if_true]
                omega
            · obtain ⟨p, h1, h2, h3, h4⟩ := ih.procs i call hi
              have hfo : call.1 ≠ callj.1 := by
                intro e
                have hi' := (List.getElem?_eq_some_iff.1 hi).1
                have := (List.Nodup.getElem_inj_iff hne (i := i) (j := j) (hi := by simpa using hi') (hj := by simpa using hjl)).1 (by
                  rw [List.getElem_map, List.getElem_map, (List.getElem?_eq_some_iff.1 hi).2, (List.getElem?_eq_some_iff.1 hcj).2]
                  exact e)
                exact hij this
              refine ⟨p, by rw [List.getElem?_set_ne (Ne.symm hij)]; exact h1, h2, ?_, ?_⟩
              · dsimp only; rw [Function.update_of_ne hfo]; exact h3
              · dsimp only; rw [Function.update_of_ne hfo, List.count_append, List.count_singleton]
                simpa [Ne.symm hij] using h4
          · dsimp only; rw [Function.update_of_ne]
            · exact ih.others path hp
            · rintro rfl
              exact hp (List.mem_map_of_mem (List.mem_of_getElem? hcj))

theorem runM_append (L : Listing) (s : MState) (a b : List ℕ) : runM L s (a ++ b) = runM L (runM L s a) b := by
  unfold runM; rw [List.foldl_append]

/-- A process that has no steps left. -/
theorem MOk.finished {n₀ n : Option Node} {libs : List (Key × CFunc)} {p : MProc} (h : MOk n₀ n libs p)
    (h0 : mLeft n libs p.stage = 0) : p.stage = .copy [] ∧ n = some (libFolder libs) := by
  have hst := h.stage
  cases hs : p.stage with
  | check => rw [hs] at h0; simp [mLeft] at h0
  | remove todo => rw [hs] at h0; simp [mLeft] at h0
  | rmdir => rw [hs] at h0; simp [mLeft] at h0
  | mkdir => rw [hs] at h0; simp [mLeft] at h0
  | copy todo =>
      rw [hs] at h0 hst
      have htodo : todo = [] := List.length_eq_zero_iff.1 h0
      subst htodo
      refine ⟨rfl, ?_⟩
      obtain ⟨done, h4, h5⟩ := hst
      rw [List.append_nil] at h4
      rw [h5, ← h4, foldl_copyWrites]
      rfl

/-- Steps of one process only. -/
theorem runM_steps (L : Listing) {n₀ : Option Node} {libs : List (Key × CFunc)} : ∀ (n : ℕ) {s : MState} {i : ℕ} {p : MProc},
    s.2[i]? = some p → MOk n₀ (s.1 p.folder) libs p →
    ∃ x p', runM L s (List.replicate n i) = (Function.update s.1 p.folder x, s.2.set i p') ∧ MOk n₀ x libs p' ∧
      mLeft x libs p'.stage ≤ mLeft (s.1 p.folder) libs p.stage - n
  | 0, s, i, p, hi, h => by
      obtain ⟨hl, he⟩ := List.getElem?_eq_some_iff.1 hi
      refine ⟨s.1 p.folder, p, ?_, h, le_of_eq rfl⟩
      rw [Function.update_eq_self, ← he, List.set_getElem_self hl]
      rfl
  | n + 1, s, i, p, hi, h => by
      obtain ⟨hl, _⟩ := List.getElem?_eq_some_iff.1 hi
      obtain ⟨k1, k2, k3⟩ := h.step L
      have e : stepM L s i = (Function.update s.1 p.folder (p.step L (s.1 p.folder)).1, s.2.set i (p.step L (s.1 p.folder)).2) := by
        unfold stepM; rw [hi]
      obtain ⟨x, p', g1, g2, g3⟩ := runM_steps L n (s := stepM L s i) (i := i) (p := (p.step L (s.1 p.folder)).2)
        (by rw [e]; simp [hl]) (by rw [e, k2]; simpa using k1)
      rw [e, k2] at g1 g3
      dsimp only at g1 g3
      rw [Function.update_self] at g3
      refine ⟨x, p', ?_, g2, by omega⟩
      show runM L (stepM L s i) (List.replicate n i) = _
      rw [e, g1, Function.update_idem, List.set_set]

/-- A process that makes enough steps, without the others making a step. -/
theorem runM_alone (L : Listing) {s : MState} {i : ℕ} {folder : Key} {libs : List (Key × CFunc)} {n : ℕ}
    (hn : folderSteps (s.1 folder) libs ≤ n) (hi : s.2[i]? = some (MProc.start folder libs)) (hfile : ∀ c, s.1 folder ≠ some (.file c)) :
    ∃ p, runM L s (List.replicate n i) = (Function.update s.1 folder (some (libFolder libs)), s.2.set i p) ∧ p.failed = false ∧
      p.stage = .copy [] := by
  obtain ⟨x, p', h1, h2, h3⟩ := runM_steps L n (n₀ := s.1 folder) (libs := libs) hi ⟨rfl, rfl, rfl, hfile⟩
  have h0 : mLeft x libs p'.stage = 0 := by
    have : mLeft (s.1 folder) libs MStage.check = folderSteps (s.1 folder) libs := rfl
    change mLeft x libs p'.stage ≤ mLeft (s.1 folder) libs MStage.check - n at h3
    omega
  obtain ⟨h4, rfl⟩ := h2.finished h0
  exact ⟨p', h1, h2.failed, h4⟩

/-- A process that copies its libraries to a folder, without the others making a step. -/
theorem runM_copy (L : Listing) : ∀ (libs : List (Key × CFunc)) (s : MState) (i : ℕ) (folder : Key) (all : List (Key × CFunc))
    (c : Dict Key Content), s.2[i]? = some ⟨folder, all, .copy (copyWrites libs), false⟩ → s.1 folder = some (.dir c) →
    runM L s (List.replicate (2 * libs.length) i) =
      (Function.update s.1 folder (some (.dir ((libs.map (fun p => (p.1, some p.2))).foldl (fun d p => Dict.set d p.1 p.2) c))),
        s.2.set i ⟨folder, all, .copy [], false⟩)
  | [], s, i, folder, all, c, hi, hc => by
      obtain ⟨hl, he⟩ := List.getElem?_eq_some_iff.1 hi
      have h1 : s.2.set i ⟨folder, all, .copy [], false⟩ = s.2 := by
        have : s.2[i] = ⟨folder, all, .copy [], false⟩ := he
        rw [← this]
        exact List.set_getElem_self hl
      have h2 : Function.update s.1 folder (some (.dir c)) = s.1 := by rw [← hc]; exact Function.update_eq_self _ _
      show s = (Function.update s.1 folder (some (.dir c)), _)
      rw [h1, h2]
  | (name, f) :: libs, s, i, folder, all, c, hi, hc => by
      obtain ⟨hl, he⟩ := List.getElem?_eq_some_iff.1 hi
      have hrep : List.replicate (2 * ((name, f) :: libs).length) i = i :: i :: List.replicate (2 * libs.length) i := by
        rw [List.length_cons, Nat.mul_succ, List.replicate_succ, List.replicate_succ]
      have e1 : stepM L s i = (Function.update s.1 folder (some (.dir (Dict.set c name none))),
          s.2.set i ⟨folder, all, .copy ((name, some f) :: copyWrites libs), false⟩) := by
        unfold stepM
        rw [hi]
        simp only [MProc.step, copyWrites, List.flatMap_cons, List.cons_append, List.nil_append, hc, putLib]
        rfl
      have hk : name ∈ Dict.keys (Dict.set c name none) := Dict.mem_keys_set.2 (Or.inl rfl)
      have e2 : stepM L (stepM L s i) i = (Function.update s.1 folder (some (.dir (Dict.set c name (some f)))),
          s.2.set i ⟨folder, all, .copy (copyWrites libs), false⟩) := by
        rw [e1]
        unfold stepM
        dsimp only
        rw [List.getElem?_set_self hl]
        simp only [MProc.step, Function.update_self, putLib, if_pos hk, Function.update_idem, List.set_set, Dict.set_set]
        rfl
      have hrun : runM L s (i :: i :: List.replicate (2 * libs.length) i) =
          runM L (stepM L (stepM L s i) i) (List.replicate (2 * libs.length) i) := rfl
      rw [hrep, hrun, e2, runM_copy L libs _ i folder all (Dict.set c name (some f)) (by simp [hl]) (by simp)]
      simp only [Function.update_idem, List.set_set]
      rfl

theorem Dict.set_self {κ : Type} [DecidableEq κ] {α : Type} : ∀ (d : Dict κ α) {k : κ} {v : α}, Dict.get? d k = some v →
    Dict.set d k v = d
  | [], k, v, h => by cases h
  | (k₀, v₀) :: d, k, v, h => by
      by_cases hk : k₀ = k
      · subst hk
        simp only [Dict.get?, if_true, Option.some.injEq] at h
        subst h
        simp [Dict.set]
      · simp only [Dict.get?, if_neg hk] at h
        simp only [Dict.set, if_neg hk, Dict.set_self d h]

theorem Dict.set_append {κ : Type} [DecidableEq κ] {α : Type} : ∀ (pre : Dict κ α) {k : κ} (_ : k ∉ Dict.keys pre) (x y : α) (t : Dict κ α),
    Dict.set (pre ++ (k, x) :: t) k y = pre ++ (k, y) :: t
  | [], k, _, x, y, t => by simp [Dict.set]
  | (k₀, v₀) :: pre, k, hk, x, y, t => by
      have h0 : k₀ ≠ k := fun e => hk (by simp [Dict.keys, e])
      have h1 : k ∉ Dict.keys pre := fun h => hk (by simp only [Dict.keys, List.map_cons, List.mem_cons]; exact Or.inr h)
      simp only [List.cons_append, Dict.set, if_neg h0, Dict.set_append pre h1]

/-- Writing all entries again. -/
theorem foldl_overwrite : ∀ (r₀ r₁ pre : Dict Key Content), r₀.map Prod.fst = r₁.map Prod.fst →
    (Dict.keys pre ++ r₁.map Prod.fst).Nodup → r₁.foldl (fun d p => Dict.set d p.1 p.2) (pre ++ r₀) = pre ++ r₁
  | [], [], pre, _, _ => rfl
  | [], _ :: _, pre, h, _ => by simp at h
  | _ :: _, [], pre, h, _ => by simp at h
  | (a, x) :: r₀, (b, y) :: r₁, pre, h, hnd => by
      simp only [List.map_cons, List.cons.injEq] at h
      obtain ⟨rfl, h⟩ := h
      rw [List.map_cons] at hnd
      have ha : a ∉ Dict.keys pre := fun h' => (List.nodup_append.1 hnd).2.2 a h' a (by simp) rfl
      rw [List.foldl_cons, Dict.set_append pre ha]
      have e : pre ++ (a, y) :: r₀ = (pre ++ [(a, y)]) ++ r₀ := by simp
      rw [e, foldl_overwrite r₀ r₁ (pre ++ [(a, y)]) h (by simpa [Dict.keys] using hnd)]
      simp

section
variable (S : Sympy) (C : Compiler)

theorem libs_copySteps (folder : Key) (fs : List (Key × CFunc)) : (copySteps folder fs).filterMap Step.lib = fs := by
  unfold copySteps
  induction fs with
  | nil => rfl
  | cons p r ih => rw [List.flatMap_cons, List.filterMap_append, ih]; rfl

theorem libs_rmtree (L : Listing) (d : Disk) (folder : Key) : (rmtreeSteps L d folder ++ [Step.mkdir folder]).filterMap Step.lib = [] := by
  unfold rmtreeSteps
  split
  · rfl
  · simp [Step.lib]

end
end Shgpy
