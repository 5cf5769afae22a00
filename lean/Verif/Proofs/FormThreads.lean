import Verif.Spec.FormThreads
import Verif.Proofs.Form

/-!
# Lemmas about threads that use one container of formulas
-/

namespace Shgpy.FormThreads
open Spec

variable {α O : Type} {pr : O → Prog α}

/-! ### A call that is not disturbed -/

/-- The exception and the instance after all accesses of a method. -/
def Prog.finish : Prog α → Shared α → Option Err × Shared α
  | .stop e, m => (e, m)
  | .ref k, m => (k m.cur).finish m
  | .items r k, m => (k (m.heap.getD r [])).finish m
  | .item r key k, m =>
      match Dict.get (m.heap.getD r []) key with
      | .ok v => (k v).finish m
      | .error e => (some e, m)
  | .store r key v p, m => p.finish { m with heap := m.heap.set r (Dict.set (m.heap.getD r []) key v) }
  | .assign d p, m => p.finish ⟨m.heap ++ [d], m.heap.length⟩

/-- The present dictionary is one of the objects, and has the property `G`. -/
structure Valid (G : Dict Key α → Prop) (m : Shared α) : Prop where
  cur : m.cur < m.heap.length
  good : G m.dict

/-- The instance with another dictionary in the place of the present one. -/
def Shared.put (m : Shared α) (d : Dict Key α) : Shared α := { m with heap := m.heap.set m.cur d }

theorem dict_put {m : Shared α} (hm : m.cur < m.heap.length) (d : Dict Key α) : (m.put d).dict = d := by
  unfold Shared.put Shared.dict
  simp [List.getD_eq_getElem?_getD, hm]

theorem put_put (m : Shared α) (d d' : Dict Key α) : (m.put d).put d' = m.put d' := by
  unfold Shared.put
  simp

theorem put_self (m : Shared α) : m.put m.dict = m := by
  unfold Shared.put Shared.dict
  by_cases h : m.cur < m.heap.length
  · have : m.heap.set m.cur (m.heap.getD m.cur []) = m.heap := by
      rw [List.getD_eq_getElem?_getD, List.getElem?_eq_getElem h, Option.getD_some, List.set_getElem_self]
    rw [this]
  · rw [List.set_eq_of_length_le (by omega)]

theorem dict_new (m : Shared α) (d : Dict Key α) : (⟨m.heap ++ [d], m.heap.length⟩ : Shared α).dict = d := by
  simp [Shared.dict, List.getD_eq_getElem?_getD]

/-! ### Steps of one thread -/

/-- The method has ended. -/
def Prog.Ended (p : Prog α) : Prop := ∃ e, p = .stop e

theorem step_of_not_ended {w : World α O} {i : ℕ} {p : Prog α} {l : List O} (h : w.threads[i]? = some ⟨p, l⟩) (hp : ¬ p.Ended) :
    w.step pr i = ⟨(p.exec w.mem).2, w.threads.set i ⟨(p.exec w.mem).1, l⟩⟩ := by
  unfold World.step
  rw [h]
  cases p with
  | stop e => exact absurd ⟨e, rfl⟩ hp
  | _ => rfl

theorem step_of_call {w : World α O} {i : ℕ} {e : Option Err} {op : O} {l : List O} (h : w.threads[i]? = some ⟨.stop e, op :: l⟩) :
    w.step pr i = ⟨w.mem, w.threads.set i ⟨pr op, l⟩⟩ := by
  unfold World.step
  rw [h]

theorem step_of_idle {w : World α O} {i : ℕ} {e : Option Err} (h : w.threads[i]? = some ⟨.stop e, []⟩) :
    w.step pr i = ⟨w.mem, w.threads.set i ⟨.stop e, []⟩⟩ := by
  unfold World.step
  rw [h]

theorem get_set {w : World α O} {i : ℕ} {t t' : Thread α O} (h : w.threads[i]? = some t) : (w.threads.set i t')[i]? = some t' := by
  have := (List.getElem?_eq_some_iff.1 h).1
  rw [List.getElem?_set_self this]

theorem run_succ (w : World α O) (n i : ℕ) : w.run pr (List.replicate (n + 1) i) = (w.step pr i).run pr (List.replicate n i) := rfl

theorem run_add (w : World α O) (n n' i : ℕ) : w.run pr (List.replicate (n + n') i) = (w.run pr (List.replicate n i)).run pr (List.replicate n' i) := by
  rw [List.replicate_add]
  unfold World.run
  rw [List.foldl_append]

theorem finish_exec (p : Prog α) (m : Shared α) : p.finish m = (p.exec m).1.finish (p.exec m).2 := by
  cases p with
  | item r key k =>
    simp only [Prog.finish, Prog.exec]
    cases Dict.get (m.heap.getD r []) key <;> rfl
  | _ => rfl

/-- Left alone, the thread ends its method. -/
theorem run_method (i : ℕ) : ∀ (p : Prog α) (w : World α O) (l : List O), w.threads[i]? = some ⟨p, l⟩ →
    ∃ n, w.run pr (List.replicate n i) = ⟨(p.finish w.mem).2, w.threads.set i ⟨.stop (p.finish w.mem).1, l⟩⟩ ∧
      ∀ j < n, ∃ q, (w.run pr (List.replicate j i)).threads[i]? = some ⟨q, l⟩ ∧ ¬ q.Ended := by
  intro p
  have key : ∀ p : Prog α, ¬ p.Ended →
      (∀ m (w : World α O) (l : List O), w.threads[i]? = some ⟨(p.exec m).1, l⟩ →
        ∃ n, w.run pr (List.replicate n i) = ⟨((p.exec m).1.finish w.mem).2, w.threads.set i ⟨.stop ((p.exec m).1.finish w.mem).1, l⟩⟩ ∧
          ∀ j < n, ∃ q, (w.run pr (List.replicate j i)).threads[i]? = some ⟨q, l⟩ ∧ ¬ q.Ended) →
      ∀ (w : World α O) (l : List O), w.threads[i]? = some ⟨p, l⟩ →
        ∃ n, w.run pr (List.replicate n i) = ⟨(p.finish w.mem).2, w.threads.set i ⟨.stop (p.finish w.mem).1, l⟩⟩ ∧
          ∀ j < n, ∃ q, (w.run pr (List.replicate j i)).threads[i]? = some ⟨q, l⟩ ∧ ¬ q.Ended := by
    intro p hp ih w l h
    obtain ⟨n, h1, h2⟩ := ih w.mem ⟨(p.exec w.mem).2, w.threads.set i ⟨(p.exec w.mem).1, l⟩⟩ l (get_set h)
    refine ⟨n + 1, ?_, fun j hj => ?_⟩
    · rw [run_succ, step_of_not_ended h hp, h1, finish_exec p]
      simp
    · cases j with
      | zero => exact ⟨p, h, hp⟩
      | succ j =>
        rw [run_succ, step_of_not_ended h hp]
        exact h2 j (by omega)
  have hstop : ∀ (e : Option Err) (w : World α O) (l : List O), w.threads[i]? = some ⟨.stop e, l⟩ →
      ∃ n, w.run pr (List.replicate n i) = ⟨((Prog.stop e).finish w.mem).2, w.threads.set i ⟨.stop ((Prog.stop e).finish w.mem).1, l⟩⟩ ∧
      ∀ j < n, ∃ q, (w.run pr (List.replicate j i)).threads[i]? = some ⟨q, l⟩ ∧ ¬ q.Ended := by
    intro e w l h
    refine ⟨0, ?_, fun j hj => by omega⟩
    obtain ⟨h1, h2⟩ := List.getElem?_eq_some_iff.1 h
    simp only [List.replicate_zero, World.run, List.foldl_nil, Prog.finish]
    rw [← h2, List.set_getElem_self]
  induction p with
  | stop e => exact hstop e
  | ref k ih => exact key _ (by rintro ⟨e, h⟩; cases h) (fun m => ih m.cur)
  | items r k ih => exact key _ (by rintro ⟨e, h⟩; cases h) (fun m => ih _)
  | item r key' k ih =>
    refine key _ (by rintro ⟨e, h⟩; cases h) (fun m => ?_)
    simp only [Prog.exec]
    cases Dict.get (m.heap.getD r []) key' with
    | ok v => exact ih v
    | error e => exact hstop _
  | store r key' v p ih => exact key _ (by rintro ⟨e, h⟩; cases h) (fun m => ih)
  | assign d p ih => exact key _ (by rintro ⟨e, h⟩; cases h) (fun m => ih)

/-- The calls that a thread has still to make do not become more. -/
theorem later_le (i : ℕ) : ∀ (n : ℕ) (w : World α O) (t : Thread α O), w.threads[i]? = some t →
    ∃ t', (w.run pr (List.replicate n i)).threads[i]? = some t' ∧ t'.later.length ≤ t.later.length
  | 0, w, t, h => ⟨t, h, le_rfl⟩
  | n + 1, w, t, h => by
    rw [run_succ]
    obtain ⟨p, l⟩ := t
    by_cases hp : p.Ended
    · obtain ⟨e, rfl⟩ := hp
      cases l with
      | nil =>
        rw [step_of_idle h]
        obtain ⟨t', h1, h2⟩ := later_le i n ⟨w.mem, w.threads.set i ⟨.stop e, []⟩⟩ _ (get_set h)
        exact ⟨t', h1, h2⟩
      | cons op l =>
        rw [step_of_call h]
        obtain ⟨t', h1, h2⟩ := later_le i n ⟨w.mem, w.threads.set i ⟨pr op, l⟩⟩ _ (get_set h)
        refine ⟨t', h1, ?_⟩
        simp only [List.length_cons] at h2 ⊢
        omega
    · rw [step_of_not_ended h hp]
      obtain ⟨t', h1, h2⟩ := later_le i n ⟨(p.exec w.mem).2, w.threads.set i ⟨(p.exec w.mem).1, l⟩⟩ _ (get_set h)
      exact ⟨t', h1, h2⟩

/-- A thread that makes whole calls while the others wait makes them as if it were alone. -/
theorem run_calls {C : Type} {G : Dict Key α → Prop} {mk : Dict Key α → C} {st : C → O → C}
    (hfin : ∀ op (m : Shared α), Valid G m → mk ((pr op).finish m).2.dict = st (mk m.dict) op ∧ Valid G ((pr op).finish m).2)
    (i : ℕ) : ∀ (n : ℕ) (w : World α O) (l l' : List O), Valid G w.mem → BetweenCalls w i (l ++ l') →
    BetweenCalls (w.run pr (List.replicate n i)) i l' →
    mk (w.run pr (List.replicate n i)).mem.dict = l.foldl st (mk w.mem.dict) ∧ Valid G (w.run pr (List.replicate n i)).mem := by
  intro n
  induction n using Nat.strong_induction_on with
  | _ n ih =>
    intro w l l' hv hr hr'
    obtain ⟨e, he⟩ := hr
    obtain ⟨e', he'⟩ := hr'
    cases n with
    | zero =>
      have : l = [] := by
        have h0 : w.threads[i]? = some ⟨.stop e', l'⟩ := he'
        rw [he] at h0
        have := congrArg Thread.later (Option.some.inj h0)
        simpa using this
      subst this
      exact ⟨rfl, hv⟩
    | succ n =>
      rw [run_succ] at he' ⊢
      cases hl : l ++ l' with
      | nil =>
        obtain ⟨rfl, rfl⟩ := List.append_eq_nil_iff.1 hl
        rw [hl] at he
        rw [step_of_idle he] at he' ⊢
        exact ih n (by omega) ⟨w.mem, w.threads.set i ⟨.stop e, []⟩⟩ [] [] hv ⟨e, get_set he⟩ ⟨e', he'⟩
      | cons op rest =>
        rw [hl] at he
        rw [step_of_call he] at he' ⊢
        obtain ⟨N, h1, h2⟩ := run_method i (pr op) ⟨w.mem, w.threads.set i ⟨pr op, rest⟩⟩ rest (get_set he)
        obtain ⟨f2, f3⟩ := hfin op w.mem hv
        have hN : N ≤ n := by
          by_contra hlt
          obtain ⟨q, h3, h4⟩ := h2 n (by omega)
          rw [h3] at he'
          have := congrArg Thread.now (Option.some.inj he')
          exact h4 ⟨e', this⟩
        obtain ⟨n', rfl⟩ := Nat.exists_eq_add_of_le hN
        rw [run_add, h1] at he' ⊢
        dsimp only at he' h1 ⊢
        cases l with
        | nil =>
          exfalso
          simp only [List.nil_append] at hl
          subst hl
          obtain ⟨t', g1, g2⟩ := later_le i n' ⟨((pr op).finish w.mem).2, (w.threads.set i ⟨pr op, rest⟩).set i
            ⟨.stop ((pr op).finish w.mem).1, rest⟩⟩ _ (get_set (w := ⟨((pr op).finish w.mem).2, w.threads.set i ⟨pr op, rest⟩⟩)
            (t' := ⟨.stop ((pr op).finish w.mem).1, rest⟩) (get_set he))
          rw [he'] at g1
          have := congrArg Thread.later (Option.some.inj g1)
          dsimp only at this g2
          rw [← this] at g2
          simp at g2
        | cons op' l1 =>
          simp only [List.cons_append, List.cons.injEq] at hl
          obtain ⟨rfl, rfl⟩ := hl
          have := ih n' (by omega) ⟨((pr op').finish w.mem).2, (w.threads.set i ⟨pr op', l1 ++ l'⟩).set i
            ⟨.stop ((pr op').finish w.mem).1, l1 ++ l'⟩⟩ l1 l' f3 ⟨_, get_set (w := ⟨w.mem, w.threads.set i ⟨pr op', l1 ++ l'⟩⟩) (get_set he)⟩ ⟨e', he'⟩
          refine ⟨?_, this.2⟩
          rw [this.1]
          dsimp only
          rw [f2]
          rfl


theorem sum_set {ι : Type} (f : ι → Multiset O) : ∀ (l : List ι) (i : ℕ) (x y : ι), l[i]? = some x →
    ((l.set i y).map f).sum + f x = (l.map f).sum + f y
  | [], i, x, y, h => by simp at h
  | a :: l, 0, x, y, h => by
    simp only [List.getElem?_cons_zero, Option.some.injEq] at h
    subst h
    simp only [List.set_cons_zero, List.map_cons, List.sum_cons]
    abel
  | a :: l, i + 1, x, y, h => by
    simp only [List.getElem?_cons_succ] at h
    have := sum_set f l i x y h
    simp only [List.set_cons_succ, List.map_cons, List.sum_cons]
    rw [add_assoc, this]
    abel


theorem run_append (w : World α O) (s s' : List ℕ) : w.run pr (s ++ s') = (w.run pr s).run pr s' := by
  unfold World.run
  rw [List.foldl_append]

/-! ### Taking turns -/

/-- The calls that the threads have still to begin. -/
def remaining (w : World α O) : Multiset O := (w.threads.map (fun t => (t.later : Multiset O))).sum

theorem step_other {w : World α O} {i j : ℕ} (h : j ≠ i) : (w.step pr i).threads[j]? = w.threads[j]? := by
  unfold World.step
  split
  · rfl
  all_goals exact List.getElem?_set_ne (Ne.symm h)

theorem run_other {i j : ℕ} (h : j ≠ i) : ∀ (n : ℕ) (w : World α O), (w.run pr (List.replicate n i)).threads[j]? = w.threads[j]?
  | 0, _ => rfl
  | n + 1, w => by rw [run_succ, run_other h n, step_other h]

theorem remaining_turn {w : World α O} {i n : ℕ} {l l' : List O} (h : BetweenCalls w i (l ++ l'))
    (h' : BetweenCalls (w.run pr (List.replicate n i)) i l') : remaining (w.run pr (List.replicate n i)) + (l : Multiset O) = remaining w := by
  obtain ⟨e, he⟩ := h
  obtain ⟨e', he'⟩ := h'
  have hset : (w.run pr (List.replicate n i)).threads = w.threads.set i ⟨.stop e', l'⟩ := by
    refine List.ext_getElem? (fun j => ?_)
    by_cases hj : j = i
    · subst hj
      rw [he', get_set he]
    · rw [run_other hj, List.getElem?_set_ne (Ne.symm hj)]
  unfold remaining
  rw [hset]
  have := sum_set (fun t : Thread α O => (t.later : Multiset O)) w.threads i ⟨.stop e, l ++ l'⟩ ⟨.stop e', l'⟩ he
  simp only [← Multiset.coe_add] at this
  rw [← add_assoc] at this
  exact add_right_cancel this

theorem remaining_start (d : Dict Key α) (calls : List (List O)) : remaining (start d calls) = (calls.flatten : Multiset O) := by
  unfold remaining start
  dsimp only
  rw [List.map_map]
  induction calls with
  | nil => rfl
  | cons l calls ih =>
    rw [List.map_cons, List.sum_cons, ih, List.flatten_cons, ← Multiset.coe_add]
    rfl

theorem inTurns {C : Type} {G : Dict Key α → Prop} {mk : Dict Key α → C} {st : C → O → C}
    (hfin : ∀ op (m : Shared α), Valid G m → mk ((pr op).finish m).2.dict = st (mk m.dict) op ∧ Valid G ((pr op).finish m).2)
    {w w' : World α O} {done : List O} (hv : Valid G w.mem) (h : TakingTurns pr w w' done) :
    mk w'.mem.dict = done.foldl st (mk w.mem.dict) ∧ Valid G w'.mem ∧ remaining w' + (done : Multiset O) = remaining w := by
  induction h with
  | refl => exact ⟨rfl, hv, by simp⟩
  | turn i n l l' _ h1 h2 ih =>
    obtain ⟨a, b, c⟩ := ih
    obtain ⟨d, e⟩ := run_calls hfin i n _ l l' b h1 h2
    refine ⟨?_, e, ?_⟩
    · rw [d, a, List.foldl_append]
    · rw [← c, ← remaining_turn h1 h2, ← Multiset.coe_add]
      abel

theorem remaining_finished {w : World α O} (h : AllDone w) : remaining w = 0 := by
  unfold remaining
  refine List.sum_eq_zero (fun x hx => ?_)
  obtain ⟨t, ht, rfl⟩ := List.mem_map.1 hx
  rw [(h t ht).2]
  rfl

/-- A thread can make its next call while the others wait. -/
theorem exists_turn {w : World α O} {i : ℕ} {op : O} {l : List O} (h : BetweenCalls w i (op :: l)) :
    ∃ n, BetweenCalls (w.run pr (List.replicate n i)) i l := by
  obtain ⟨e, he⟩ := h
  obtain ⟨N, h1, _⟩ := run_method i (pr op) ⟨w.mem, w.threads.set i ⟨pr op, l⟩⟩ l (get_set he)
  refine ⟨N + 1, ?_⟩
  rw [run_succ, step_of_call he, h1]
  exact ⟨_, get_set (w := ⟨w.mem, w.threads.set i ⟨pr op, l⟩⟩) (get_set he)⟩

theorem length_step (w : World α O) (i : ℕ) : (w.step pr i).threads.length = w.threads.length := by
  unfold World.step
  split <;> simp

theorem length_run (s : List ℕ) (w : World α O) : (w.run pr s).threads.length = w.threads.length := by
  induction s generalizing w with
  | nil => rfl
  | cons i s ih => exact (ih (w.step pr i)).trans (length_step w i)




end Shgpy.FormThreads
