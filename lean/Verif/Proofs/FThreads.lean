import Verif.Spec.FThreads
import Verif.Proofs.FData

/-!
# Lemmas about threads that use one container of Fourier data
-/

namespace Shgpy.FThreads
open Spec FDataContainer

/-! ### A call that is not disturbed -/

/-- The exception and the instance after all accesses of a method. -/
noncomputable def Prog.finish : Prog → Shared → Option Err × Shared
  | .stop e, m => (e, m)
  | .ref k, m => (k m.cur).finish m
  | .items r k, m => (k (m.heap.getD r [])).finish m
  | .item r key k, m =>
      match Dict.get (m.heap.getD r []) key with
      | .ok v => (k v).finish m
      | .error e => (some e, m)
  | .store r key v p, m => p.finish { m with heap := m.heap.set r (Dict.set (m.heap.getD r []) key v) }
  | .assign d p, m => p.finish { m with heap := m.heap ++ [d], cur := m.heap.length }
  | .getScale k, m => (k m.scale).finish m
  | .setScale x p, m => p.finish { m with scale := x }
  | .getPhase k, m => (k m.phaseShift).finish m
  | .setPhase x p, m => p.finish { m with phaseShift := x }

/-- The present dictionary is one of the objects, its keys are distinct, and its arrays have the right length. -/
structure Valid (m : Shared) : Prop where
  cur : m.cur < m.heap.length
  wf : Dict.WF (m.heap.getD m.cur [])
  len : ∀ it ∈ m.heap.getD m.cur [], it.2.length = 2 * m.M + 1

/-- The instance with another dictionary in the place of the present one. -/
def Shared.put (m : Shared) (d : Dict Key (List ℂ)) : Shared := { m with heap := m.heap.set m.cur d }

theorem getD_put {m : Shared} (hm : m.cur < m.heap.length) (d : Dict Key (List ℂ)) : (m.put d).heap.getD (m.put d).cur [] = d := by
  unfold Shared.put
  simp [List.getD_eq_getElem?_getD, hm]

theorem put_put (m : Shared) (d d' : Dict Key (List ℂ)) : (m.put d).put d' = m.put d' := by
  unfold Shared.put
  simp

theorem put_self (m : Shared) : m.put (m.heap.getD m.cur []) = m := by
  unfold Shared.put
  by_cases h : m.cur < m.heap.length
  · have : m.heap.set m.cur (m.heap.getD m.cur []) = m.heap := by
      rw [List.getD_eq_getElem?_getD, List.getElem?_eq_getElem h, Option.getD_some, List.set_getElem_self]
    rw [this]
  · rw [List.set_eq_of_length_le (by omega)]

theorem inst_put {m : Shared} (hm : m.cur < m.heap.length) (d : Dict Key (List ℂ)) : (m.put d).inst = { m.inst with fdata := d } := by
  unfold Shared.inst
  rw [getD_put hm]
  rfl


theorem valid_put {m : Shared} (hm : m.cur < m.heap.length) {d : Dict Key (List ℂ)} (hd : Dict.WF d)
    (hl : ∀ it ∈ d, it.2.length = 2 * m.M + 1) : Valid (m.put d) :=
  ⟨by simpa [Shared.put] using hm, by rw [getD_put hm]; exact hd, by rw [getD_put hm]; exact hl⟩

theorem finish_scale (s : ℝ) (m : Shared) (hm : Valid m) :
    ((scaleProg s).finish m).1 = (step m.inst (.scale s)).2 ∧ ((scaleProg s).finish m).2.inst = (step m.inst (.scale s)).1 ∧
      Valid ((scaleProg s).finish m).2 := by
  rw [FDataContainer.step_scale]
  unfold scaleProg
  by_cases hs : s < 0
  · simp only [hs, if_true, Prog.finish]
    exact ⟨trivial, trivial, hm⟩
  · simp only [hs, if_false, Prog.finish]
    refine ⟨trivial, ?_, ⟨by simp, ?_, ?_⟩⟩
    · simp [Shared.inst]
    · simp only [List.getD_eq_getElem?_getD, List.getElem?_concat_length, Option.getD_some]
      have := hm.wf
      simp only [Dict.WF, Dict.keys_mapVals, List.getD_eq_getElem?_getD] at this ⊢
      exact this
    · simp only [List.getD_eq_getElem?_getD, List.getElem?_concat_length, Option.getD_some]
      intro it hit
      obtain ⟨it', hit', rfl⟩ := List.mem_map.1 hit
      have := hm.len it' (by rw [List.getD_eq_getElem?_getD]; exact hit')
      simpa using this

theorem finish_normalize (d : ℝ) (m : Shared) (hm : Valid m) :
    ((normalizeProg d).finish m).1 = (step m.inst (.normalize d)).2 ∧ ((normalizeProg d).finish m).2.inst = (step m.inst (.normalize d)).1 ∧
      Valid ((normalizeProg d).finish m).2 := by
  rw [FDataContainer.step_normalize]
  unfold normalizeProg getMaxval
  simp only [Prog.finish]
  have hd : m.inst.fdata = m.heap.getD m.cur [] := rfl
  rw [hd]
  cases maxLoop none (m.heap.getD m.cur []) with
  | error e => exact ⟨rfl, rfl, hm⟩
  | ok b =>
    cases b with
    | none => exact finish_scale 0 m hm
    | some b =>
      obtain ⟨k, x⟩ := b
      dsimp only
      by_cases hx : x = 0
      · rw [if_pos hx, if_pos hx]
        by_cases h0 : d < 0
        · rw [if_pos h0, if_pos h0]; exact ⟨rfl, rfl, hm⟩
        · rw [if_neg h0, if_neg h0]; exact ⟨rfl, rfl, hm⟩
      · rw [if_neg hx, if_neg hx]
        exact finish_scale (d / x) m hm

theorem finish_turnLoop (a : ℝ) (next : Prog) :
    ∀ (l pre : Dict Key (List ℂ)) (m : Shared), m.cur < m.heap.length → Dict.WF (pre ++ l) → m.heap.getD m.cur [] = pre ++ l →
      (∀ it ∈ l, it.2.length = 2 * m.M + 1) →
      (turnLoop m.M a next (l.map Prod.fst)).finish m = next.finish (m.put (pre ++ l.mapVals (mulComp m.M (fun i => harmonic i a))))
  | [], pre, m, hm, hwf, he, _ => by
    simp only [turnLoop, Dict.mapVals, List.map_nil]
    rw [← he, put_self]
  | (k, v) :: l, pre, m, hm, hwf, he, hlen => by
    have hk : k ∉ Dict.keys pre := by
      intro hk
      simp only [Dict.WF, Dict.keys, List.map_append, List.nodup_append] at hwf
      exact hwf.2.2 k hk k (by simp) rfl
    have hget : Dict.get (m.heap.getD m.cur []) k = .ok v := by rw [he]; exact Dict.get_append_of_notMem hk
    simp only [List.map_cons, turnLoop, Prog.finish]
    rw [hget]
    dsimp only
    rw [shiftArr_ok (hlen (k, v) List.mem_cons_self) a]
    simp only [Prog.finish]
    rw [he, Dict.set_append_of_notMem hk]
    set w := mulComp m.M (fun i => harmonic i a) v with hw
    have hwf' : Dict.WF ((pre ++ [(k, w)]) ++ l) := by
      simp only [Dict.WF, Dict.keys, List.map_append, List.map_cons, List.append_assoc, List.cons_append, List.nil_append] at hwf ⊢
      exact hwf
    have hm' : (m.put (pre ++ (k, w) :: l)).cur < (m.put (pre ++ (k, w) :: l)).heap.length := by simpa [Shared.put] using hm
    have := finish_turnLoop a next l (pre ++ [(k, w)]) (m.put (pre ++ (k, w) :: l)) hm' hwf' (by rw [getD_put hm]; simp)
      (fun it hit => hlen it (List.mem_cons_of_mem _ hit))
    change (turnLoop (m.put (pre ++ (k, w) :: l)).M a next (l.map Prod.fst)).finish (m.put (pre ++ (k, w) :: l)) = _
    rw [this, put_put]
    simp only [Dict.mapVals, List.map_cons, List.append_assoc, List.cons_append, List.nil_append]
    rfl

theorem finish_shift (a : ℝ) (u : Key) (m : Shared) (hm : Valid m) :
    ((shiftProg m.M a u).finish m).1 = (step m.inst (.phaseShift a u)).2 ∧
      ((shiftProg m.M a u).finish m).2.inst = (step m.inst (.phaseShift a u)).1 ∧ Valid ((shiftProg m.M a u).finish m).2 := by
  rw [FDataContainer.step_phaseShift (c := m.inst) hm.wf hm.len]
  unfold shiftProg
  by_cases hu : lower u = sRadians ∨ lower u = sDegrees
  · have hc : checkAngleUnits (lower u) = .ok () := by unfold checkAngleUnits; rw [if_pos hu]
    rw [if_pos hu, hc]
    simp only [Prog.finish]
    change ((turnLoop m.M (angle a u) (phaseProg (angle a u)) ((m.heap.getD m.cur []).map Prod.fst)).finish m).1 = _ ∧
      ((turnLoop m.M (angle a u) (phaseProg (angle a u)) ((m.heap.getD m.cur []).map Prod.fst)).finish m).2.inst = _ ∧
      Valid ((turnLoop m.M (angle a u) (phaseProg (angle a u)) ((m.heap.getD m.cur []).map Prod.fst)).finish m).2
    rw [finish_turnLoop (angle a u) (phaseProg (angle a u)) (m.heap.getD m.cur []) [] m hm.cur (by simpa using hm.wf) (by simp) hm.len, List.nil_append]
    have hv : Valid (m.put (Dict.mapVals (mulComp m.M (fun i => harmonic i (angle a u))) (m.heap.getD m.cur []))) := by
      refine valid_put hm.cur ?_ ?_
      · have := hm.wf
        simp only [Dict.WF, Dict.keys_mapVals] at this ⊢
        exact this
      · intro it hit
        obtain ⟨it', _, rfl⟩ := List.mem_map.1 hit
        exact length_mulComp ..
    have hi := inst_put hm.cur (Dict.mapVals (mulComp m.M (fun i => harmonic i (angle a u))) (m.heap.getD m.cur []))
    have hph : m.inst.phaseShift = m.phaseShift := rfl
    have hph' : ∀ d, (m.put d).phaseShift = m.phaseShift := fun _ => rfl
    simp only [phaseProg, Prog.finish]
    rw [hph, hph']
    cases hp : m.phaseShift with
    | num p =>
      simp only [Prog.finish]
      refine ⟨trivial, ?_, hv.cur, hv.wf, hv.len⟩
      have := getD_put hm.cur (Dict.mapVals (mulComp m.M (fun i => harmonic i (angle a u))) (m.heap.getD m.cur []))
      unfold Shared.inst
      dsimp only
      rw [this]
      rfl
    | tup p =>
      refine ⟨rfl, hi.trans ?_, hv⟩
      dsimp only
      rw [hph, hp]
      rfl
    | nd p =>
      refine ⟨rfl, hi.trans ?_, hv⟩
      dsimp only
      rw [hph, hp]
      rfl
  · have hc : checkAngleUnits (lower u) = .error .valueError := by unfold checkAngleUnits; rw [if_neg hu]
    rw [if_neg hu, hc]
    exact ⟨rfl, rfl, hm⟩

theorem finish_prog (op : Op) (m : Shared) (hm : Valid m) :
    ((prog m.M op).finish m).1 = (step m.inst op).2 ∧ ((prog m.M op).finish m).2.inst = (step m.inst op).1 ∧ Valid ((prog m.M op).finish m).2 := by
  cases op with
  | scale s => exact finish_scale s m hm
  | normalize d => exact finish_normalize d m hm
  | phaseShift a u => exact finish_shift a u m hm

/-! ### Steps of one thread -/

/-- The method has ended. -/
def Prog.Ended (p : Prog) : Prop := ∃ e, p = .stop e

theorem step_of_not_ended {w : World} {i : ℕ} {p : Prog} {l : List Op} (h : w.threads[i]? = some ⟨p, l⟩) (hp : ¬ p.Ended) :
    w.step i = ⟨(p.exec w.mem).2, w.threads.set i ⟨(p.exec w.mem).1, l⟩⟩ := by
  unfold World.step
  rw [h]
  cases p with
  | stop e => exact absurd ⟨e, rfl⟩ hp
  | _ => rfl

theorem step_of_call {w : World} {i : ℕ} {e : Option Err} {op : Op} {l : List Op} (h : w.threads[i]? = some ⟨.stop e, op :: l⟩) :
    w.step i = ⟨w.mem, w.threads.set i ⟨prog w.mem.M op, l⟩⟩ := by
  unfold World.step
  rw [h]

theorem step_of_idle {w : World} {i : ℕ} {e : Option Err} (h : w.threads[i]? = some ⟨.stop e, []⟩) :
    w.step i = ⟨w.mem, w.threads.set i ⟨.stop e, []⟩⟩ := by
  unfold World.step
  rw [h]

theorem get_set {w : World} {i : ℕ} {t t' : Thread} (h : w.threads[i]? = some t) : (w.threads.set i t')[i]? = some t' := by
  have := (List.getElem?_eq_some_iff.1 h).1
  rw [List.getElem?_set_self this]

theorem run_succ (w : World) (n i : ℕ) : w.run (List.replicate (n + 1) i) = (w.step i).run (List.replicate n i) := rfl

theorem run_add (w : World) (n n' i : ℕ) : w.run (List.replicate (n + n') i) = (w.run (List.replicate n i)).run (List.replicate n' i) := by
  rw [List.replicate_add]
  unfold World.run
  rw [List.foldl_append]

theorem finish_exec (p : Prog) (m : Shared) : p.finish m = (p.exec m).1.finish (p.exec m).2 := by
  cases p with
  | item r key k =>
    simp only [Prog.finish, Prog.exec]
    cases Dict.get (m.heap.getD r []) key <;> rfl
  | _ => rfl

/-- Left alone, the thread ends its method. -/
theorem run_method (i : ℕ) : ∀ (p : Prog) (w : World) (l : List Op), w.threads[i]? = some ⟨p, l⟩ →
    ∃ n, w.run (List.replicate n i) = ⟨(p.finish w.mem).2, w.threads.set i ⟨.stop (p.finish w.mem).1, l⟩⟩ ∧
      ∀ j < n, ∃ q, (w.run (List.replicate j i)).threads[i]? = some ⟨q, l⟩ ∧ ¬ q.Ended := by
  intro p
  have key : ∀ p : Prog, ¬ p.Ended →
      (∀ m (w : World) (l : List Op), w.threads[i]? = some ⟨(p.exec m).1, l⟩ →
        ∃ n, w.run (List.replicate n i) = ⟨((p.exec m).1.finish w.mem).2, w.threads.set i ⟨.stop ((p.exec m).1.finish w.mem).1, l⟩⟩ ∧
          ∀ j < n, ∃ q, (w.run (List.replicate j i)).threads[i]? = some ⟨q, l⟩ ∧ ¬ q.Ended) →
      ∀ (w : World) (l : List Op), w.threads[i]? = some ⟨p, l⟩ →
        ∃ n, w.run (List.replicate n i) = ⟨(p.finish w.mem).2, w.threads.set i ⟨.stop (p.finish w.mem).1, l⟩⟩ ∧
          ∀ j < n, ∃ q, (w.run (List.replicate j i)).threads[i]? = some ⟨q, l⟩ ∧ ¬ q.Ended := by
    intro p hp ih w l h
    obtain ⟨n, h1, h2⟩ := ih w.mem ⟨(p.exec w.mem).2, w.threads.set i ⟨(p.exec w.mem).1, l⟩⟩ l (get_set h)
    refine ⟨n + 1, ?_, fun j hj => ?_⟩
    · rw [run_succ, step_of_not_ended h hp, h1, finish_exec p]
      simp
    · cases j with
      | zero => exact ⟨p, h, hp⟩
      | succ j =>
        rw [run_succ, step_of_not_ended h hp]
        exact h2 j (by omega)
  have hstop : ∀ (e : Option Err) (w : World) (l : List Op), w.threads[i]? = some ⟨.stop e, l⟩ →
      ∃ n, w.run (List.replicate n i) = ⟨((Prog.stop e).finish w.mem).2, w.threads.set i ⟨.stop ((Prog.stop e).finish w.mem).1, l⟩⟩ ∧
      ∀ j < n, ∃ q, (w.run (List.replicate j i)).threads[i]? = some ⟨q, l⟩ ∧ ¬ q.Ended := by
    intro e w l h
    refine ⟨0, ?_, fun j hj => by omega⟩
    obtain ⟨h1, h2⟩ := List.getElem?_eq_some_iff.1 h
    simp only [List.replicate_zero, World.run, List.foldl_nil, Prog.finish]
    rw [← h2, List.set_getElem_self]
  induction p with
  | stop e => exact hstop e
  | ref k ih => exact key _ (by rintro ⟨e, h⟩; cases h) (fun m => ih m.cur)
  | items r k ih => exact key _ (by rintro ⟨e, h⟩; cases h) (fun m => ih _)
  | item r key' k ih =>
    refine key _ (by rintro ⟨e, h⟩; cases h) (fun m => ?_)
    simp only [Prog.exec]
    cases Dict.get (m.heap.getD r []) key' with
    | ok v => exact ih v
    | error e => exact hstop _
  | store r key' v p ih => exact key _ (by rintro ⟨e, h⟩; cases h) (fun m => ih)
  | assign d p ih => exact key _ (by rintro ⟨e, h⟩; cases h) (fun m => ih)
  | getScale k ih => exact key _ (by rintro ⟨e, h⟩; cases h) (fun m => ih _)
  | setScale x p ih => exact key _ (by rintro ⟨e, h⟩; cases h) (fun m => ih)
  | getPhase k ih => exact key _ (by rintro ⟨e, h⟩; cases h) (fun m => ih _)
  | setPhase x p ih => exact key _ (by rintro ⟨e, h⟩; cases h) (fun m => ih)

/-- The calls that a thread has still to make do not become more. -/
theorem later_le (i : ℕ) : ∀ (n : ℕ) (w : World) (t : Thread), w.threads[i]? = some t →
    ∃ t', (w.run (List.replicate n i)).threads[i]? = some t' ∧ t'.later.length ≤ t.later.length
  | 0, w, t, h => ⟨t, h, le_rfl⟩
  | n + 1, w, t, h => by
    rw [run_succ]
    obtain ⟨p, l⟩ := t
    by_cases hp : p.Ended
    · obtain ⟨e, rfl⟩ := hp
      cases l with
      | nil =>
        rw [step_of_idle h]
        obtain ⟨t', h1, h2⟩ := later_le i n ⟨w.mem, w.threads.set i ⟨.stop e, []⟩⟩ _ (get_set h)
        exact ⟨t', h1, h2⟩
      | cons op l =>
        rw [step_of_call h]
        obtain ⟨t', h1, h2⟩ := later_le i n ⟨w.mem, w.threads.set i ⟨prog w.mem.M op, l⟩⟩ _ (get_set h)
        refine ⟨t', h1, ?_⟩
        simp only [List.length_cons] at h2 ⊢
        omega
    · rw [step_of_not_ended h hp]
      obtain ⟨t', h1, h2⟩ := later_le i n ⟨(p.exec w.mem).2, w.threads.set i ⟨(p.exec w.mem).1, l⟩⟩ _ (get_set h)
      exact ⟨t', h1, h2⟩

/-- A thread that makes whole calls while the others wait makes them as if it were alone. -/
theorem run_calls (i : ℕ) : ∀ (n : ℕ) (w : World) (l l' : List Op), Valid w.mem → FResting w i (l ++ l') →
    FResting (w.run (List.replicate n i)) i l' →
    (w.run (List.replicate n i)).mem.inst = FDataContainer.run w.mem.inst l ∧ Valid (w.run (List.replicate n i)).mem := by
  intro n
  induction n using Nat.strong_induction_on with
  | _ n ih =>
    intro w l l' hv hr hr'
    obtain ⟨e, he⟩ := hr
    obtain ⟨e', he'⟩ := hr'
    cases n with
    | zero =>
      have : l = [] := by
        have h0 : w.threads[i]? = some ⟨.stop e', l'⟩ := he'
        rw [he] at h0
        have := congrArg Thread.later (Option.some.inj h0)
        simpa using this
      subst this
      exact ⟨rfl, hv⟩
    | succ n =>
      rw [run_succ] at he' ⊢
      cases hl : l ++ l' with
      | nil =>
        obtain ⟨rfl, rfl⟩ := List.append_eq_nil_iff.1 hl
        rw [hl] at he
        rw [step_of_idle he] at he' ⊢
        exact ih n (by omega) ⟨w.mem, w.threads.set i ⟨.stop e, []⟩⟩ [] [] hv ⟨e, get_set he⟩ ⟨e', he'⟩
      | cons op rest =>
        rw [hl] at he
        rw [step_of_call he] at he' ⊢
        obtain ⟨N, h1, h2⟩ := run_method i (prog w.mem.M op) ⟨w.mem, w.threads.set i ⟨prog w.mem.M op, rest⟩⟩ rest (get_set he)
        obtain ⟨f1, f2, f3⟩ := finish_prog op w.mem hv
        have hN : N ≤ n := by
          by_contra hlt
          obtain ⟨q, h3, h4⟩ := h2 n (by omega)
          rw [h3] at he'
          have := congrArg Thread.now (Option.some.inj he')
          exact h4 ⟨e', this⟩
        obtain ⟨n', rfl⟩ := Nat.exists_eq_add_of_le hN
        rw [run_add, h1] at he' ⊢
        dsimp only at he' h1 ⊢
        cases l with
        | nil =>
          exfalso
          simp only [List.nil_append] at hl
          subst hl
          obtain ⟨t', g1, g2⟩ := later_le i n' ⟨((prog w.mem.M op).finish w.mem).2, (w.threads.set i ⟨prog w.mem.M op, rest⟩).set i
            ⟨.stop ((prog w.mem.M op).finish w.mem).1, rest⟩⟩ _ (get_set (w := ⟨((prog w.mem.M op).finish w.mem).2, w.threads.set i ⟨prog w.mem.M op, rest⟩⟩)
            (t' := ⟨.stop ((prog w.mem.M op).finish w.mem).1, rest⟩) (get_set he))
          rw [he'] at g1
          have := congrArg Thread.later (Option.some.inj g1)
          dsimp only at this g2
          rw [← this] at g2
          simp at g2
        | cons op' l1 =>
          simp only [List.cons_append, List.cons.injEq] at hl
          obtain ⟨rfl, rfl⟩ := hl
          have := ih n' (by omega) ⟨((prog w.mem.M op').finish w.mem).2, (w.threads.set i ⟨prog w.mem.M op', l1 ++ l'⟩).set i
            ⟨.stop ((prog w.mem.M op').finish w.mem).1, l1 ++ l'⟩⟩ l1 l' f3 ⟨_, get_set (w := ⟨w.mem, w.threads.set i ⟨prog w.mem.M op', l1 ++ l'⟩⟩) (get_set he)⟩ ⟨e', he'⟩
          refine ⟨?_, this.2⟩
          rw [this.1]
          dsimp only
          rw [f2]
          rfl


theorem sum_set {ι : Type} (f : ι → Multiset Op) : ∀ (l : List ι) (i : ℕ) (x y : ι), l[i]? = some x →
    ((l.set i y).map f).sum + f x = (l.map f).sum + f y
  | [], i, x, y, h => by simp at h
  | a :: l, 0, x, y, h => by
    simp only [List.getElem?_cons_zero, Option.some.injEq] at h
    subst h
    simp only [List.set_cons_zero, List.map_cons, List.sum_cons]
    abel
  | a :: l, i + 1, x, y, h => by
    simp only [List.getElem?_cons_succ] at h
    have := sum_set f l i x y h
    simp only [List.set_cons_succ, List.map_cons, List.sum_cons]
    rw [add_assoc, this]
    abel


theorem run_append (w : World) (s s' : List ℕ) : w.run (s ++ s') = (w.run s).run s' := by
  unfold World.run
  rw [List.foldl_append]

/-! ### Taking turns -/

/-- The calls that the threads have still to begin. -/
def remaining (w : World) : Multiset Op := (w.threads.map (fun t => (t.later : Multiset Op))).sum

theorem step_other {w : World} {i j : ℕ} (h : j ≠ i) : (w.step i).threads[j]? = w.threads[j]? := by
  unfold World.step
  split
  · rfl
  all_goals exact List.getElem?_set_ne (Ne.symm h)

theorem run_other {i j : ℕ} (h : j ≠ i) : ∀ (n : ℕ) (w : World), (w.run (List.replicate n i)).threads[j]? = w.threads[j]?
  | 0, _ => rfl
  | n + 1, w => by rw [run_succ, run_other h n, step_other h]

theorem remaining_turn {w : World} {i n : ℕ} {l l' : List Op} (h : FResting w i (l ++ l'))
    (h' : FResting (w.run (List.replicate n i)) i l') : remaining (w.run (List.replicate n i)) + (l : Multiset Op) = remaining w := by
  obtain ⟨e, he⟩ := h
  obtain ⟨e', he'⟩ := h'
  have hset : (w.run (List.replicate n i)).threads = w.threads.set i ⟨.stop e', l'⟩ := by
    refine List.ext_getElem? (fun j => ?_)
    by_cases hj : j = i
    · subst hj
      rw [he', get_set he]
    · rw [run_other hj, List.getElem?_set_ne (Ne.symm hj)]
  unfold remaining
  rw [hset]
  have := sum_set (fun t : Thread => (t.later : Multiset Op)) w.threads i ⟨.stop e, l ++ l'⟩ ⟨.stop e', l'⟩ he
  simp only [← Multiset.coe_add] at this
  rw [← add_assoc] at this
  exact add_right_cancel this

theorem remaining_start (c : FDataContainer) (calls : List (List Op)) : remaining (start c calls) = (calls.flatten : Multiset Op) := by
  unfold remaining start
  dsimp only
  rw [List.map_map]
  induction calls with
  | nil => rfl
  | cons l calls ih =>
    rw [List.map_cons, List.sum_cons, ih, List.flatten_cons, ← Multiset.coe_add]
    rfl

theorem valid_start {c : FDataContainer} (hc : c.Good) (calls : List (List Op)) : Valid (start c calls).mem :=
  ⟨by simp [start], hc.wf, hc.len⟩

theorem inst_start (c : FDataContainer) (calls : List (List Op)) : (start c calls).mem.inst = c := rfl

theorem inTurns {w w' : World} {done : List Op} (hv : Valid w.mem) (h : FInTurns w w' done) :
    w'.mem.inst = FDataContainer.run w.mem.inst done ∧ Valid w'.mem ∧ remaining w' + (done : Multiset Op) = remaining w := by
  induction h with
  | refl => exact ⟨rfl, hv, by simp⟩
  | turn i n l l' _ h1 h2 ih =>
    obtain ⟨a, b, c⟩ := ih
    obtain ⟨d, e⟩ := run_calls i n _ l l' b h1 h2
    refine ⟨?_, e, ?_⟩
    · rw [d, a]
      unfold FDataContainer.run
      rw [List.foldl_append]
    · rw [← c, ← remaining_turn h1 h2, ← Multiset.coe_add]
      abel

theorem remaining_finished {w : World} (h : FFinished w) : remaining w = 0 := by
  unfold remaining
  refine List.sum_eq_zero (fun x hx => ?_)
  obtain ⟨t, ht, rfl⟩ := List.mem_map.1 hx
  rw [(h t ht).2]
  rfl

/-- A thread can make its next call while the others wait. -/
theorem exists_turn {w : World} {i : ℕ} {op : Op} {l : List Op} (h : FResting w i (op :: l)) :
    ∃ n, FResting (w.run (List.replicate n i)) i l := by
  obtain ⟨e, he⟩ := h
  obtain ⟨N, h1, _⟩ := run_method i (prog w.mem.M op) ⟨w.mem, w.threads.set i ⟨prog w.mem.M op, l⟩⟩ l (get_set he)
  refine ⟨N + 1, ?_⟩
  rw [run_succ, step_of_call he, h1]
  exact ⟨_, get_set (w := ⟨w.mem, w.threads.set i ⟨prog w.mem.M op, l⟩⟩) (get_set he)⟩

theorem length_step (w : World) (i : ℕ) : (w.step i).threads.length = w.threads.length := by
  unfold World.step
  split <;> simp

theorem length_run (s : List ℕ) (w : World) : (w.run s).threads.length = w.threads.length := by
  induction s generalizing w with
  | nil => rfl
  | cons i s ih => exact (ih (w.step i)).trans (length_step w i)


end Shgpy.FThreads
