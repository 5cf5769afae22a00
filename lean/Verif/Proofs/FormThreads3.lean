import Verif.Proofs.FormThreads2

/-!
# Lemmas about threads that use one container of formulas: any schedule
-/

namespace Shgpy.FormThreads
open Spec

variable {α O : Type} {pr : O → Prog α}

/-- What is known of the value of a combination when the calls in the multiset may have contributed to it. -/
structure Labels (α O : Type) where
  data : Multiset O → Key → α → Prop
  data_mono : ∀ {a b : Multiset O}, a ≤ b → ∀ {k v}, data a k v → data b k v

/-- The number of dictionary objects, and the calls that have written to each combination. -/
structure Ghost (O : Type) where
  n : ℕ
  wrote : Key → Multiset O

instance : LE (Ghost O) := ⟨fun g g' => g.n ≤ g'.n ∧ ∀ t, g.wrote t ≤ g'.wrote t⟩

theorem Ghost.refl (g : Ghost O) : g ≤ g := ⟨le_rfl, fun _ => le_rfl⟩
theorem Ghost.trans {g g' g'' : Ghost O} (h : g ≤ g') (h' : g' ≤ g'') : g ≤ g'' := ⟨h.1.trans h'.1, fun t => (h.2 t).trans (h'.2 t)⟩

/-- The calls pending for the places in `S`. -/
def part (S : Key → Bool) (pend : Key → Multiset O) (t : Key) : Multiset O := if S t then pend t else 0

/-- The calls pending for the other places. -/
def rest (S : Key → Bool) (pend : Key → Multiset O) (t : Key) : Multiset O := if S t then 0 else pend t

theorem part_rest (S : Key → Bool) (pend : Key → Multiset O) (t : Key) : part S pend t + rest S pend t = pend t := by
  unfold part rest
  split_ifs <;> simp

/-- The pending contributions to the places in `S` are written. -/
def Ghost.add (g : Ghost O) (S : Key → Bool) (pend : Key → Multiset O) : Ghost O := ⟨g.n, fun t => g.wrote t + part S pend t⟩

theorem Ghost.add_mono {g g' : Ghost O} (h : g ≤ g') (S : Key → Bool) (pend : Key → Multiset O) : g.add S pend ≤ g'.add S pend :=
  ⟨h.1, fun t => add_le_add_left (h.2 t) _⟩

theorem Ghost.le_add (g : Ghost O) (S : Key → Bool) (pend : Key → Multiset O) : g ≤ g.add S pend :=
  ⟨le_rfl, fun _ => Multiset.le_add_right _ _⟩

/-- What a method writes is labelled rightly, provided that what it reads is; whatever the others do in between. -/
def Safe (L : Labels α O) (ks : List Key) : Prog α → (Key → Multiset O) → Ghost O → Prop
  | .stop _, _, _ => True
  | .ref k, pend, g => ∀ g', g ≤ g' → ∀ r < g'.n, Safe L ks (k r) pend g'
  | .items r k, pend, g => r < g.n ∧ ∀ g', g ≤ g' → ∀ d : Dict Key α, d.keys = ks → (∀ it ∈ d, L.data (g'.wrote it.1) it.1 it.2) →
      Safe L ks (k d) pend g'
  | .item r key k, pend, g => r < g.n ∧ key ∈ ks ∧ ∀ g', g ≤ g' → ∀ v, L.data (g'.wrote key) key v → Safe L ks (k v) pend g'
  | .store _ key v p, pend, g => key ∈ ks ∧ L.data (g.wrote key + pend key) key v ∧
      ∀ g', g.add (fun t => t = key) pend ≤ g' → Safe L ks p (rest (fun t => t = key) pend) g'
  | .assign d p, pend, g => d.keys = ks ∧ (∀ it ∈ d, L.data (g.wrote it.1 + pend it.1) it.1 it.2) ∧
      ∀ g', g.add (fun _ => true) pend ≤ g' → Safe L ks p (rest (fun _ => true) pend) g'

theorem Safe.mono {L : Labels α O} {ks : List Key} {pend : Key → Multiset O} {p : Prog α} {g g' : Ghost O} (hg : g ≤ g')
    (h : Safe L ks p pend g) : Safe L ks p pend g' := by
  cases p with
  | stop e => trivial
  | ref k => exact fun g'' h' => h g'' (Ghost.trans hg h')
  | items r k => exact ⟨lt_of_lt_of_le h.1 hg.1, fun g'' h' => h.2 g'' (Ghost.trans hg h')⟩
  | item r key k => exact ⟨lt_of_lt_of_le h.1 hg.1, h.2.1, fun g'' h' => h.2.2 g'' (Ghost.trans hg h')⟩
  | store r key v p =>
    exact ⟨h.1, L.data_mono (add_le_add_left (hg.2 _) _) h.2.1, fun g'' h' => h.2.2 g'' (Ghost.trans (Ghost.add_mono hg _ _) h')⟩
  | assign d p =>
    exact ⟨h.1, fun it hit => L.data_mono (add_le_add_left (hg.2 _) _) (h.2.1 it hit),
      fun g'' h' => h.2.2 g'' (Ghost.trans (Ghost.add_mono hg _ _) h')⟩

/-- What holds of the instance. -/
structure Labelled (L : Labels α O) (ks : List Key) (m : Shared α) (g : Ghost O) : Prop where
  n : g.n = m.heap.length
  cur : m.cur < m.heap.length
  keys : ∀ d ∈ m.heap, Dict.keys d = ks
  data : ∀ d ∈ m.heap, ∀ it ∈ d, L.data (g.wrote it.1) it.1 it.2

theorem Labelled.add {L : Labels α O} {ks : List Key} {m : Shared α} {g : Ghost O} (h : Labelled L ks m g) (S : Key → Bool)
    (pend : Key → Multiset O) : Labelled L ks m (g.add S pend) :=
  ⟨h.n, h.cur, h.keys, fun d hd it hit => L.data_mono ((g.le_add S pend).2 _) (h.data d hd it hit)⟩

theorem mem_getD {m : Shared α} {r : ℕ} (h : r < m.heap.length) : m.heap.getD r [] ∈ m.heap := by
  rw [List.getD_eq_getElem?_getD, List.getElem?_eq_getElem h, Option.getD_some]
  exact List.getElem_mem h

theorem mem_set_dict {d : Dict Key α} {k : Key} {v : α} {it : Key × α} (h : it ∈ Dict.set d k v) :
    it = (k, v) ∨ it ∈ d := by
  induction d with
  | nil => simpa [Dict.set] using h
  | cons a d ih =>
    obtain ⟨k', v'⟩ := a
    unfold Dict.set at h
    split_ifs at h with hk
    · rcases List.mem_cons.1 h with rfl | h
      · exact .inl rfl
      · exact .inr (List.mem_cons_of_mem _ h)
    · rcases List.mem_cons.1 h with rfl | h
      · exact .inr (List.mem_cons_self ..)
      · rcases ih h with h | h
        · exact .inl h
        · exact .inr (List.mem_cons_of_mem _ h)

theorem add_part {g : Ghost O} {S : Key → Bool} {pend : Key → Multiset O} {t : Key} (h : S t = true) :
    (g.add S pend).wrote t = g.wrote t + pend t := by
  simp [Ghost.add, part, h]

/-- One access keeps the labels. -/
theorem exec_safe {L : Labels α O} {ks : List Key} {pend : Key → Multiset O} {p : Prog α} {m : Shared α} {g : Ghost O}
    (hm : Labelled L ks m g) (h : Safe L ks p pend g) :
    ∃ g' pend', g ≤ g' ∧ Labelled L ks (p.exec m).2 g' ∧ Safe L ks (p.exec m).1 pend' g' ∧
      ∀ t, g'.wrote t + pend' t = g.wrote t + pend t := by
  have hadd : ∀ (S : Key → Bool) t, (g.add S pend).wrote t + rest S pend t = g.wrote t + pend t := by
    intro S t
    show g.wrote t + part S pend t + rest S pend t = _
    rw [add_assoc, part_rest]
  cases p with
  | stop e => exact ⟨g, pend, g.refl, hm, trivial, fun t => rfl⟩
  | ref k => exact ⟨g, pend, g.refl, hm, h g g.refl _ (by rw [hm.n]; exact hm.cur), fun t => rfl⟩
  | items r k =>
    have hr := mem_getD (m := m) (r := r) (by rw [← hm.n]; exact h.1)
    exact ⟨g, pend, g.refl, hm, h.2 g g.refl _ (hm.keys _ hr) (hm.data _ hr), fun t => rfl⟩
  | item r key k =>
    have hr := mem_getD (m := m) (r := r) (by rw [← hm.n]; exact h.1)
    refine ⟨g, pend, g.refl, ?_, ?_, fun t => rfl⟩
    · simp only [Prog.exec]
      cases Dict.get (m.heap.getD r []) key <;> exact hm
    · simp only [Prog.exec]
      cases hget : Dict.get (m.heap.getD r []) key with
      | error e => trivial
      | ok v => exact h.2.2 g g.refl v (hm.data _ hr _ (Dict.mem_of_get? (Dict.get_ok_iff.1 hget)))
  | store r key v p =>
    have hm' := hm.add (fun t => t = key) pend
    refine ⟨g.add (fun t => t = key) pend, rest (fun t => t = key) pend, g.le_add _ _, ⟨?_, ?_, ?_, ?_⟩,
      h.2.2 _ (Ghost.refl _), hadd _⟩
    · simpa [Prog.exec, Ghost.add] using hm.n
    · simpa [Prog.exec] using hm.cur
    · intro d hd
      simp only [Prog.exec] at hd
      rcases List.mem_or_eq_of_mem_set hd with hd | rfl
      · exact hm.keys d hd
      · by_cases hr : r < m.heap.length
        · rw [Dict.keys_set, hm.keys _ (mem_getD hr), if_pos h.1]
        · rw [List.set_eq_of_length_le (by omega)] at hd
          exact hm.keys _ hd
    · intro d hd it hit
      simp only [Prog.exec] at hd
      rcases List.mem_or_eq_of_mem_set hd with hd | rfl
      · exact hm'.data d hd it hit
      · rcases mem_set_dict hit with rfl | hit
        · rw [add_part (by simp)]
          exact h.2.1
        · by_cases hr : r < m.heap.length
          · exact hm'.data _ (mem_getD hr) it hit
          · rw [List.getD_eq_getElem?_getD, List.getElem?_eq_none (by omega)] at hit
            simp at hit
  | assign d p =>
    have hm' := hm.add (fun _ => true) pend
    refine ⟨⟨g.n + 1, (g.add (fun _ => true) pend).wrote⟩, rest (fun _ => true) pend, ?_, ⟨?_, ?_, ?_, ?_⟩, ?_, hadd _⟩
    · exact ⟨by show g.n ≤ g.n + 1; omega, (g.le_add _ _).2⟩
    · simp [Prog.exec, hm.n]
    · simp [Prog.exec]
    · intro d' hd
      simp only [Prog.exec, List.mem_append, List.mem_singleton] at hd
      rcases hd with hd | rfl
      · exact hm.keys d' hd
      · exact h.1
    · intro d' hd it hit
      simp only [Prog.exec, List.mem_append, List.mem_singleton] at hd
      rcases hd with hd | rfl
      · exact hm'.data d' hd it hit
      · show L.data ((g.add (fun _ => true) pend).wrote it.1) _ _
        rw [add_part rfl]
        exact h.2.1 it hit
    · exact h.2.2 _ ⟨by show g.n ≤ g.n + 1; omega, fun _ => le_rfl⟩

/-- The calls that a thread may still contribute to a place. -/
def share (t : Key) (x : Thread α O × (Key → Multiset O)) : Multiset O := x.2 t + (x.1.later : Multiset O)

/-- What holds at every moment. -/
structure Inv (L : Labels α O) (ks : List Key) (all : Multiset O) (w : World α O) : Prop where
  ex : ∃ g, Labelled L ks w.mem g ∧ ∃ ts : List (Thread α O × (Key → Multiset O)), ts.map Prod.fst = w.threads ∧
    (∀ x ∈ ts, Safe L ks x.1.now x.2 g) ∧ ∀ t, g.wrote t + (ts.map (share t)).sum ≤ all

theorem Inv.step {L : Labels α O} {ks : List Key} {all : Multiset O}
    (hprog : ∀ op g, Safe L ks (pr op) (fun _ => {op}) g) {w : World α O} (h : Inv L ks all w) (i : ℕ) :
    Inv L ks all (w.step pr i) := by
  obtain ⟨g, hm, ts, e, hs, hsum⟩ := h.ex
  cases hi : w.threads[i]? with
  | none =>
    have : w.step pr i = w := by unfold World.step; rw [hi]
    rw [this]; exact h
  | some t =>
    have hti : ∃ pend, ts[i]? = some (t, pend) := by
      rw [← e, List.getElem?_map] at hi
      obtain ⟨⟨t', pend⟩, h1, h2⟩ := Option.map_eq_some_iff.1 hi
      dsimp only at h2
      subst h2
      exact ⟨pend, h1⟩
    obtain ⟨pend, hti⟩ := hti
    have hmem : (t, pend) ∈ ts := List.mem_of_getElem? hti
    have upd : ∀ (m' : Shared α) (g' : Ghost O) (t' : Thread α O) (pend' : Key → Multiset O), g ≤ g' → Labelled L ks m' g' →
        Safe L ks t'.now pend' g' →
        (∀ s, g'.wrote s + (pend' s + (t'.later : Multiset O)) ≤ g.wrote s + (pend s + (t.later : Multiset O))) →
        Inv L ks all ⟨m', w.threads.set i t'⟩ := by
      intro m' g' t' pend' hg hm' hsafe hle
      refine ⟨g', hm', ts.set i (t', pend'), by rw [List.map_set, e], fun x hx => ?_, fun s => ?_⟩
      · rcases List.mem_or_eq_of_mem_set hx with hx | rfl
        · exact (hs x hx).mono hg
        · exact hsafe
      · have h1 := sum_set (share s) ts i (t, pend) (t', pend') hti
        have h2 := hsum s
        have h3 := hle s
        change g'.wrote s + share s (t', pend') ≤ g.wrote s + share s (t, pend) at h3
        refine le_trans ?_ h2
        refine le_of_add_le_add_right (a := share s (t, pend)) ?_
        calc g'.wrote s + ((ts.set i (t', pend')).map (share s)).sum + share s (t, pend)
            = (ts.map (share s)).sum + (g'.wrote s + share s (t', pend')) := by rw [add_assoc, h1]; abel
          _ ≤ (ts.map (share s)).sum + (g.wrote s + share s (t, pend)) := add_le_add_right h3 _
          _ = _ := by abel
    obtain ⟨p, l⟩ := t
    by_cases hp : p.Ended
    · obtain ⟨er, rfl⟩ := hp
      cases l with
      | nil =>
        rw [step_of_idle hi]
        exact upd w.mem g _ pend g.refl hm trivial (fun s => le_rfl)
      | cons op l =>
        rw [step_of_call hi]
        refine upd w.mem g ⟨pr op, l⟩ (fun _ => {op}) g.refl hm (hprog op g) (fun s => ?_)
        refine add_le_add_right ?_ _
        rw [Multiset.singleton_add, ← Multiset.cons_coe]
        exact Multiset.le_add_left _ _
    · rw [step_of_not_ended hi hp]
      obtain ⟨g', pend', h1, h2, h3, h4⟩ := exec_safe hm (hs _ hmem)
      refine upd _ g' ⟨(p.exec w.mem).1, l⟩ pend' h1 h2 h3 (fun s => ?_)
      rw [← add_assoc, ← add_assoc, h4 s]

theorem Inv.run {L : Labels α O} {ks : List Key} {all : Multiset O}
    (hprog : ∀ op g, Safe L ks (pr op) (fun _ => {op}) g) (s : List ℕ) {w : World α O} (h : Inv L ks all w) :
    Inv L ks all (w.run pr s) := by
  induction s generalizing w with
  | nil => exact h
  | cons i s ih => exact ih (h.step hprog i)

theorem inv_start {L : Labels α O} {d : Dict Key α} (calls : List (List O))
    (hd : ∀ it ∈ d, L.data 0 it.1 it.2) :
    Inv L (Dict.keys d) (calls.flatten : Multiset O) (start d calls) := by
  refine ⟨⟨1, fun _ => 0⟩, ⟨rfl, by simp [start], ?_, ?_⟩, calls.map (fun l => (⟨.stop none, l⟩, fun _ => 0)), ?_, ?_, ?_⟩
  · intro d' h
    simp only [start, List.mem_singleton] at h
    subst h
    rfl
  · intro d' h
    simp only [start, List.mem_singleton] at h
    subst h
    exact hd
  · simp [start]
  · intro x hx
    obtain ⟨l, hl, rfl⟩ := List.mem_map.1 hx
    exact trivial
  · intro t
    dsimp only
    rw [zero_add, List.map_map]
    have : ∀ calls : List (List O), (calls.map (share t ∘ fun l => ((⟨.stop none, l⟩ : Thread α O), fun _ => 0))).sum = (calls.flatten : Multiset O) := by
      intro calls
      induction calls with
      | nil => rfl
      | cons l calls ih =>
        rw [List.map_cons, List.sum_cons, ih, List.flatten_cons, ← Multiset.coe_add]
        simp [share]
    exact (this calls).le


end Shgpy.FormThreads
