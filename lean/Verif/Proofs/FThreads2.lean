import Verif.Proofs.FThreads
import Verif.Spec.Form

/-!
# Lemmas about threads that use one container of Fourier data: any schedule
-/

namespace Shgpy.FThreads
open Spec FDataContainer

/-- The places that calls write to. -/
inductive Slot
  | data (k : Key) | scale | phase
deriving DecidableEq

/-- The place is a combination. -/
def Slot.isData : Slot → Bool
  | .data _ => true
  | _ => false

/-- What is known of the values in each place when the calls in the multiset may have contributed to them. -/
structure Labels where
  data : Multiset Op → Key → List ℂ → Prop
  scale : Multiset Op → ℝ → Prop
  phase : Multiset Op → Phase → Prop
  data_mono : ∀ {a b : Multiset Op}, a ≤ b → ∀ {k v}, data a k v → data b k v
  scale_mono : ∀ {a b : Multiset Op}, a ≤ b → ∀ {x}, scale a x → scale b x
  phase_mono : ∀ {a b : Multiset Op}, a ≤ b → ∀ {x}, phase a x → phase b x

/-- The number of dictionary objects, and the calls that have written to each place. -/
structure Ghost where
  n : ℕ
  wrote : Slot → Multiset Op

instance : LE Ghost := ⟨fun g g' => g.n ≤ g'.n ∧ ∀ t, g.wrote t ≤ g'.wrote t⟩

theorem Ghost.refl (g : Ghost) : g ≤ g := ⟨le_rfl, fun _ => le_rfl⟩
theorem Ghost.trans {g g' g'' : Ghost} (h : g ≤ g') (h' : g' ≤ g'') : g ≤ g'' := ⟨h.1.trans h'.1, fun t => (h.2 t).trans (h'.2 t)⟩

/-- The calls pending for the places in `S`. -/
def part (S : Slot → Bool) (pend : Slot → Multiset Op) (t : Slot) : Multiset Op := if S t then pend t else 0

/-- The calls pending for the other places. -/
def rest (S : Slot → Bool) (pend : Slot → Multiset Op) (t : Slot) : Multiset Op := if S t then 0 else pend t

theorem part_rest (S : Slot → Bool) (pend : Slot → Multiset Op) (t : Slot) : part S pend t + rest S pend t = pend t := by
  unfold part rest
  split_ifs <;> simp

/-- The pending contributions to the places in `S` are written. -/
def Ghost.add (g : Ghost) (S : Slot → Bool) (pend : Slot → Multiset Op) : Ghost := ⟨g.n, fun t => g.wrote t + part S pend t⟩

theorem Ghost.add_mono {g g' : Ghost} (h : g ≤ g') (S : Slot → Bool) (pend : Slot → Multiset Op) : g.add S pend ≤ g'.add S pend :=
  ⟨h.1, fun t => add_le_add_left (h.2 t) _⟩

theorem Ghost.le_add (g : Ghost) (S : Slot → Bool) (pend : Slot → Multiset Op) : g ≤ g.add S pend :=
  ⟨le_rfl, fun _ => Multiset.le_add_right _ _⟩

/-- What a method writes is labelled rightly, provided that what it reads is; whatever the others do in between. -/
def Safe (L : Labels) (ks : List Key) : Prog → (Slot → Multiset Op) → Ghost → Prop
  | .stop _, _, _ => True
  | .ref k, pend, g => ∀ g', g ≤ g' → ∀ r < g'.n, Safe L ks (k r) pend g'
  | .items r k, pend, g => r < g.n ∧ ∀ g', g ≤ g' → ∀ d : Dict Key (List ℂ), d.keys = ks → (∀ it ∈ d, L.data (g'.wrote (.data it.1)) it.1 it.2) →
      Safe L ks (k d) pend g'
  | .item r key k, pend, g => r < g.n ∧ key ∈ ks ∧ ∀ g', g ≤ g' → ∀ v, L.data (g'.wrote (.data key)) key v → Safe L ks (k v) pend g'
  | .store _ key v p, pend, g => key ∈ ks ∧ L.data (g.wrote (.data key) + pend (.data key)) key v ∧
      ∀ g', g.add (fun t => t = .data key) pend ≤ g' → Safe L ks p (rest (fun t => t = .data key) pend) g'
  | .assign d p, pend, g => d.keys = ks ∧ (∀ it ∈ d, L.data (g.wrote (.data it.1) + pend (.data it.1)) it.1 it.2) ∧
      ∀ g', g.add Slot.isData pend ≤ g' → Safe L ks p (rest Slot.isData pend) g'
  | .getScale k, pend, g => ∀ g', g ≤ g' → ∀ x, L.scale (g'.wrote .scale) x → Safe L ks (k x) pend g'
  | .setScale x p, pend, g => L.scale (g.wrote .scale + pend .scale) x ∧
      ∀ g', g.add (fun t => t = .scale) pend ≤ g' → Safe L ks p (rest (fun t => t = .scale) pend) g'
  | .getPhase k, pend, g => ∀ g', g ≤ g' → ∀ x, L.phase (g'.wrote .phase) x → Safe L ks (k x) pend g'
  | .setPhase x p, pend, g => L.phase (g.wrote .phase + pend .phase) x ∧
      ∀ g', g.add (fun t => t = .phase) pend ≤ g' → Safe L ks p (rest (fun t => t = .phase) pend) g'

theorem Safe.mono {L : Labels} {ks : List Key} {pend : Slot → Multiset Op} {p : Prog} {g g' : Ghost} (hg : g ≤ g')
    (h : Safe L ks p pend g) : Safe L ks p pend g' := by
  cases p with
  | stop e => trivial
  | ref k => exact fun g'' h' => h g'' (Ghost.trans hg h')
  | items r k => exact ⟨lt_of_lt_of_le h.1 hg.1, fun g'' h' => h.2 g'' (Ghost.trans hg h')⟩
  | item r key k => exact ⟨lt_of_lt_of_le h.1 hg.1, h.2.1, fun g'' h' => h.2.2 g'' (Ghost.trans hg h')⟩
  | store r key v p =>
    exact ⟨h.1, L.data_mono (add_le_add_left (hg.2 _) _) h.2.1, fun g'' h' => h.2.2 g'' (Ghost.trans (Ghost.add_mono hg _ _) h')⟩
  | assign d p =>
    exact ⟨h.1, fun it hit => L.data_mono (add_le_add_left (hg.2 _) _) (h.2.1 it hit),
      fun g'' h' => h.2.2 g'' (Ghost.trans (Ghost.add_mono hg _ _) h')⟩
  | getScale k => exact fun g'' h' => h g'' (Ghost.trans hg h')
  | setScale x p =>
    exact ⟨L.scale_mono (add_le_add_left (hg.2 _) _) h.1, fun g'' h' => h.2 g'' (Ghost.trans (Ghost.add_mono hg _ _) h')⟩
  | getPhase k => exact fun g'' h' => h g'' (Ghost.trans hg h')
  | setPhase x p =>
    exact ⟨L.phase_mono (add_le_add_left (hg.2 _) _) h.1, fun g'' h' => h.2 g'' (Ghost.trans (Ghost.add_mono hg _ _) h')⟩

/-- What holds of the instance. -/
structure Labelled (L : Labels) (ks : List Key) (m : Shared) (g : Ghost) : Prop where
  n : g.n = m.heap.length
  cur : m.cur < m.heap.length
  keys : ∀ d ∈ m.heap, Dict.keys d = ks
  data : ∀ d ∈ m.heap, ∀ it ∈ d, L.data (g.wrote (.data it.1)) it.1 it.2
  scale : L.scale (g.wrote .scale) m.scale
  phase : L.phase (g.wrote .phase) m.phaseShift

theorem Labelled.add {L : Labels} {ks : List Key} {m : Shared} {g : Ghost} (h : Labelled L ks m g) (S : Slot → Bool)
    (pend : Slot → Multiset Op) : Labelled L ks m (g.add S pend) :=
  ⟨h.n, h.cur, h.keys, fun d hd it hit => L.data_mono ((g.le_add S pend).2 _) (h.data d hd it hit),
    L.scale_mono ((g.le_add S pend).2 _) h.scale, L.phase_mono ((g.le_add S pend).2 _) h.phase⟩

theorem mem_getD {m : Shared} {r : ℕ} (h : r < m.heap.length) : m.heap.getD r [] ∈ m.heap := by
  rw [List.getD_eq_getElem?_getD, List.getElem?_eq_getElem h, Option.getD_some]
  exact List.getElem_mem h

theorem mem_set_dict {d : Dict Key (List ℂ)} {k : Key} {v : List ℂ} {it : Key × List ℂ} (h : it ∈ Dict.set d k v) :
    it = (k, v) ∨ it ∈ d := by
  induction d with
  | nil => simpa [Dict.set] using h
  | cons a d ih =>
    obtain ⟨k', v'⟩ := a
    unfold Dict.set at h
    split_ifs at h with hk
    · rcases List.mem_cons.1 h with rfl | h
      · exact .inl rfl
      · exact .inr (List.mem_cons_of_mem _ h)
    · rcases List.mem_cons.1 h with rfl | h
      · exact .inr (List.mem_cons_self ..)
      · rcases ih h with h | h
        · exact .inl h
        · exact .inr (List.mem_cons_of_mem _ h)

theorem add_part {g : Ghost} {S : Slot → Bool} {pend : Slot → Multiset Op} {t : Slot} (h : S t = true) :
    (g.add S pend).wrote t = g.wrote t + pend t := by
  simp [Ghost.add, part, h]

/-- One access keeps the labels. -/
theorem exec_safe {L : Labels} {ks : List Key} {pend : Slot → Multiset Op} {p : Prog} {m : Shared} {g : Ghost}
    (hm : Labelled L ks m g) (h : Safe L ks p pend g) :
    ∃ g' pend', g ≤ g' ∧ Labelled L ks (p.exec m).2 g' ∧ Safe L ks (p.exec m).1 pend' g' ∧
      ∀ t, g'.wrote t + pend' t = g.wrote t + pend t := by
  have hadd : ∀ (S : Slot → Bool) t, (g.add S pend).wrote t + rest S pend t = g.wrote t + pend t := by
    intro S t
    show g.wrote t + part S pend t + rest S pend t = _
    rw [add_assoc, part_rest]
  cases p with
  | stop e => exact ⟨g, pend, g.refl, hm, trivial, fun t => rfl⟩
  | ref k => exact ⟨g, pend, g.refl, hm, h g g.refl _ (by rw [hm.n]; exact hm.cur), fun t => rfl⟩
  | items r k =>
    have hr := mem_getD (m := m) (r := r) (by rw [← hm.n]; exact h.1)
    exact ⟨g, pend, g.refl, hm, h.2 g g.refl _ (hm.keys _ hr) (hm.data _ hr), fun t => rfl⟩
  | item r key k =>
    have hr := mem_getD (m := m) (r := r) (by rw [← hm.n]; exact h.1)
    refine ⟨g, pend, g.refl, ?_, ?_, fun t => rfl⟩
    · simp only [Prog.exec]
      cases Dict.get (m.heap.getD r []) key <;> exact hm
    · simp only [Prog.exec]
      cases hget : Dict.get (m.heap.getD r []) key with
      | error e => trivial
      | ok v => exact h.2.2 g g.refl v (hm.data _ hr _ (Dict.mem_of_get? (Dict.get_ok_iff.1 hget)))
  | store r key v p =>
    have hm' := hm.add (fun t => t = .data key) pend
    refine ⟨g.add (fun t => t = .data key) pend, rest (fun t => t = .data key) pend, g.le_add _ _, ⟨?_, ?_, ?_, ?_, hm'.scale, hm'.phase⟩,
      h.2.2 _ (Ghost.refl _), hadd _⟩
    · simpa [Prog.exec, Ghost.add] using hm.n
    · simpa [Prog.exec] using hm.cur
    · intro d hd
      simp only [Prog.exec] at hd
      rcases List.mem_or_eq_of_mem_set hd with hd | rfl
      · exact hm.keys d hd
      · by_cases hr : r < m.heap.length
        · rw [Dict.keys_set, hm.keys _ (mem_getD hr), if_pos h.1]
        · rw [List.set_eq_of_length_le (by omega)] at hd
          exact hm.keys _ hd
    · intro d hd it hit
      simp only [Prog.exec] at hd
      rcases List.mem_or_eq_of_mem_set hd with hd | rfl
      · exact hm'.data d hd it hit
      · rcases mem_set_dict hit with rfl | hit
        · rw [add_part (by simp)]
          exact h.2.1
        · by_cases hr : r < m.heap.length
          · exact hm'.data _ (mem_getD hr) it hit
          · rw [List.getD_eq_getElem?_getD, List.getElem?_eq_none (by omega)] at hit
            simp at hit
  | assign d p =>
    have hm' := hm.add Slot.isData pend
    refine ⟨⟨g.n + 1, (g.add Slot.isData pend).wrote⟩, rest Slot.isData pend, ?_, ⟨?_, ?_, ?_, ?_, hm'.scale, hm'.phase⟩, ?_, hadd _⟩
    · exact ⟨by show g.n ≤ g.n + 1; omega, (g.le_add _ _).2⟩
    · simp [Prog.exec, hm.n]
    · simp [Prog.exec]
    · intro d' hd
      simp only [Prog.exec, List.mem_append, List.mem_singleton] at hd
      rcases hd with hd | rfl
      · exact hm.keys d' hd
      · exact h.1
    · intro d' hd it hit
      simp only [Prog.exec, List.mem_append, List.mem_singleton] at hd
      rcases hd with hd | rfl
      · exact hm'.data d' hd it hit
      · show L.data ((g.add Slot.isData pend).wrote (.data it.1)) _ _
        rw [add_part rfl]
        exact h.2.1 it hit
    · exact h.2.2 _ ⟨by show g.n ≤ g.n + 1; omega, fun _ => le_rfl⟩
  | getScale k => exact ⟨g, pend, g.refl, hm, h g g.refl _ hm.scale, fun t => rfl⟩
  | setScale x p =>
    have hm' := hm.add (fun t => t = .scale) pend
    refine ⟨_, rest (fun t => t = .scale) pend, g.le_add _ _, ⟨hm'.n, hm'.cur, hm'.keys, hm'.data, ?_, hm'.phase⟩, h.2 _ (Ghost.refl _), hadd _⟩
    rw [add_part (by simp)]
    exact h.1
  | getPhase k => exact ⟨g, pend, g.refl, hm, h g g.refl _ hm.phase, fun t => rfl⟩
  | setPhase x p =>
    have hm' := hm.add (fun t => t = .phase) pend
    refine ⟨_, rest (fun t => t = .phase) pend, g.le_add _ _, ⟨hm'.n, hm'.cur, hm'.keys, hm'.data, hm'.scale, ?_⟩, h.2 _ (Ghost.refl _), hadd _⟩
    rw [add_part (by simp)]
    exact h.1

/-- `_M` is never assigned. -/
theorem exec_M (p : Prog) (m : Shared) : (p.exec m).2.M = m.M := by
  cases p with
  | item r key k =>
    simp only [Prog.exec]
    cases Dict.get (m.heap.getD r []) key <;> rfl
  | _ => rfl

/-- The calls that a thread may still contribute to a place. -/
def share (t : Slot) (x : Thread × (Slot → Multiset Op)) : Multiset Op := x.2 t + (x.1.later : Multiset Op)

/-- What holds at every moment. -/
structure Inv (L : Labels) (ks : List Key) (M : ℕ) (all : Multiset Op) (w : World) : Prop where
  M : w.mem.M = M
  ex : ∃ g, Labelled L ks w.mem g ∧ ∃ ts : List (Thread × (Slot → Multiset Op)), ts.map Prod.fst = w.threads ∧
    (∀ x ∈ ts, Safe L ks x.1.now x.2 g) ∧ ∀ t, g.wrote t + (ts.map (share t)).sum ≤ all

theorem Inv.step {L : Labels} {ks : List Key} {M : ℕ} {all : Multiset Op}
    (hprog : ∀ op g, Safe L ks (prog M op) (fun _ => {op}) g) {w : World} (h : Inv L ks M all w) (i : ℕ) :
    Inv L ks M all (w.step i) := by
  obtain ⟨g, hm, ts, e, hs, hsum⟩ := h.ex
  cases hi : w.threads[i]? with
  | none =>
    have : w.step i = w := by unfold World.step; rw [hi]
    rw [this]; exact h
  | some t =>
    have hti : ∃ pend, ts[i]? = some (t, pend) := by
      rw [← e, List.getElem?_map] at hi
      obtain ⟨⟨t', pend⟩, h1, h2⟩ := Option.map_eq_some_iff.1 hi
      dsimp only at h2
      subst h2
      exact ⟨pend, h1⟩
    obtain ⟨pend, hti⟩ := hti
    have hmem : (t, pend) ∈ ts := List.mem_of_getElem? hti
    have upd : ∀ (m' : Shared) (g' : Ghost) (t' : Thread) (pend' : Slot → Multiset Op), m'.M = M → g ≤ g' → Labelled L ks m' g' →
        Safe L ks t'.now pend' g' →
        (∀ s, g'.wrote s + (pend' s + (t'.later : Multiset Op)) ≤ g.wrote s + (pend s + (t.later : Multiset Op))) →
        Inv L ks M all ⟨m', w.threads.set i t'⟩ := by
      intro m' g' t' pend' hM hg hm' hsafe hle
      refine ⟨hM, g', hm', ts.set i (t', pend'), by rw [List.map_set, e], fun x hx => ?_, fun s => ?_⟩
      · rcases List.mem_or_eq_of_mem_set hx with hx | rfl
        · exact (hs x hx).mono hg
        · exact hsafe
      · have h1 := sum_set (share s) ts i (t, pend) (t', pend') hti
        have h2 := hsum s
        have h3 := hle s
        change g'.wrote s + share s (t', pend') ≤ g.wrote s + share s (t, pend) at h3
        refine le_trans ?_ h2
        refine le_of_add_le_add_right (a := share s (t, pend)) ?_
        calc g'.wrote s + ((ts.set i (t', pend')).map (share s)).sum + share s (t, pend)
            = (ts.map (share s)).sum + (g'.wrote s + share s (t', pend')) := by rw [add_assoc, h1]; abel
          _ ≤ (ts.map (share s)).sum + (g.wrote s + share s (t, pend)) := add_le_add_right h3 _
          _ = _ := by abel
    obtain ⟨p, l⟩ := t
    by_cases hp : p.Ended
    · obtain ⟨er, rfl⟩ := hp
      cases l with
      | nil =>
        rw [step_of_idle hi]
        exact upd w.mem g _ pend h.M g.refl hm trivial (fun s => le_rfl)
      | cons op l =>
        rw [step_of_call hi, h.M]
        refine upd w.mem g ⟨prog M op, l⟩ (fun _ => {op}) h.M g.refl hm (hprog op g) (fun s => ?_)
        refine add_le_add_right ?_ _
        rw [Multiset.singleton_add, ← Multiset.cons_coe]
        exact Multiset.le_add_left _ _
    · rw [step_of_not_ended hi hp]
      obtain ⟨g', pend', h1, h2, h3, h4⟩ := exec_safe hm (hs _ hmem)
      refine upd _ g' ⟨(p.exec w.mem).1, l⟩ pend' ((exec_M p _).trans h.M) h1 h2 h3 (fun s => ?_)
      rw [← add_assoc, ← add_assoc, h4 s]

theorem Inv.run {L : Labels} {ks : List Key} {M : ℕ} {all : Multiset Op}
    (hprog : ∀ op g, Safe L ks (prog M op) (fun _ => {op}) g) (s : List ℕ) {w : World} (h : Inv L ks M all w) :
    Inv L ks M all (w.run s) := by
  induction s generalizing w with
  | nil => exact h
  | cons i s ih => exact ih (h.step hprog i)

theorem inv_start {L : Labels} {c : FDataContainer} (calls : List (List Op))
    (hd : ∀ it ∈ c.fdata, L.data 0 it.1 it.2) (hs : L.scale 0 c.scale) (hp : L.phase 0 c.phaseShift) :
    Inv L c.getKeys c.M (calls.flatten : Multiset Op) (start c calls) := by
  refine ⟨rfl, ⟨1, fun _ => 0⟩, ⟨rfl, by simp [start], ?_, ?_, hs, hp⟩, calls.map (fun l => (⟨.stop none, l⟩, fun _ => 0)), ?_, ?_, ?_⟩
  · intro d h
    simp only [start, List.mem_singleton] at h
    subst h
    rfl
  · intro d h
    simp only [start, List.mem_singleton] at h
    subst h
    exact hd
  · simp [start]
  · intro x hx
    obtain ⟨l, hl, rfl⟩ := List.mem_map.1 hx
    exact trivial
  · intro t
    dsimp only
    rw [zero_add, List.map_map]
    have : ∀ calls : List (List Op), (calls.map (share t ∘ fun l => ((⟨.stop none, l⟩ : Thread), fun _ => 0))).sum = (calls.flatten : Multiset Op) := by
      intro calls
      induction calls with
      | nil => rfl
      | cons l calls ih =>
        rw [List.map_cons, List.sum_cons, ih, List.flatten_cons, ← Multiset.coe_add]
        simp [share]
    exact (this calls).le

/-! ### What each method keeps -/

/-- What some of the calls make of the container. -/
def valueLabels (c : FDataContainer) : Labels where
  data a k v := ∃ v0, (k, v0) ∈ c.fdata ∧ ∃ (A : List Op) (fs : List ℝ), (A : Multiset Op) ≤ a ∧ List.Forall₂ FFactor A fs ∧
    v = mulComp c.M (fun m => (fs.prod : ℂ) * harmonic m (fTurns A)) v0
  scale a x := ∃ (A : List Op) (fs : List ℝ), (A : Multiset Op) ≤ a ∧ List.Forall₂ FFactor A fs ∧ x = c.scale * fs.prod
  phase a x := ∃ A : List Op, (A : Multiset Op) ≤ a ∧ ∀ p, c.phaseShift = .num p → x = .num (p + fTurns A)
  data_mono h _ _ := fun ⟨v0, h1, A, fs, h2, h3⟩ => ⟨v0, h1, A, fs, h2.trans h, h3⟩
  scale_mono h _ := fun ⟨A, fs, h2, h3⟩ => ⟨A, fs, h2.trans h, h3⟩
  phase_mono h _ := fun ⟨A, h2, h3⟩ => ⟨A, h2.trans h, h3⟩

theorem cons_le {A : List Op} {a : Multiset Op} (op : Op) (h : (A : Multiset Op) ≤ a) :
    ((op :: A : List Op) : Multiset Op) ≤ a + {op} := by
  rw [← Multiset.cons_coe, add_comm, Multiset.singleton_add]
  exact Multiset.cons_le_cons op h

variable {c : FDataContainer} {ks : List Key}

/-- A scaling by an allowed factor, as a part of the call `op`. -/
theorem safe_scale {op : Op} {s : ℝ} (hf : ¬ s < 0 → FFactor op s) (h0 : fTurn op = 0) (g : Ghost) :
    Safe (valueLabels c) ks (scaleProg s) (fun _ => {op}) g := by
  unfold scaleProg
  by_cases hs : s < 0
  · rw [if_pos hs]; trivial
  · rw [if_neg hs]
    intro g1 _ r hr
    refine ⟨hr, fun g2 _ d hk hd => ⟨by rw [Dict.keys_mapVals]; exact hk, fun it hit => ?_, fun g3 _ => ?_⟩⟩
    · obtain ⟨it', hit', rfl⟩ := List.mem_map.1 hit
      obtain ⟨v0, h1, A, fs, h2, h3, h4⟩ := hd it' hit'
      refine ⟨v0, h1, op :: A, s :: fs, cons_le op h2, .cons (hf hs) h3, ?_⟩
      dsimp only
      rw [h4, ← mulComp_const (length_mulComp ..), mulComp_mulComp]
      congr 1
      funext m
      have : fTurns (op :: A) = fTurns A := by simp [fTurns, h0]
      rw [this]
      push_cast [List.prod_cons]
      ring
    · intro g4 _ x hx
      obtain ⟨A, fs, h2, h3, h4⟩ := hx
      refine ⟨⟨op :: A, s :: fs, ?_, .cons (hf hs) h3, ?_⟩, fun _ _ => trivial⟩
      · have : rest Slot.isData (fun _ => ({op} : Multiset Op)) .scale = {op} := rfl
        rw [this]
        exact cons_le op h2
      · rw [h4, List.prod_cons]
        ring

theorem safe_turnLoop {op : Op} {t : ℝ} (hf : FFactor op 1) (ht : fTurn op = t) : ∀ (l : List Key) (pend : Slot → Multiset Op) (g : Ghost),
    (∀ k ∈ l, k ∈ ks) → l.Nodup → (∀ k ∈ l, pend (.data k) = {op}) → pend .phase = {op} →
    Safe (valueLabels c) ks (turnLoop c.M t (phaseProg t) l) pend g
  | [], pend, g, _, _, _, hp => by
    intro g1 _ x hx
    obtain ⟨A, h2, h3⟩ := hx
    cases x with
    | num p =>
      refine ⟨⟨op :: A, by rw [hp]; exact cons_le op h2, fun q hq => ?_⟩, fun _ _ => trivial⟩
      have := h3 q hq
      cases this
      congr 1
      simp only [fTurns, List.map_cons, List.sum_cons, ht]
      ring
    | tup p => trivial
    | nd p => trivial
  | k :: l, pend, g, hl, hn, hd, hp => by
    intro g1 _ r hr
    refine ⟨hr, hl k (by simp), fun g2 _ v hv => ?_⟩
    obtain ⟨v0, h1, A, fs, h2, h3, h4⟩ := hv
    have hlen : v.length = 2 * c.M + 1 := by rw [h4]; exact length_mulComp ..
    dsimp only
    rw [shiftArr_ok hlen]
    intro g3 hg3 r' hr'
    refine ⟨hl k (by simp), ?_, fun g4 hg4 => ?_⟩
    · refine ⟨v0, h1, op :: A, 1 :: fs, ?_, .cons hf h3, ?_⟩
      · rw [hd k (by simp)]
        exact cons_le op (h2.trans (hg3.2 _))
      · rw [h4, mulComp_mulComp]
        congr 1
        funext m
        have : fTurns (op :: A) = fTurns A + t := by
          simp only [fTurns, List.map_cons, List.sum_cons, ht]
          ring
        rw [this, harmonic_add, List.prod_cons, one_mul]
        ring
    · refine safe_turnLoop hf ht l _ g4 (fun k' hk' => hl k' (by simp [hk'])) (List.nodup_cons.1 hn).2 (fun k' hk' => ?_) ?_
      · have : k' ≠ k := fun e => (List.nodup_cons.1 hn).1 (e ▸ hk')
        simp only [rest, Slot.data.injEq, this, decide_false, Bool.false_eq_true, if_false]
        exact hd k' (by simp [hk'])
      · simpa [rest] using hp

theorem prog_safe (hks : ks.Nodup) (op : Op) (g : Ghost) : Safe (valueLabels c) ks (prog c.M op) (fun _ => {op}) g := by
  cases op with
  | scale s => exact safe_scale (fun h => by simp [FFactor, h]) rfl g
  | normalize d =>
    intro g1 _ r hr
    refine ⟨hr, fun g2 _ l _ _ => ?_⟩
    dsimp only
    cases maxLoop none l with
    | error e => trivial
    | ok b =>
      cases b with
      | none => exact safe_scale (op := .normalize d) (fun h => not_lt.1 h) rfl g2
      | some b =>
        obtain ⟨k, m⟩ := b
        dsimp only
        split_ifs
        · trivial
        · trivial
        · exact safe_scale (op := .normalize d) (fun h => not_lt.1 h) rfl g2
  | phaseShift a u =>
    show Safe _ _ (shiftProg c.M a u) _ _
    unfold shiftProg
    by_cases hu : lower u = sRadians ∨ lower u = sDegrees
    · have hc : checkAngleUnits (lower u) = .ok () := by unfold checkAngleUnits; rw [if_pos hu]
      rw [hc]
      intro g1 _ r hr
      refine ⟨hr, fun g2 _ d hk _ => ?_⟩
      dsimp only
      rw [hk]
      refine safe_turnLoop (op := .phaseShift a u) rfl ?_ ks _ g2 (fun k hk => hk) hks (fun _ _ => rfl) rfl
      unfold fTurn
      dsimp only
      rcases hu with hu | hu
      · rw [if_pos hu, if_neg (by rw [hu]; decide)]
      · rw [if_neg (by rw [hu]; decide), if_pos hu, if_pos hu]
        unfold deg2rad
        show _ = a * (Real.pi / 180)
        ring
    · have hc : checkAngleUnits (lower u) = .error .valueError := by unfold checkAngleUnits; rw [if_neg hu]
      rw [hc]
      trivial

end Shgpy.FThreads
