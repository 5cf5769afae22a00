import Verif.Proofs.Heap
import Verif.Spec.HeapForm
import Verif.Props.Form

/-!
# C15 and C16 for Fourier formulas: containers share no arrays with the caller or with each other

A caller makes a container from arrays it keeps, copies containers, calls their methods, and writes into the arrays it holds: those it
passed in and those `get_pc` returned.  Every container then contains what it would if it were a value of its own.
-/

namespace Shgpy
open Spec (separateStep separate NoLive callsOn)

/-- A rejected call of `subs`, `apply_phase_shift` or `apply_arbitrary_scale` keeps the container. -/
theorem FFormContainer.step_error_same (S : Sympy) (c : FFormContainer) (op : FFormContainer.Op) {e : Err}
    (he : (c.step S op).2 = some e) : (c.step S op).1 = c := by
  have key : ∀ x : Except Err (Dict Key FArr),
      let m : DataContainer.Meth FFormContainer Unit :=
        (DataContainer.liftE x >>= fun d => modify fun c : FFormContainer => { c with fform := d })
      (match m c with
        | (.ok _, c') => ((c', none) : FFormContainer × Option Err)
        | (.error e, c') => (c', some e)).2 = some e →
      (match m c with
        | (.ok _, c') => ((c', none) : FFormContainer × Option Err)
        | (.error e, c') => (c', some e)).1 = c := by
    intro x
    cases x with
    | ok d => intro m h; cases h
    | error e' => intro m _; rfl
  cases op with
  | subs pairs => exact key _ he
  | phaseShift a => exact key _ he
  | scale s => cases he

namespace HFForm
variable {S : Sympy}

theorem store_spec (h : Heap FCell) (c : FFormContainer) :
    view (store h c).2 (store h c).1 = c ∧
    (∀ r, r < h.next → (store h c).2.cells r = h.cells r) ∧ h.next ≤ (store h c).2.next ∧
    (∀ r ∈ (store h c).1.refs.values, (h.next ≤ r ∧ r < (store h c).2.next) ∧ ∃ a, (store h c).2.cells r = .arr a) := by
  obtain ⟨h1, h2, h3, h4⟩ := Heap.allocDict_spec (c.fform.mapVals FCell.arr) h
  refine ⟨?_, h1, h2, fun r hr => ⟨h3 r hr, ?_⟩⟩
  · unfold view store
    simp only [h4, Dict.mapVals_mapVals]
    obtain ⟨f, M⟩ := c
    have : f.mapVals (fun v => (FCell.arr v).toArr) = f := Dict.mapVals_id f
    simpa [Function.comp_def] using this
  · obtain ⟨p, hp, rfl⟩ := List.mem_map.1 hr
    have hm : (p.1, (store h c).2.cells p.2) ∈ (store h c).2.read (store h c).1.refs :=
      List.mem_map.2 ⟨p, hp, rfl⟩
    have hm' : (p.1, (store h c).2.cells p.2) ∈ c.fform.mapVals FCell.arr := by
      have h4' : (store h c).2.read (store h c).1.refs = c.fform.mapVals FCell.arr := h4
      rw [← h4']; exact hm
    obtain ⟨q, -, hq⟩ := List.mem_map.1 hm'
    exact ⟨q.2, (congrArg Prod.snd hq).symm⟩

theorem view_congr {h h' : Heap FCell} {o : HFForm} (hh : ∀ r ∈ o.refs.values, h'.cells r = h.cells r) :
    view h' o = view h o := by
  unfold view
  rw [Heap.read_congr hh]

/-- The caller holds no array of any container, and the containers amount to `cs`. -/
structure Inv (w : World) (cs : List FFormContainer) : Prop where
  view : w.objs.map (HFForm.view w.heap) = cs
  refs : ∀ o ∈ w.objs, ∀ r ∈ o.refs.values, (r < w.heap.next ∧ r ∉ w.held) ∧ ∃ a, w.heap.cells r = .arr a
  held : ∀ r ∈ w.held, r < w.heap.next

/-- A change of the heap that leaves the arrays of the containers alone. -/
theorem Inv.keep {w : World} {cs : List FFormContainer} (hi : Inv w cs) {h : Heap FCell} {held : List ℕ}
    (hcells : ∀ o ∈ w.objs, ∀ r ∈ o.refs.values, h.cells r = w.heap.cells r) (hnext : w.heap.next ≤ h.next)
    (hheld : ∀ r ∈ held, r < h.next) (hnew : ∀ o ∈ w.objs, ∀ r ∈ o.refs.values, r ∉ held) :
    Inv { w with heap := h, held := held } cs := by
  refine ⟨?_, ?_, hheld⟩
  · rw [← hi.view]
    exact List.map_congr_left (fun o ho => view_congr (hcells o ho))
  · intro o ho r hr
    obtain ⟨⟨h1, h2⟩, a, ha⟩ := hi.refs o ho r hr
    exact ⟨⟨h1.trans_le hnext, hnew o ho r hr⟩, a, (hcells o ho r hr).trans ha⟩

/-- A container whose arrays are new joins or replaces one. -/
theorem Inv.store {w : World} {cs : List FFormContainer} (hi : Inv w cs) (c : FFormContainer) :
    Inv { w with heap := (HFForm.store w.heap c).2 } cs ∧
    HFForm.view (HFForm.store w.heap c).2 (HFForm.store w.heap c).1 = c ∧
    ∀ r ∈ (HFForm.store w.heap c).1.refs.values,
      (r < (HFForm.store w.heap c).2.next ∧ r ∉ w.held) ∧ ∃ a, (HFForm.store w.heap c).2.cells r = .arr a := by
  obtain ⟨h1, h2, h3, h4⟩ := store_spec w.heap c
  refine ⟨hi.keep (fun o ho r hr => h2 r (hi.refs o ho r hr).1.1) h3 (fun r hr => (hi.held r hr).trans_le h3)
    (fun o ho r hr => (hi.refs o ho r hr).1.2), h1, fun r hr => ?_⟩
  obtain ⟨⟨g1, g2⟩, g3⟩ := h4 r hr
  refine ⟨⟨g2, fun hh => ?_⟩, g3⟩
  have := hi.held r hh
  omega

theorem Inv.get {w : World} {cs : List FFormContainer} (hi : Inv w cs) (i : ℕ) :
    cs[i]? = w.objs[i]?.map (HFForm.view w.heap) := by
  rw [← hi.view, List.getElem?_map]

/-- The dictionary of a container, as the iterable that `copy` passes to the constructor. -/
theorem read_toRaw {w : World} {cs : List FFormContainer} (hi : Inv w cs) {o : HFForm} (ho : o ∈ w.objs) :
    (w.heap.read (o.refs.map (fun kv => ((.str kv.1 : RawKey), kv.2)))).map (fun kv => (kv.1, kv.2.toRaw)) =
      (HFForm.view w.heap o).toIterable := by
  unfold FFormContainer.toIterable HFForm.view Heap.read Dict.mapVals
  simp only [List.map_map]
  apply List.map_congr_left
  intro p hp
  obtain ⟨-, a, ha⟩ := hi.refs o ho p.2 (List.mem_map.2 ⟨p, hp, rfl⟩)
  simp [ha, FCell.toRaw, FCell.toArr]

theorem Inv.next {w : World} {cs : List FFormContainer} (hi : Inv w cs) (e : Ev) (he : NoLive e) :
    Inv (w.next S e) (separateStep S cs e) := by
  cases e with
  | getItems i => exact he.elim
  | getValues i => exact he.elim
  | write r a =>
    simp only [World.next, separateStep]
    split
    · rename_i hr
      refine hi.keep ?_ le_rfl hi.held (fun o ho r hr => (hi.refs o ho r hr).1.2)
      intro o ho r' hr'
      have : r' ≠ r := fun h => (hi.refs o ho r' hr').1.2 (h ▸ hr)
      simp [Heap.write, this]
    · exact hi
  | getPc i pc =>
    simp only [World.next, separateStep]
    cases hg : w.objs[i]? with
    | none => exact hi
    | some o =>
      simp only [HFForm.getPc]
      cases Dict.get o.refs pc with
      | error err => exact hi
      | ok r =>
        refine hi.keep (h := (w.heap.alloc (w.heap.cells r)).2) ?_ (Nat.le_succ _) ?_ ?_
        · intro o ho r' hr'
          simp [Heap.alloc, (hi.refs o ho r' hr').1.1.ne]
        · intro r' hr'
          simp only [Heap.alloc, List.mem_cons] at hr' ⊢
          rcases hr' with rfl | hr'
          · exact Nat.lt_succ_self _
          · exact (hi.held r' hr').trans (Nat.lt_succ_self _)
        · intro o ho r' hr'
          obtain ⟨g1, g2⟩ := (hi.refs o ho r' hr').1
          simp only [Heap.alloc, List.mem_cons, not_or]
          exact ⟨g1.ne, g2⟩
  | call i op =>
    simp only [World.next, separateStep]
    cases hg : w.objs[i]? with
    | none =>
      have : cs.length ≤ i := by rw [← hi.view, List.length_map]; simpa using hg
      rw [List.modify_eq_self this]
      exact hi
    | some o =>
      have ho : o ∈ w.objs := List.mem_of_getElem? hg
      have hci : cs[i]? = some (HFForm.view w.heap o) := by rw [hi.get, hg]; rfl
      have hmod : ∀ f : FFormContainer → FFormContainer, cs.modify i f = cs.set i (f (HFForm.view w.heap o)) := by
        intro f
        rw [List.modify_eq_set_getElem?, hci]
        rfl
      rw [hmod]
      simp only [HFForm.call]
      cases hs : FFormContainer.step S (HFForm.view w.heap o) op with
      | mk c' e =>
        cases e with
        | some e =>
          have hsame := FFormContainer.step_error_same S (HFForm.view w.heap o) op (e := e) (by rw [hs])
          rw [hs] at hsame
          simp only at hsame
          simp only [hsame]
          have h1 : w.objs.set i o = w.objs := by
            apply List.ext_getElem? ; intro j
            rw [List.getElem?_set]
            split
            · rename_i h; subst h
              split
              · exact hg.symm
              · rename_i h; rw [List.getElem?_eq_none (by omega)]
            · rfl
          have h2 : cs.set i (HFForm.view w.heap o) = cs := by
            rw [← hi.view]
            conv_rhs => rw [← h1]
            rw [List.map_set]
          rw [h1, h2]
          exact hi
        | none =>
          obtain ⟨h1, h2, h3⟩ := hi.store c'
          refine ⟨?_, ?_, h1.held⟩
          · simp only
            rw [List.map_set, h2]
            have := h1.view
            simp only at this
            rw [this]
          · intro o' ho' r hr
            rcases List.mem_or_eq_of_mem_set ho' with ho' | rfl
            · exact h1.refs o' ho' r hr
            · exact h3 r hr
  | copy i =>
    simp only [World.next, separateStep]
    rw [hi.get]
    cases hg : w.objs[i]? with
    | none => exact hi
    | some o =>
      have ho : o ∈ w.objs := List.mem_of_getElem? hg
      simp only [Option.map_some, HFForm.copy, HFForm.init, FFormContainer.copy]
      rw [read_toRaw hi ho]
      show Inv _ (cs ++ (FFormContainer.init S (HFForm.view w.heap o).toIterable o.M).toOption.toList)
      cases FFormContainer.init S (HFForm.view w.heap o).toIterable o.M with
      | error e => simpa [Except.toOption] using hi
      | ok c' =>
        obtain ⟨h1, h2, h3⟩ := hi.store c'
        refine ⟨?_, ?_, h1.held⟩
        · simp only [List.map_append, List.map_cons, List.map_nil, h2]
          have := h1.view
          simp only at this
          rw [this]
          rfl
        · intro o' ho' r hr
          rcases List.mem_append.1 ho' with ho' | ho'
          · exact h1.refs o' ho' r hr
          · rw [List.mem_singleton.1 ho'] at hr
            exact h3 r hr

theorem Inv.foldl {w : World} {cs : List FFormContainer} (hi : Inv w cs) (evs : List Ev) (he : ∀ e ∈ evs, NoLive e) :
    Inv (evs.foldl (World.next S) w) (separate S cs evs) := by
  induction evs generalizing w cs with
  | nil => exact hi
  | cons e evs ih => exact ih (hi.next e (he e List.mem_cons_self)) (fun e' h => he e' (List.mem_cons_of_mem _ h))

end HFForm

/-- **C15 (`fFormContainer`).** A container is made from arrays on the heap, which the caller keeps.  The construction changes no array of
the caller and takes the contents the arrays have at that time.  Afterwards, whatever the caller writes into arrays it holds, whichever
methods it calls and however often it copies containers and copies of containers: each container contains what it would if it were a value
of its own.  Missing are `get_items` and `get_values`, for which this is false (`C15_fform_live_arrays`). -/
theorem C15_fform_isolation_partial (S : Sympy) {h h' : Heap FCell} {iter : List (RawKey × ℕ)} {M : ℕ} {o : HFForm}
    {held : List ℕ} (hheld : ∀ r ∈ held, r < h.next) (hinit : HFForm.init S h iter M = (.ok o, h')) :
    (∀ r ∈ held, h'.cells r = h.cells r) ∧
    FFormContainer.init S (iter.map (fun kr => (kr.1, (h.cells kr.2).toRaw))) M = .ok (HFForm.view h' o) ∧
    ∀ evs : List HFForm.Ev, (∀ e ∈ evs, NoLive e) →
      let w := evs.foldl (HFForm.World.next S) ⟨h', [o], held⟩
      w.objs.map (HFForm.view w.heap) = separate S [HFForm.view h' o] evs := by
  unfold HFForm.init at hinit
  have hread : (h.read iter).map (fun kv => (kv.1, kv.2.toRaw)) = iter.map (fun kr => (kr.1, (h.cells kr.2).toRaw)) := by
    unfold Heap.read Dict.mapVals
    rw [List.map_map]
    rfl
  rw [hread] at hinit
  cases hc : FFormContainer.init S (iter.map (fun kr => (kr.1, (h.cells kr.2).toRaw))) M with
  | error e => rw [hc] at hinit; cases hinit
  | ok c =>
    rw [hc] at hinit
    simp only [Prod.mk.injEq, Except.ok.injEq] at hinit
    obtain ⟨rfl, rfl⟩ := hinit
    have h0 : HFForm.Inv ⟨h, [], held⟩ [] := ⟨rfl, fun _ ho => absurd ho List.not_mem_nil, hheld⟩
    obtain ⟨h1, h2, h3⟩ := h0.store c
    obtain ⟨g1, g2, g3, g4⟩ := HFForm.store_spec h c
    refine ⟨fun r hr => g2 r (hheld r hr), by rw [g1], ?_⟩
    intro evs hsafe
    have hi : HFForm.Inv ⟨(HFForm.store h c).2, [(HFForm.store h c).1], held⟩
        [HFForm.view (HFForm.store h c).2 (HFForm.store h c).1] := by
      refine ⟨rfl, ?_, h1.held⟩
      intro o ho r hr
      rw [List.mem_singleton.1 ho] at hr
      exact h3 r hr
    exact (hi.foldl evs hsafe).view

/-- **C15 (`fFormContainer.get_pc`).** The new array that `get_pc` returns has the contents of the combination asked for. -/
theorem C15_fform_getter_contents {h h' : Heap FCell} {o : HFForm} {pc : Key} {r : ℕ}
    (hg : HFForm.getPc h o pc = (.ok r, h')) : (HFForm.view h o).getPc pc = .ok (h'.cells r).toArr := by
  unfold HFForm.getPc at hg
  cases hd : Dict.get o.refs pc with
  | error e => rw [hd] at hg; cases hg
  | ok r' =>
    rw [hd] at hg
    simp only [Heap.alloc, Prod.mk.injEq, Except.ok.injEq] at hg
    obtain ⟨rfl, rfl⟩ := hg
    rw [Dict.get_ok_iff] at hd
    unfold FFormContainer.getPc HFForm.view Heap.read
    rw [Dict.get_ok_iff, Dict.get?_mapVals, Dict.get?_mapVals, hd]
    simp

/-- **C16 (independence).** A container and its copy, and method calls on the two in any order: each of the two ends up as if only the
calls on it had been made. -/
theorem C16_fform_copy_independent (S : Sympy) {h h' : Heap FCell} {iter : List (RawKey × ℕ)} {M : ℕ} {o : HFForm}
    {held : List ℕ} (hheld : ∀ r ∈ held, r < h.next) (hinit : HFForm.init S h iter M = (.ok o, h')) {c : FFormContainer}
    (hcopy : (HFForm.view h' o).copy S = .ok c) (calls : List (Bool × FFormContainer.Op)) :
    let w := (HFForm.Ev.copy 0 :: calls.map (fun p => HFForm.Ev.call (if p.1 then 1 else 0) p.2)).foldl (HFForm.World.next S)
      ⟨h', [o], held⟩
    w.objs.map (HFForm.view w.heap) = [(HFForm.view h' o).run S (callsOn false calls), c.run S (callsOn true calls)] := by
  have h0 := (C15_fform_isolation_partial S hheld hinit).2.2
    (HFForm.Ev.copy 0 :: calls.map (fun p => HFForm.Ev.call (if p.1 then 1 else 0) p.2)) (by
      intro e he
      simp only [List.mem_cons, List.mem_map] at he
      rcases he with rfl | ⟨p, -, rfl⟩ <;> trivial)
  intro w
  refine h0.trans ?_
  unfold separate
  rw [List.foldl_cons]
  have e1 : separateStep S [HFForm.view h' o] (.copy 0) = [HFForm.view h' o, c] := by
    simp [separateStep, hcopy, Except.toOption]
  rw [e1]
  generalize HFForm.view h' o = a
  clear hcopy e1 h0 w
  induction calls generalizing a c with
  | nil => rfl
  | cons p calls ih =>
    obtain ⟨b, op⟩ := p
    cases b
    · exact ih _
    · exact ih _

/-- **C15 is false for `fFormContainer.get_items`/`get_values`.**  Writing into an array that they returned changes what the container
contains. -/
theorem C15_fform_live_arrays (S : Sympy) (e : Expr) : ∃ (h h' : Heap FCell) (iter : List (RawKey × ℕ)) (o : HFForm) (r : ℕ),
    (∀ p ∈ iter, p.2 < h.next) ∧ HFForm.init S h iter 0 = (.ok o, h') ∧
    ∀ get ∈ [HFForm.Ev.getItems 0, HFForm.Ev.getValues 0],
    let w := [get, .write r (.arr (.obj [e]))].foldl (HFForm.World.next S) ⟨h', [o], iter.map Prod.snd⟩
    (HFForm.view h' o).getPc kPP = .ok (fformArray S [.sy (.num 1)]) ∧
    (w.objs.map (HFForm.view w.heap)).map (fun c => c.getPc kPP) = [.ok (.obj [e])] := by
  refine ⟨⟨fun _ => .raw (.objArr [.sy (.num 1)]), 1⟩, _, [(.str kPP, 0)], _, 1, ?_, rfl, ?_⟩
  · intro p hp
    simp only [List.mem_cons, List.not_mem_nil, or_false] at hp
    subst hp; decide
  · intro get hget
    simp only [List.mem_cons, List.not_mem_nil, or_false] at hget
    rcases hget with rfl | rfl
    · exact ⟨rfl, rfl⟩
    · exact ⟨rfl, rfl⟩

/-- The hypotheses of `C15_fform_isolation_partial` are met, with writes into the array passed in and into one returned by `get_pc`, and
with a copy of a copy. -/
example (S : Sympy) : ∃ (h h' : Heap FCell) (o : HFForm) (held : List ℕ) (evs : List HFForm.Ev),
    (∀ r ∈ held, r < h.next) ∧ HFForm.init S h [(.str kPP, 0), (.str kSS, 1)] 0 = (.ok o, h') ∧
    (∀ e ∈ evs, NoLive e) ∧ evs.length = 6 := by
  refine ⟨⟨fun r => .raw (.objArr [.sy (.num r)]), 2⟩, _, _, [0, 1],
    [.write 0 (.raw .other), .getPc 0 kPP, .write 4 (.raw .other), .copy 0, .call 1 (.scale (.num 2)), .copy 1], ?_, rfl, ?_, rfl⟩
  · intro r hr
    simp only [List.mem_cons, List.not_mem_nil, or_false] at hr
    rcases hr with rfl | rfl <;> decide
  · intro e he
    simp only [List.mem_cons, List.not_mem_nil, or_false] at he
    rcases he with rfl | rfl | rfl | rfl | rfl | rfl <;> trivial

/-- The hypotheses of `C16_fform_copy_independent` are met: the copy of a container of expressions exists. -/
example (S : Sympy) : ∃ (h h' : Heap FCell) (o : HFForm) (c : FFormContainer),
    HFForm.init S h [(.str kPP, 0)] 0 = (.ok o, h') ∧ (HFForm.view h' o).copy S = .ok c :=
  ⟨⟨fun _ => .raw (.objArr [.sy (.num 1)]), 1⟩, _, _, _, rfl, rfl⟩

end Shgpy
