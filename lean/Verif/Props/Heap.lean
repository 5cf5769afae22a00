import Verif.Proofs.Heap
import Verif.Props.FData
import Verif.Props.DataArith

/-!
# Property C15: containers and caller-held arrays
-/

set_option linter.unusedSectionVars false
set_option linter.unusedSimpArgs false

namespace Shgpy
section
variable {K : Type} [Field K] [LinearOrder K] [IsStrictOrderedRing K] [FloorRing K] [HasPi K]

namespace HData

/-- Every action except asking for `get_items`/`get_values` in radians. -/
def Ev.Safe : Ev K → Prop
  | .getItems u => lower u ≠ sRadians
  | .getValues u => lower u ≠ sRadians
  | _ => True

/-- The method calls among the actions. -/
def calls (evs : List (Ev K)) : List (DataContainer.Op K) :=
  evs.filterMap (fun e => match e with | .call op => some op | _ => none)

theorem Inv.next {w : World K} {c : DataContainer K} (hi : Inv w c) (e : Ev K) (he : e.Safe) :
    Inv (w.next e) (DataContainer.run c (calls [e])) := by
  have hitems : ∀ u, lower u ≠ sRadians → (∃ err, HData.getItems w.heap w.obj u = (.error err, w.heap)) ∨
      ∃ d h', HData.getItems w.heap w.obj u = (.ok d, h') ∧ Inv ⟨h', w.obj, d.values ++ w.held⟩ c := by
    intro u hu
    unfold HData.getItems
    cases hc : checkAngleUnits (lower u) with
    | error err => exact Or.inl ⟨err, rfl⟩
    | ok _ =>
      right
      simp only [hu, if_false]
      obtain ⟨h1, h2, h3, _⟩ := Heap.allocDict_spec (((HData.view w.heap w.obj).dataDegrees).mapVals toRaw) w.heap
      exact ⟨_, _, rfl, hi.fresh h1 h2 h3⟩
  cases e with
  | write r a =>
    unfold World.next
    simp only [calls, List.filterMap_cons, List.filterMap_nil, DataContainer.run, List.foldl_nil]
    split
    · rename_i hr
      refine ⟨?_, hi.refs, hi.held⟩
      rw [← hi.view]
      apply view_congr
      intro r' hr'
      have : r' ≠ r := fun h => (hi.refs r' hr').2 (h ▸ hr)
      simp [Heap.write, this]
    · exact hi
  | getPc pc u =>
    unfold World.next
    simp only [calls, List.filterMap_cons, List.filterMap_nil, DataContainer.run, List.foldl_nil]
    unfold HData.getPc
    cases DataContainer.getPc (HData.view w.heap w.obj) pc u with
    | error err => exact hi
    | ok pts =>
      refine hi.fresh (rs := [w.heap.next]) ?_ (Nat.le_succ _) ?_
      · intro r hr
        simp [Heap.alloc, hr.ne]
      · intro r hr
        rw [List.mem_singleton] at hr
        subst hr
        exact ⟨le_rfl, Nat.lt_succ_self _⟩
  | getItems u =>
    unfold World.next
    simp only [calls, List.filterMap_cons, List.filterMap_nil, DataContainer.run, List.foldl_nil]
    rcases hitems u he with ⟨err, h⟩ | ⟨d, h', h, hinv⟩
    · rw [h]; exact hi
    · rw [h]; exact hinv
  | getValues u =>
    unfold World.next
    simp only [calls, List.filterMap_cons, List.filterMap_nil, DataContainer.run, List.foldl_nil]
    unfold HData.getValues
    rcases hitems u he with ⟨err, h⟩ | ⟨d, h', h, hinv⟩
    · rw [h]; exact hi
    · rw [h]; exact hinv
  | call op =>
    unfold World.next
    simp only [calls, List.filterMap_cons, List.filterMap_nil, DataContainer.run, List.foldl_cons, List.foldl_nil]
    unfold HData.call
    have hv := hi.view
    rw [hv]
    have hstore := hi.store (DataContainer.step c op).1
    cases op with
    | filter f => exact hstore
    | _ =>
      cases hs : DataContainer.step c _ with
      | mk c' e =>
        cases e with
        | none => rw [hs] at hstore; exact hstore
        | some e =>
          have := step_error_same c _ (fun f => by rintro ⟨⟩) (congrArg Prod.snd hs)
          rw [hs] at this
          simp only at this
          subst this
          exact hi

theorem run_append (c : DataContainer K) (a b : List (DataContainer.Op K)) :
    DataContainer.run c (a ++ b) = DataContainer.run (DataContainer.run c a) b := by
  simp [DataContainer.run, List.foldl_append]

theorem calls_cons (e : Ev K) (evs : List (Ev K)) : calls (e :: evs) = calls [e] ++ calls evs := by
  unfold calls
  rw [← List.filterMap_append]
  rfl

theorem Inv.foldl {w : World K} {c : DataContainer K} (hi : Inv w c) (evs : List (Ev K)) (he : ∀ e ∈ evs, e.Safe) :
    Inv (evs.foldl World.next w) (DataContainer.run c (calls evs)) := by
  induction evs generalizing w c with
  | nil => exact hi
  | cons e evs ih =>
    rw [List.foldl_cons, calls_cons, run_append]
    exact ih (hi.next e (he e List.mem_cons_self)) (fun e' h => he e' (List.mem_cons_of_mem _ h))

end HData

/-- **C15 (`DataContainer`).** The constructor changes no array of the caller, and from then on the container evolves
exactly as if the caller had made only the method calls: writes to the arrays passed in and to all arrays
obtained from `get_pc` (both units) and from `get_items`/`get_values` in degrees have no effect.  Missing:
`get_items('radians')` and `get_values('radians')`, for which the claim is false (`C15_live_arrays`).
`held` is any set of arrays existing before the call, in particular those passed in `iter`. -/
theorem C15_isolation_partial {h h' : Heap (RawVal K)} {iter : List (RawKey × ℕ)} {units : Key} {b : Bool} {o : HData K}
    {held : List ℕ} (hheld : ∀ r ∈ held, r < h.next)
    (hinit : HData.init h iter units b = (.ok o, h')) :
    (∀ r ∈ held, h'.cells r = h.cells r) ∧
    (∃ w, DataContainer.init (h.read iter) units b = .ok (HData.view h' o, w)) ∧
    ∀ evs : List (HData.Ev K), (∀ e ∈ evs, e.Safe) →
      let w := evs.foldl HData.World.next ⟨h', o, held⟩
      HData.view w.heap w.obj = DataContainer.run (HData.view h' o) (HData.calls evs) := by
  unfold HData.init at hinit
  obtain ⟨h1, h2, h3, h4⟩ := Heap.allocDict_spec (h.read iter) h
  simp only [h4] at hinit
  cases hc : DataContainer.init (h.read iter) units b with
  | error e => rw [hc] at hinit; cases hinit
  | ok cw =>
    obtain ⟨c, w⟩ := cw
    rw [hc] at hinit
    simp only [Prod.mk.injEq, Except.ok.injEq] at hinit
    obtain ⟨rfl, rfl⟩ := hinit
    obtain ⟨g1, g2, g3, g4⟩ := HData.store_spec (h.allocDict (h.read iter)).2 c
    refine ⟨?_, ⟨w, by rw [g1]⟩, ?_⟩
    · intro r hr
      have := hheld r hr
      rw [g2 r (by omega), h1 r this]
    · intro evs hsafe
      rw [g1]
      refine (HData.Inv.foldl (c := c) ⟨g1, ?_, ?_⟩ evs hsafe).view
      · intro r hr
        refine ⟨(g4 r hr).2, fun hh => ?_⟩
        have := hheld r hh
        have := (g4 r hr).1
        omega
      · intro r hr
        have := hheld r hr
        simp only at *
        omega

/-- **C15.** What a getter hands out has the promised contents. -/
theorem C15_getter_contents (h h' : Heap (RawVal K)) (o : HData K) (pc units : Key) :
    (∀ r, HData.getPc h o pc units = (.ok r, h') →
      ∃ pts, (HData.view h o).getPc pc units = .ok pts ∧ h'.cells r = toRaw pts) ∧
    (∀ d, HData.getItems h o units = (.ok d, h') →
      ∃ items, (HData.view h o).getItems units = .ok items ∧ (h'.read d).mapVals toPts = items) := by
  constructor
  · intro r hr
    unfold HData.getPc at hr
    cases hp : DataContainer.getPc (HData.view h o) pc units with
    | error e => rw [hp] at hr; cases hr
    | ok pts =>
      rw [hp] at hr
      cases hr
      exact ⟨pts, rfl, by simp [Heap.alloc]⟩
  · intro d hd
    unfold HData.getItems at hd
    unfold DataContainer.getItems
    cases hu : checkAngleUnits (lower units) with
    | error e => rw [hu] at hd; cases hd
    | ok _ =>
      rw [hu] at hd
      by_cases hr : lower units = sRadians
      · simp only [hr, if_true, Prod.mk.injEq, Except.ok.injEq] at hd
        obtain ⟨rfl, rfl⟩ := hd
        exact ⟨_, by simp only [hr, if_true, bind, Except.bind, pure, Except.pure]; rfl, rfl⟩
      · simp only [hr, if_false, Prod.mk.injEq, Except.ok.injEq] at hd
        obtain ⟨rfl, rfl⟩ := hd
        obtain ⟨_, _, _, h4⟩ := Heap.allocDict_spec (((HData.view h o).dataDegrees).mapVals toRaw) h
        refine ⟨_, by simp only [hr, if_false, bind, Except.bind, pure, Except.pure]; rfl, ?_⟩
        rw [h4, Dict.mapVals_mapVals]
        simp only [toPts_toRaw, Dict.mapVals_id]

end

/-! ### `fDataContainer` -/

namespace HFData

theorem toComps_arr (c : Dict Key (List ℂ)) :
    (c.mapVals (fun v => RawFVal.arr1 .complex128 v)).mapVals toComps = c := by
  rw [Dict.mapVals_mapVals]
  exact Dict.mapVals_id c

theorem store_spec (h : Heap RawFVal) (c : FDataContainer) :
    view (store h c).2 (store h c).1 = c ∧
    (∀ r, r < h.next → (store h c).2.cells r = h.cells r) ∧ h.next ≤ (store h c).2.next ∧
    (∀ r ∈ (store h c).1.refs.values, h.next ≤ r ∧ r < (store h c).2.next) := by
  obtain ⟨h1, h2, h3, h4⟩ := Heap.allocDict_spec (c.fdata.mapVals (fun v => RawFVal.arr1 .complex128 v)) h
  refine ⟨?_, h1, h2, h3⟩
  unfold view store
  simp only [h4, toComps_arr]

theorem view_congr {h h' : Heap RawFVal} {o : HFData} (hh : ∀ r ∈ o.refs.values, h'.cells r = h.cells r) :
    view h' o = view h o := by
  unfold view
  rw [Heap.read_congr hh]

/-- The caller holds no array of the container. -/
structure Inv (w : World) (c : FDataContainer) : Prop where
  view : HFData.view w.heap w.obj = c
  refs : ∀ r ∈ w.obj.refs.values, r < w.heap.next ∧ r ∉ w.held
  held : ∀ r ∈ w.held, r < w.heap.next

/-- Every action except asking for `get_items`/`get_values`. -/
def Ev.Safe : Ev → Prop
  | .getItems => False
  | .getValues => False
  | _ => True

/-- The method calls among the actions. -/
def calls (evs : List Ev) : List FDataContainer.Op :=
  evs.filterMap (fun e => match e with | .call op => some op | _ => none)

theorem calls_cons (e : Ev) (evs : List Ev) : calls (e :: evs) = calls [e] ++ calls evs := by
  unfold calls
  rw [← List.filterMap_append]
  rfl

theorem Inv.next {w : World} {c : FDataContainer} (hi : Inv w c) (hc : c.Reachable) (e : Ev) (he : e.Safe) :
    Inv (w.next e) (FDataContainer.run c (calls [e])) := by
  cases e with
  | getItems => exact he.elim
  | getValues => exact he.elim
  | write r a =>
    unfold World.next
    simp only [calls, List.filterMap_cons, List.filterMap_nil, FDataContainer.run, List.foldl_nil]
    split
    · rename_i hr
      refine ⟨?_, hi.refs, hi.held⟩
      rw [← hi.view]
      apply view_congr
      intro r' hr'
      have : r' ≠ r := fun h => (hi.refs r' hr').2 (h ▸ hr)
      simp [Heap.write, this]
    · exact hi
  | getPc pc =>
    unfold World.next
    simp only [calls, List.filterMap_cons, List.filterMap_nil, FDataContainer.run, List.foldl_nil]
    unfold HFData.getPc
    cases Dict.get w.obj.refs pc with
    | error err => exact hi
    | ok r =>
      refine ⟨?_, ?_, ?_⟩
      · rw [← hi.view]
        apply view_congr
        intro r' hr'
        simp [Heap.alloc, (hi.refs r' hr').1.ne]
      · intro r' hr'
        obtain ⟨g1, g2⟩ := hi.refs r' hr'
        refine ⟨g1.trans (Nat.lt_succ_self _), ?_⟩
        simp only [Heap.alloc, List.mem_cons, not_or]
        exact ⟨g1.ne, g2⟩
      · intro r' hr'
        simp only [Heap.alloc, List.mem_cons] at hr' ⊢
        rcases hr' with rfl | hr'
        · exact Nat.lt_succ_self _
        · exact (hi.held r' hr').trans (Nat.lt_succ_self _)
  | call op =>
    unfold World.next
    simp only [calls, List.filterMap_cons, List.filterMap_nil, FDataContainer.run, List.foldl_cons, List.foldl_nil]
    unfold HFData.call
    rw [hi.view]
    cases hs : FDataContainer.step c op with
    | mk c' e =>
      cases e with
      | none =>
        obtain ⟨h1, h2, h3, h4⟩ := store_spec w.heap c'
        refine ⟨h1, ?_, ?_⟩
        · intro r hr
          refine ⟨(h4 r hr).2, fun hh => ?_⟩
          have := hi.held r hh
          have := (h4 r hr).1
          omega
        · intro r hr
          exact (hi.held r hr).trans_le h3
      | some e =>
        have := (C11_rejected_fdata_operations hc).1 op e (by rw [hs])
        rw [hs] at this
        simp only at this
        subst this
        exact hi

end HFData

theorem FDataContainer.Reachable.run {c : FDataContainer} (hc : c.Reachable) (ops : List FDataContainer.Op) :
    (FDataContainer.run c ops).Reachable := by
  obtain ⟨iter, M, c₀, ops₀, h, rfl⟩ := hc
  exact ⟨iter, M, c₀, ops₀ ++ ops, h, by simp [FDataContainer.run, List.foldl_append]⟩

theorem HFData.Inv.foldl {w : HFData.World} {c : FDataContainer} (hi : HFData.Inv w c) (hc : c.Reachable)
    (evs : List HFData.Ev) (he : ∀ e ∈ evs, e.Safe) :
    HFData.Inv (evs.foldl HFData.World.next w) (FDataContainer.run c (HFData.calls evs)) := by
  induction evs generalizing w c with
  | nil => exact hi
  | cons e evs ih =>
    rw [List.foldl_cons, HFData.calls_cons]
    have hr : FDataContainer.run c (HFData.calls [e] ++ HFData.calls evs) =
        FDataContainer.run (FDataContainer.run c (HFData.calls [e])) (HFData.calls evs) := by
      simp [FDataContainer.run, List.foldl_append]
    rw [hr]
    exact ih (hi.next hc e (he e List.mem_cons_self)) (hc.run _) (fun e' h => he e' (List.mem_cons_of_mem _ h))

/-- **C15 (`fDataContainer`).** As `C15_isolation_partial`; missing are `get_items` and `get_values`, for which the
claim is false (`C15_fdata_live_arrays`). -/
theorem C15_fdata_isolation_partial {h h' : Heap RawFVal} {iter : List (RawKey × ℕ)} {M : ℕ} {o : HFData}
    {held : List ℕ} (hheld : ∀ r ∈ held, r < h.next) (hinit : HFData.init h iter M = (.ok o, h')) :
    (∀ r ∈ held, h'.cells r = h.cells r) ∧
    FDataContainer.init (h.read iter) M = .ok (HFData.view h' o) ∧
    ∀ evs : List HFData.Ev, (∀ e ∈ evs, e.Safe) →
      let w := evs.foldl HFData.World.next ⟨h', o, held⟩
      HFData.view w.heap w.obj = FDataContainer.run (HFData.view h' o) (HFData.calls evs) := by
  unfold HFData.init at hinit
  cases hc : FDataContainer.init (h.read iter) M with
  | error e => rw [hc] at hinit; cases hinit
  | ok c =>
    rw [hc] at hinit
    simp only [Prod.mk.injEq, Except.ok.injEq] at hinit
    obtain ⟨rfl, rfl⟩ := hinit
    obtain ⟨g1, g2, g3, g4⟩ := HFData.store_spec h c
    refine ⟨fun r hr => g2 r (hheld r hr), by rw [g1], ?_⟩
    intro evs hsafe
    rw [g1]
    refine (HFData.Inv.foldl (c := c) ⟨g1, ?_, ?_⟩ ⟨_, _, c, [], hc, rfl⟩ evs hsafe).view
    · intro r hr
      refine ⟨(g4 r hr).2, fun hh => ?_⟩
      have := hheld r hh
      have := (g4 r hr).1
      omega
    · intro r hr
      exact (hheld r hr).trans_le g3

/-- **C15 is false for `fDataContainer.get_items`/`get_values`.** -/
theorem C15_fdata_live_arrays : ∃ (h h' : Heap RawFVal) (iter : List (RawKey × ℕ)) (o : HFData) (r : ℕ),
    (∀ p ∈ iter, p.2 < h.next) ∧ HFData.init h iter 0 = (.ok o, h') ∧
    ∀ get ∈ [HFData.Ev.getItems, HFData.Ev.getValues],
    let w := [get, .write r (.arr1 .complex128 [7])].foldl HFData.World.next ⟨h', o, iter.map Prod.snd⟩
    (HFData.view h' o).getPc kPP = .ok [1] ∧ (HFData.view w.heap w.obj).getPc kPP = .ok [7] := by
  refine ⟨⟨fun _ => .arr1 .complex128 [1], 1⟩, _, [(.str kPP, 0)], _, 1, ?_, rfl, ?_⟩
  · intro p hp
    simp only [List.mem_cons, List.not_mem_nil, or_false] at hp
    subst hp; decide
  · intro get hget
    simp only [List.mem_cons, List.not_mem_nil, or_false] at hget
    rcases hget with rfl | rfl
    · exact ⟨rfl, rfl⟩
    · exact ⟨rfl, rfl⟩

/-- **C15 is false as stated.** Writing into an array returned by `get_values('radians')` changes what the container
returns afterwards. -/
theorem C15_live_arrays : ∃ (h h' : Heap (RawVal ℚ)) (iter : List (RawKey × ℕ)) (o : HData ℚ) (r : ℕ),
    (∀ p ∈ iter, p.2 < h.next) ∧ HData.init h iter sRadians false = (.ok o, h') ∧
    let w := [HData.Ev.getValues sRadians, .write r (.arr2 .float [[0], [7]])].foldl HData.World.next
      ⟨h', o, iter.map Prod.snd⟩
    (HData.view h' o).getPc kPP sRadians = .ok [(0, 1)] ∧
    (HData.view w.heap w.obj).getPc kPP sRadians = .ok [(0, 7)] := by
  refine ⟨⟨fun _ => .arr2 .float [[0], [1]], 1⟩, _, [(.str kPP, 0)], _, 2, ?_, rfl, ?_, ?_⟩
  · intro p hp
    simp only [List.mem_cons, List.not_mem_nil, or_false] at hp
    subst hp; decide
  · decide +kernel
  · decide +kernel

/-- **C15 (`get_items`).** The same for `get_items('radians')`. -/
theorem C15_live_items : ∃ (h h' : Heap (RawVal ℚ)) (iter : List (RawKey × ℕ)) (o : HData ℚ) (r : ℕ),
    (∀ p ∈ iter, p.2 < h.next) ∧ HData.init h iter sRadians false = (.ok o, h') ∧
    let w := [HData.Ev.getItems sRadians, .write r (.arr2 .float [[0], [7]])].foldl HData.World.next
      ⟨h', o, iter.map Prod.snd⟩
    (HData.view h' o).getPc kPP sRadians = .ok [(0, 1)] ∧
    (HData.view w.heap w.obj).getPc kPP sRadians = .ok [(0, 7)] := by
  refine ⟨⟨fun _ => .arr2 .float [[0], [1]], 1⟩, _, [(.str kPP, 0)], _, 2, ?_, rfl, ?_, ?_⟩
  · intro p hp
    simp only [List.mem_cons, List.not_mem_nil, or_false] at hp
    subst hp; decide
  · decide +kernel
  · decide +kernel

/-- The hypotheses of `C15_isolation_partial` are met by a construction from two arrays, and the events include a
write into the array passed in and into one returned by `get_pc`. -/
example : ∃ (h h' : Heap (RawVal ℚ)) (o : HData ℚ) (held : List ℕ) (evs : List (HData.Ev ℚ)),
    (∀ r ∈ held, r < h.next) ∧
    HData.init h [(.str kPP, 0), (.str kSS, 1)] sDegrees false = (.ok o, h') ∧
    (∀ e ∈ evs, e.Safe) ∧ evs.length = 5 := by
  refine ⟨⟨fun r => .arr2 .float [[90 + r], [2]], 2⟩, _, _, [0, 1],
    [.write 0 .other, .getPc kPP sRadians, .write 6 .other, .getItems sDegrees, .call (.scale 2)], ?_, rfl, ?_, rfl⟩
  · intro r hr
    simp only [List.mem_cons, List.not_mem_nil, or_false] at hr
    rcases hr with rfl | rfl <;> decide
  · intro e he
    simp only [List.mem_cons, List.not_mem_nil, or_false] at he
    rcases he with rfl | rfl | rfl | rfl | rfl <;> simp [HData.Ev.Safe]
    decide

/-- The hypotheses of `C15_fdata_isolation_partial` are met. -/
example : ∃ (h h' : Heap RawFVal) (o : HFData) (held : List ℕ) (evs : List HFData.Ev),
    (∀ r ∈ held, r < h.next) ∧ HFData.init h [(.str kPP, 0), (.str kSS, 1)] 0 = (.ok o, h') ∧
    (∀ e ∈ evs, e.Safe) ∧ evs.length = 3 := by
  refine ⟨⟨fun r => .arr1 .complex64 [r], 2⟩, _, _, [0, 1],
    [.write 0 .other, .getPc kPP, .call (.scale 2)], ?_, rfl, ?_, rfl⟩
  · intro r hr
    simp only [List.mem_cons, List.not_mem_nil, or_false] at hr
    rcases hr with rfl | rfl <;> decide
  · intro e he
    simp only [List.mem_cons, List.not_mem_nil, or_false] at he
    rcases he with rfl | rfl | rfl <;> trivial

end Shgpy
