import Verif.Model.Heap
import Verif.Proofs.DataOps
import Verif.Proofs.FData

/-! Lemmas about containers on a heap. -/

set_option linter.unusedSectionVars false
set_option linter.unusedSimpArgs false

namespace Shgpy

namespace Heap
variable {A κ : Type}

theorem allocDict_spec (d : Dict κ A) : ∀ (h : Heap A),
    (∀ r, r < h.next → (h.allocDict d).2.cells r = h.cells r) ∧ h.next ≤ (h.allocDict d).2.next ∧
    (∀ r ∈ (h.allocDict d).1.values, h.next ≤ r ∧ r < (h.allocDict d).2.next) ∧
    (h.allocDict d).2.read (h.allocDict d).1 = d := by
  induction d with
  | nil => intro h; simp [allocDict, read, Dict.mapVals]
  | cons p d ih =>
    obtain ⟨k, a⟩ := p
    intro h
    obtain ⟨h1, h2, h3, h4⟩ := ih (h.alloc a).2
    have hn : (h.alloc a).2.next = h.next + 1 := rfl
    refine ⟨?_, ?_, ?_, ?_⟩
    · intro r hr
      show ((h.alloc a).2.allocDict d).2.cells r = _
      rw [h1 r (by omega)]
      simp [alloc, hr.ne]
    · show h.next ≤ ((h.alloc a).2.allocDict d).2.next
      omega
    · intro r hr
      have hr' : r = h.next ∨ r ∈ ((h.alloc a).2.allocDict d).1.values := by
        simpa [allocDict, alloc, Dict.values] using hr
      show _ ∧ r < ((h.alloc a).2.allocDict d).2.next
      rcases hr' with rfl | hr'
      · omega
      · have := h3 r hr'
        omega
    · show (k, ((h.alloc a).2.allocDict d).2.cells h.next) ::
        ((h.alloc a).2.allocDict d).2.read ((h.alloc a).2.allocDict d).1 = _
      rw [h4, h1 h.next (by omega)]
      simp [alloc]

theorem read_congr {h h' : Heap A} {d : Dict κ ℕ} (hh : ∀ r ∈ d.values, h'.cells r = h.cells r) :
    h'.read d = h.read d := by
  unfold read Dict.mapVals
  apply List.map_congr_left
  intro p hp
  rw [hh p.2 (List.mem_map.2 ⟨p, hp, rfl⟩)]

end Heap

section
variable {K : Type} [Field K] [LinearOrder K] [IsStrictOrderedRing K] [FloorRing K] [HasPi K]

theorem toPts_toRaw (p : List (K × K)) : toPts (toRaw p) = p := by
  simp only [toPts, toRaw]
  induction p with
  | nil => rfl
  | cons a p ih => simp only [List.map_cons, List.zip_cons_cons, ih]

theorem step_error_same (c : DataContainer K) (op : DataContainer.Op K) (hop : ∀ f, op ≠ .filter f) {e : Err}
    (he : (DataContainer.step c op).2 = some e) : (DataContainer.step c op).1 = c := by
  cases op with
  | scale s =>
    rw [step_scale] at he ⊢
    cases h : c.scaleData s with
    | error e => rfl
    | ok c' => rw [h] at he; cases he
  | subtractMin =>
    rw [step_subtractMin] at he ⊢
    cases h : c.subtractMin with
    | error e => rfl
    | ok c' => rw [h] at he; cases he
  | normalize d =>
    rw [step_normalize] at he ⊢
    cases h : c.normalizeData d with
    | error e => rfl
    | ok c' => rw [h] at he; cases he
  | phaseShift a u =>
    rw [step_phaseShift] at he ⊢
    cases h : c.phaseShiftData a u with
    | error e => rfl
    | ok c' => rw [h] at he; cases he
  | filter f => exact absurd rfl (hop f)

namespace HData

theorem store_spec (h : Heap (RawVal K)) (c : DataContainer K) :
    view (store h c).2 (store h c).1 = c ∧
    (∀ r, r < h.next → (store h c).2.cells r = h.cells r) ∧ h.next ≤ (store h c).2.next ∧
    (∀ r ∈ (store h c).1.refs.values, h.next ≤ r ∧ r < (store h c).2.next) := by
  obtain ⟨h1, h2, h3, h4⟩ := Heap.allocDict_spec (c.data.mapVals toRaw) h
  refine ⟨?_, h1, h2, h3⟩
  unfold view store
  simp only [h4, Dict.mapVals_mapVals, toPts_toRaw, Dict.mapVals_id]

theorem view_congr {h h' : Heap (RawVal K)} {o : HData K} (hh : ∀ r ∈ o.refs.values, h'.cells r = h.cells r) :
    view h' o = view h o := by
  unfold view
  rw [Heap.read_congr hh]

/-- The caller holds no array of the container. -/
structure Inv (w : World K) (c : DataContainer K) : Prop where
  view : HData.view w.heap w.obj = c
  refs : ∀ r ∈ w.obj.refs.values, r < w.heap.next ∧ r ∉ w.held
  held : ∀ r ∈ w.held, r < w.heap.next

theorem Inv.store {w : World K} {c : DataContainer K} (hi : Inv w c) (c' : DataContainer K) :
    Inv ⟨(HData.store w.heap c').2, (HData.store w.heap c').1, w.held⟩ c' := by
  obtain ⟨h1, h2, h3, h4⟩ := store_spec w.heap c'
  refine ⟨h1, ?_, ?_⟩
  · intro r hr
    refine ⟨(h4 r hr).2, fun hh => ?_⟩
    have := hi.held r hh
    have := (h4 r hr).1
    omega
  · intro r hr
    exact (hi.held r hr).trans_le h3

/-- Getting new arrays keeps the invariant. -/
theorem Inv.fresh {w : World K} {c : DataContainer K} (hi : Inv w c) {h' : Heap (RawVal K)} {rs : List ℕ}
    (h1 : ∀ r, r < w.heap.next → h'.cells r = w.heap.cells r) (h2 : w.heap.next ≤ h'.next)
    (h3 : ∀ r ∈ rs, w.heap.next ≤ r ∧ r < h'.next) : Inv ⟨h', w.obj, rs ++ w.held⟩ c := by
  refine ⟨?_, ?_, ?_⟩
  · rw [← hi.view]
    exact view_congr (fun r hr => h1 r (hi.refs r hr).1)
  · intro r hr
    obtain ⟨g1, g2⟩ := hi.refs r hr
    refine ⟨g1.trans_le h2, ?_⟩
    rw [List.mem_append, not_or]
    refine ⟨fun hh => ?_, g2⟩
    have := (h3 r hh).1
    omega
  · intro r hr
    rcases List.mem_append.1 hr with hr | hr
    · exact (h3 r hr).2
    · exact (hi.held r hr).trans_le h2

end HData
end
end Shgpy
