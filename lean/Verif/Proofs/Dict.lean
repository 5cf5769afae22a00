import Verif.Py.Basic
import Mathlib.Data.List.Perm.Basic
import Mathlib.Tactic.Common

/-! Lemmas about the dictionary model. -/

set_option linter.unusedSectionVars false

namespace Shgpy
namespace Dict
variable {κ : Type} [DecidableEq κ] {α β γ : Type}

@[simp] theorem keys_nil : keys ([] : Dict κ α) = [] := rfl
@[simp] theorem keys_cons (p : κ × α) (d : Dict κ α) : keys (p :: d) = p.1 :: keys d := rfl
@[simp] theorem values_nil : values ([] : Dict κ α) = [] := rfl
@[simp] theorem values_cons (p : κ × α) (d : Dict κ α) : values (p :: d) = p.2 :: values d := rfl

@[simp] theorem keys_mapVals (f : α → β) (d : Dict κ α) : keys (mapVals f d) = keys d := by
  simp [keys, mapVals]

@[simp] theorem values_mapVals (f : α → β) (d : Dict κ α) : values (mapVals f d) = (values d).map f := by
  simp [values, mapVals]

@[simp] theorem mapVals_nil (f : α → β) : mapVals f ([] : Dict κ α) = [] := rfl
@[simp] theorem mapVals_cons (f : α → β) (k : κ) (v : α) (d : Dict κ α) :
    mapVals f ((k, v) :: d) = (k, f v) :: mapVals f d := rfl

theorem mapVals_mapVals (f : α → β) (g : β → γ) (d : Dict κ α) :
    mapVals g (mapVals f d) = mapVals (fun v => g (f v)) d := by
  simp [mapVals]

theorem mapVals_congr {f g : α → β} {d : Dict κ α} (h : ∀ p ∈ d, f p.2 = g p.2) :
    mapVals f d = mapVals g d := by
  apply List.map_congr_left
  intro p hp
  simp [h p hp]

@[simp] theorem mapVals_id (d : Dict κ α) : mapVals (fun v => v) d = d := by
  simp [mapVals]

theorem mem_mapVals {f : α → β} {d : Dict κ α} {k : κ} {b : β} :
    (k, b) ∈ mapVals f d ↔ ∃ a, (k, a) ∈ d ∧ f a = b := by
  simp only [mapVals, List.mem_map, Prod.mk.injEq]
  constructor
  · rintro ⟨⟨k', a⟩, h, rfl, rfl⟩
    exact ⟨a, h, rfl⟩
  · rintro ⟨a, h, rfl⟩
    exact ⟨(k, a), h, rfl, rfl⟩

theorem mem_keys {d : Dict κ α} {k : κ} : k ∈ keys d ↔ ∃ v, (k, v) ∈ d := by
  simp [keys]

theorem mem_keys_of_mem {d : Dict κ α} {k : κ} {v : α} (h : (k, v) ∈ d) : k ∈ keys d :=
  mem_keys.2 ⟨v, h⟩

theorem get?_eq_none {d : Dict κ α} {k : κ} : get? d k = none ↔ k ∉ keys d := by
  induction d with
  | nil => simp [get?]
  | cons p d ih =>
    obtain ⟨k', v⟩ := p
    simp only [get?, keys_cons, List.mem_cons, not_or]
    split
    · next h => simp [h]
    · next h =>
      rw [ih]
      exact ⟨fun h' => ⟨fun e => h e.symm, h'⟩, fun h' => h'.2⟩

theorem mem_of_get? {d : Dict κ α} {k : κ} {v : α} (h : get? d k = some v) : (k, v) ∈ d := by
  induction d with
  | nil => simp [get?] at h
  | cons p d ih =>
    obtain ⟨k', v'⟩ := p
    simp only [get?] at h
    split at h
    · next e => cases h; subst e; simp
    · exact List.mem_cons_of_mem _ (ih h)

theorem get?_eq_some_iff {d : Dict κ α} (hd : WF d) {k : κ} {v : α} :
    get? d k = some v ↔ (k, v) ∈ d := by
  refine ⟨mem_of_get?, ?_⟩
  induction d with
  | nil => simp
  | cons p d ih =>
    obtain ⟨k', v'⟩ := p
    simp only [WF, keys_cons, List.nodup_cons] at hd
    intro h
    simp only [List.mem_cons, Prod.mk.injEq] at h
    simp only [get?]
    rcases h with ⟨rfl, rfl⟩ | h
    · simp
    · have : k ∈ keys d := mem_keys_of_mem h
      split
      · next e => subst e; exact absurd this hd.1
      · exact ih hd.2 h

theorem get_ok_iff {d : Dict κ α} {k : κ} {v : α} : get d k = .ok v ↔ get? d k = some v := by
  unfold get
  cases h : get? d k <;> simp

theorem get_error_iff {d : Dict κ α} {k : κ} {e : Err} :
    get d k = .error e ↔ k ∉ keys d ∧ e = .keyError := by
  unfold get
  cases h : get? d k with
  | none =>
    have := get?_eq_none.1 h
    simp [this, eq_comm]
  | some v =>
    have : k ∈ keys d := mem_keys_of_mem (mem_of_get? h)
    simp [this]

theorem get?_mapVals (f : α → β) (d : Dict κ α) (k : κ) :
    get? (mapVals f d) k = (get? d k).map f := by
  induction d with
  | nil => rfl
  | cons p d ih =>
    obtain ⟨k', v⟩ := p
    simp only [mapVals_cons, get?]
    split <;> simp [ih]

theorem get?_set (d : Dict κ α) (k k' : κ) (v : α) :
    get? (set d k v) k' = if k = k' then some v else get? d k' := by
  induction d with
  | nil => simp [set, get?]
  | cons p d ih =>
    obtain ⟨k₀, v₀⟩ := p
    simp only [set]
    split
    · next h =>
      subst h
      simp only [get?]
      split <;> simp_all
    · next h =>
      simp only [get?, ih]
      split
      · next h' =>
        subst h'
        split
        · next e => exact absurd e.symm h
        · rfl
      · rfl

theorem keys_set (d : Dict κ α) (k : κ) (v : α) :
    keys (set d k v) = if k ∈ keys d then keys d else keys d ++ [k] := by
  induction d with
  | nil => simp [set]
  | cons p d ih =>
    obtain ⟨k₀, v₀⟩ := p
    simp only [set]
    split
    · next h => subst h; simp
    · next h =>
      simp only [keys_cons, ih, List.mem_cons]
      have : ¬ k = k₀ := fun e => h e.symm
      simp only [this, false_or]
      split <;> simp

theorem WF_set {d : Dict κ α} (hd : WF d) (k : κ) (v : α) : WF (set d k v) := by
  unfold WF at *
  rw [keys_set]
  split
  · exact hd
  · next h =>
    rw [List.nodup_append]
    exact ⟨hd, by simp, by intro a ha b hb e; simp at hb; subst hb; subst e; exact h ha⟩

theorem WF_nil : WF ([] : Dict κ α) := by simp [WF]

theorem WF_foldl_set {ι : Type} (l : List ι) (f : ι → κ × α) (d : Dict κ α) (hd : WF d) :
    WF (l.foldl (fun d p => set d (f p).1 (f p).2) d) := by
  induction l generalizing d with
  | nil => exact hd
  | cons p l ih => exact ih _ (WF_set hd _ _)

theorem WF_ofPairs (l : List (κ × α)) : WF (ofPairs l) :=
  WF_foldl_set l id [] WF_nil

theorem mem_keys_set {d : Dict κ α} {k k' : κ} {v : α} :
    k' ∈ keys (set d k v) ↔ k' = k ∨ k' ∈ keys d := by
  rw [keys_set]
  split
  · next h => exact ⟨Or.inr, fun h' => h'.elim (fun e => e ▸ h) id⟩
  · simp [or_comm]

theorem mem_keys_foldl_set (l : List (κ × α)) (d : Dict κ α) (k : κ) :
    k ∈ keys (l.foldl (fun d p => set d p.1 p.2) d) ↔ k ∈ keys d ∨ k ∈ l.map Prod.fst := by
  induction l generalizing d with
  | nil => simp
  | cons p l ih =>
    simp only [List.foldl_cons, ih, mem_keys_set, List.map_cons, List.mem_cons]
    tauto

theorem mem_keys_ofPairs {l : List (κ × α)} {k : κ} :
    k ∈ keys (ofPairs l) ↔ k ∈ l.map Prod.fst := by
  simp [ofPairs, mem_keys_foldl_set]

/-- The value of `dict(pairs)` at `k` is the one of the last pair with key `k`. -/
theorem get?_foldl_set (l : List (κ × α)) (d : Dict κ α) (k : κ) :
    get? (l.foldl (fun d p => set d p.1 p.2) d) k
      = ((l.filter (fun p => p.1 = k)).getLast?.map Prod.snd).or (get? d k) := by
  induction l generalizing d with
  | nil => simp
  | cons p l ih =>
    simp only [List.foldl_cons, ih, get?_set]
    by_cases h : p.1 = k
    · simp only [h, if_true, List.filter_cons, decide_true, if_true]
      cases hl : l.filter (fun p => decide (p.1 = k)) with
      | nil => simp
      | cons q r => simp [List.getLast?_cons]
    · simp [h]

theorem get?_ofPairs (l : List (κ × α)) (k : κ) :
    get? (ofPairs l) k = (l.filter (fun p => p.1 = k)).getLast?.map Prod.snd := by
  unfold ofPairs
  rw [get?_foldl_set]
  simp [get?]

theorem set_of_notMem {d : Dict κ α} {k : κ} {v : α} (h : k ∉ keys d) : set d k v = d ++ [(k, v)] := by
  induction d with
  | nil => rfl
  | cons p d ih =>
    obtain ⟨k', v'⟩ := p
    simp only [keys_cons, List.mem_cons, not_or] at h
    simp only [set]
    rw [if_neg (fun e => h.1 e.symm), ih h.2]
    rfl

theorem foldl_set_of_nodup (l : List (κ × α)) (d : Dict κ α)
    (h : (keys d ++ l.map Prod.fst).Nodup) :
    l.foldl (fun d p => set d p.1 p.2) d = d ++ l := by
  induction l generalizing d with
  | nil => simp
  | cons p l ih =>
    simp only [List.foldl_cons]
    have hp : p.1 ∉ keys d := by
      intro hm
      rw [List.nodup_append] at h
      exact h.2.2 _ hm p.1 (by simp) rfl
    rw [set_of_notMem hp, ih]
    · simp
    · simpa [keys, List.map_append] using h

theorem ofPairs_of_nodup {l : List (κ × α)} (h : (l.map Prod.fst).Nodup) : ofPairs l = l := by
  unfold ofPairs
  rw [foldl_set_of_nodup]
  · simp
  · simpa using h

theorem mapValsM_ok {f : α → Except Err β} {d : Dict κ α} {d' : Dict κ β}
    (h : mapValsM f d = .ok d') :
    List.Forall₂ (fun p q => p.1 = q.1 ∧ f p.2 = .ok q.2) d d' := by
  induction d generalizing d' with
  | nil => simp [mapValsM] at h; subst h; exact .nil
  | cons p d ih =>
    obtain ⟨k, v⟩ := p
    simp only [mapValsM] at h
    cases hv : f v with
    | error e => rw [hv] at h; cases h
    | ok v' =>
      rw [hv] at h
      cases hr : mapValsM f d with
      | error e => rw [hr] at h; cases h
      | ok r' =>
        rw [hr] at h
        cases h
        exact .cons ⟨rfl, hv⟩ (ih hr)

theorem mapValsM_of_forall {f : α → Except Err β} {g : α → β} {d : Dict κ α}
    (h : ∀ p ∈ d, f p.2 = .ok (g p.2)) : mapValsM f d = .ok (mapVals g d) := by
  induction d with
  | nil => rfl
  | cons p d ih =>
    obtain ⟨k, v⟩ := p
    simp only [mapValsM, h (k, v) (by simp), ih (fun q hq => h q (List.mem_cons_of_mem _ hq))]
    rfl

theorem mapValsM_error {f : α → Except Err β} {d : Dict κ α} {e : Err}
    (h : mapValsM f d = .error e) : ∃ p ∈ d, f p.2 = .error e := by
  induction d with
  | nil => simp [mapValsM] at h
  | cons p d ih =>
    obtain ⟨k, v⟩ := p
    simp only [mapValsM] at h
    cases hv : f v with
    | error e' => rw [hv] at h; cases h; exact ⟨(k, v), by simp, hv⟩
    | ok v' =>
      rw [hv] at h
      cases hr : mapValsM f d with
      | error e' =>
        rw [hr] at h; cases h
        obtain ⟨p, hp, h'⟩ := ih hr
        exact ⟨p, List.mem_cons_of_mem _ hp, h'⟩
      | ok r' => rw [hr] at h; cases h

end Dict

theorem setEq_iff {α : Type} [DecidableEq α] {a b : List α} :
    setEq a b = true ↔ ∀ x, x ∈ a ↔ x ∈ b := by
  simp only [setEq, Bool.and_eq_true, List.all_eq_true, decide_eq_true_eq]
  exact ⟨fun h x => ⟨h.1 x, h.2 x⟩, fun h => ⟨fun x => (h x).1, fun x => (h x).2⟩⟩

end Shgpy
