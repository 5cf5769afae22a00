import Verif.Model.Pandas
import Verif.Spec.Frame
import Verif.Proofs.Form
import Verif.Proofs.FormConvert

/-!
# Lemmas about data frames
-/

set_option linter.unusedSectionVars false
set_option linter.unusedSimpArgs false

namespace Shgpy
open Spec

/-- Going through the keys of a dictionary and looking each one up. -/
theorem mapM_keys {α β : Type} {d : Dict Key α} (hd : Dict.WF d) {get : Key → Except Err β} {g : Key → α → β}
    (h : ∀ k v, Dict.get? d k = some v → get k = .ok (g k v)) :
    (Dict.keys d).mapM get = .ok (d.map (fun kv => g kv.1 kv.2)) := by
  have key : ∀ l : Dict Key α, (∀ kv ∈ l, kv ∈ d) →
      (Dict.keys l).mapM get = .ok (l.map (fun kv => g kv.1 kv.2)) := by
    intro l
    induction l with
    | nil => intro _; rfl
    | cons kv l ih =>
      intro hl
      have h1 := h kv.1 kv.2 ((Dict.get?_eq_some_iff hd).2 (hl kv (by simp)))
      rw [Dict.keys_cons, List.mapM_cons, h1, ih (fun kv' h' => hl kv' (by simp [h']))]
      rfl
  exact key d (fun _ h => h)

/-- The rows of a frame with one block per item. -/
def blocks {α β γ : Type} (d : Dict Key γ) (g : γ → List (α × β)) : List ((Key × α) × β) :=
  d.flatMap (fun kv => (g kv.2).map (fun p => ((kv.1, p.1), p.2)))

theorem blocks_rows {α β γ : Type} {d : Dict Key γ} {g : γ → List (α × β)} : ∀ r ∈ blocks d g, r.1.1 ∈ Dict.keys d := by
  intro r hr
  obtain ⟨kv, hkv, hr⟩ := List.mem_flatMap.1 hr
  obtain ⟨p, _, rfl⟩ := List.mem_map.1 hr
  exact List.mem_map.2 ⟨kv, hkv, rfl⟩

theorem filter_block {α β : Type} (k k' : Key) (l : List (α × β)) :
    ((l.map (fun p => ((k, p.1), p.2))).filter (fun r => r.1.1 = k')).map (fun r => (r.1.2, r.2)) =
      if k = k' then l else [] := by
  by_cases h : k = k'
  · subst h
    rw [if_pos rfl, List.filter_eq_self.2 (by
      intro r hr
      obtain ⟨p, _, rfl⟩ := List.mem_map.1 hr
      simp)]
    rw [List.map_map]
    exact List.map_id l
  · rw [if_neg h, List.map_eq_nil_iff, List.filter_eq_nil_iff]
    intro r hr
    obtain ⟨p, _, rfl⟩ := List.mem_map.1 hr
    simpa using h

theorem blocks_filter {α β γ : Type} {d : Dict Key γ} (hd : Dict.WF d) {g : γ → List (α × β)} {k : Key} {v : γ}
    (hk : Dict.get? d k = some v) :
    ((blocks d g).filter (fun r => r.1.1 = k)).map (fun r => (r.1.2, r.2)) = g v := by
  have key : ∀ d : Dict Key γ, k ∉ Dict.keys d → ((blocks d g).filter (fun r => r.1.1 = k)) = [] := by
    intro d hk
    rw [List.filter_eq_nil_iff]
    intro r hr h
    simp only [decide_eq_true_eq] at h
    exact hk (h ▸ blocks_rows r hr)
  induction d with
  | nil => cases hk
  | cons kv d ih =>
    obtain ⟨k', v'⟩ := kv
    have hsplit : blocks ((k', v') :: d) g = (g v').map (fun p => ((k', p.1), p.2)) ++ blocks d g := rfl
    rw [hsplit, List.filter_append, List.map_append, filter_block]
    have hnd : k' ∉ Dict.keys d ∧ Dict.WF d := by
      unfold Dict.WF at hd ⊢
      rw [Dict.keys_cons, List.nodup_cons] at hd
      exact hd
    by_cases h : k' = k
    · subst h
      simp only [Dict.get?, if_true] at hk
      cases hk
      rw [if_pos rfl, key d hnd.1]
      simp
    · simp only [Dict.get?, if_neg h] at hk
      rw [if_neg h, List.nil_append]
      exact ih hnd.2 hk

theorem tabulates_blocks {α β γ : Type} {d : Dict Key γ} (hd : Dict.WF d) {g : γ → List (α × β)}
    {content : Key → Except Err (List (α × β))} (h : ∀ k v, Dict.get? d k = some v → content k = .ok (g v)) :
    Tabulates (Dict.keys d) content (blocks d g) := by
  refine ⟨blocks_rows, ?_⟩
  intro k hk
  obtain ⟨⟨k', v⟩, hv, rfl⟩ := List.mem_map.1 hk
  have hg := (Dict.get?_eq_some_iff hd).2 hv
  rw [blocks_filter hd hg]
  exact h _ _ hg

/-- The frame of a dictionary whose rows all have as many values as there are labels. -/
theorem dataFrame_blocks {α β γ : Type} {d : Dict Key γ} {a2 : List α} {g : γ → List β}
    (hlen : ∀ kv ∈ d, (g kv.2).length = a2.length) :
    dataFrame (d.map (fun kv => g kv.2)).flatten (indexProduct (Dict.keys d) a2) =
      .ok (blocks d (fun v => a2.zip (g v))) := by
  have key : ∀ d : Dict Key γ, (∀ kv ∈ d, (g kv.2).length = a2.length) →
      (d.map (fun kv => g kv.2)).flatten.length = (indexProduct (Dict.keys d) a2).length ∧
      (indexProduct (Dict.keys d) a2).zip (d.map (fun kv => g kv.2)).flatten = blocks d (fun v => a2.zip (g v)) := by
    intro d
    induction d with
    | nil => intro _; exact ⟨rfl, rfl⟩
    | cons kv d ih =>
      intro h
      obtain ⟨h1, h2⟩ := ih (fun kv' h' => h kv' (by simp [h']))
      have h0 := h kv (by simp)
      refine ⟨?_, ?_⟩
      · simp only [List.map_cons, List.flatten_cons, List.length_append, Dict.keys_cons, indexProduct, List.flatMap_cons,
          List.length_map] at h1 ⊢
        rw [h1, h0]
      · simp only [List.map_cons, List.flatten_cons, Dict.keys_cons, indexProduct, List.flatMap_cons] at h2 ⊢
        rw [List.zip_append (by simp [h0])]
        rw [h2]
        simp only [blocks, List.flatMap_cons]
        congr 1
        generalize g kv.2 = l
        induction a2 generalizing l with
        | nil => rfl
        | cons a a2 ih2 =>
          cases l with
          | nil => rfl
          | cons b l => 
            simp only [List.map_cons, List.zip_cons_cons]
            congr 1
            rw [List.zip_map_left]
            rfl
  unfold dataFrame
  rw [if_pos (key d hlen).1, (key d hlen).2]

theorem flattenRows_ok {α : Type} {rows : List (List α)} {n : ℕ} (h : ∀ r ∈ rows, r.length = n) :
    flattenRows rows = .ok rows.flatten := by
  cases rows with
  | nil => rfl
  | cons r rs =>
    show (if (rs.all fun r' => decide (r'.length = r.length)) = true then Except.ok (r :: rs).flatten
      else Except.error Err.valueError) = _
    rw [if_pos]
    rw [List.all_eq_true]
    intro r' hr'
    simp [h r (by simp), h r' (by simp [hr'])]

theorem flattenRows_error {α : Type} {rows : List (List α)} {r r' : List α} (h : r ∈ rows) (h' : r' ∈ rows)
    (hne : r.length ≠ r'.length) : flattenRows rows = .error .valueError := by
  cases rows with
  | nil => cases h
  | cons a rs =>
    show (if (rs.all fun r' => decide (r'.length = a.length)) = true then Except.ok (a :: rs).flatten
      else Except.error Err.valueError) = _
    rw [if_neg]
    rw [List.all_eq_true]
    intro hall
    have key : ∀ b ∈ a :: rs, b.length = a.length := by
      intro b hb
      rcases List.mem_cons.1 hb with rfl | hb
      · rfl
      · simpa using hall b hb
    exact hne ((key r h).trans (key r' h').symm)

end Shgpy
