import Verif.Spec.Plot
import Verif.Proofs.Form
import Verif.Proofs.FormConvert
import Verif.Props.DataOps

/-!
# Lemmas about the plotting model
-/

set_option linter.unusedSectionVars false
set_option linter.unusedSimpArgs false

namespace Shgpy
open Spec

variable {K P : Type} [Field K] [LinearOrder K] [IsStrictOrderedRing K] [FloorRing K] [HasPi K]

theorem getPc_cases (d : DataContainer K) (pc : Key) :
    (pc ∈ d.getKeys ∧ ∃ v, d.getPc pc sRadians = .ok v) ∨
    (pc ∉ d.getKeys ∧ d.getPc pc sRadians = .error .keyError) := by
  rw [getPc_radians]
  unfold DataContainer.getKeys
  generalize d.data = l
  induction l with
  | nil => right; exact ⟨by simp [Dict.keys], rfl⟩
  | cons p r ih =>
    obtain ⟨k, v⟩ := p
    by_cases hk : k = pc
    · left
      exact ⟨by simp [Dict.keys, hk], v, by simp [Dict.get, Dict.get?, hk]⟩
    · have hg : Dict.get ((k, v) :: r : Dict Key (List (K × K))) pc = Dict.get r pc := by
        simp [Dict.get, Dict.get?, hk]
      rw [hg]
      rcases ih with ⟨h1, h2⟩ | ⟨h1, h2⟩
      · exact .inl ⟨by simp only [Dict.keys, List.map_cons, List.mem_cons] at h1 ⊢; exact .inr h1, h2⟩
      · refine .inr ⟨?_, h2⟩
        simp only [Dict.keys, List.map_cons, List.mem_cons] at h1 ⊢
        rintro (h | h)
        · exact hk h.symm
        · exact h1 h

theorem drawCurves_cases (pc : Key) (dats : List (DataContainer K)) (params : List P) :
    (∃ cs, drawCurves pc dats params = .ok cs ∧ (∀ dp ∈ dats.zip params, pc ∈ dp.1.getKeys) ∧
      List.Forall₂ (fun dp v => dp.1.getPc pc sRadians = .ok v.1 ∧ v.2 = dp.2) (dats.zip params) cs) ∨
    (drawCurves pc dats params = .error .keyError ∧ ∃ dp ∈ dats.zip params, pc ∉ dp.1.getKeys) := by
  unfold drawCurves
  generalize dats.zip params = l
  induction l with
  | nil => exact .inl ⟨[], rfl, by simp, .nil⟩
  | cons dp l ih =>
    rw [List.mapM_cons]
    rcases getPc_cases dp.1 pc with ⟨h1, v, h2⟩ | ⟨h1, h2⟩
    · rw [h2]
      rcases ih with ⟨cs, h3, h4, h5⟩ | ⟨h3, dp', h4, h5⟩
      · refine .inl ⟨(v, dp.2) :: cs, ?_, ?_, .cons ⟨h2, rfl⟩ h5⟩
        · rw [h3]; rfl
        · intro dp' hdp'
          rcases List.mem_cons.1 hdp' with rfl | h
          · exact h1
          · exact h4 dp' h
      · exact .inr ⟨by rw [h3]; rfl, dp', List.mem_cons_of_mem _ h4, h5⟩
    · exact .inr ⟨by rw [h2]; rfl, dp, by simp, h1⟩

theorem drawCells_cases (dats : List (DataContainer K)) (params : List P) (legend : Bool) (pcs : List Key) :
    (∃ out, drawCells dats params legend pcs (List.replicate pcs.length {}) = .ok out ∧
      (∀ pc ∈ pcs, ∀ dp ∈ dats.zip params, pc ∈ dp.1.getKeys) ∧
      List.Forall₂ (fun pc c => Shows dats params legend pc c ∧ c.xlabel = none ∧ c.ylabel = none ∧ c.rtick = none)
        pcs out) ∨
    (drawCells dats params legend pcs (List.replicate pcs.length {}) = .error .keyError ∧
      ∃ pc ∈ pcs, ∃ dp ∈ dats.zip params, pc ∉ dp.1.getKeys) := by
  induction pcs with
  | nil => exact .inl ⟨[], rfl, by simp, .nil⟩
  | cons pc pcs ih =>
    simp only [List.length_cons, List.replicate_succ, drawCells, drawCell]
    rcases drawCurves_cases pc dats params with ⟨cs, h1, h2, h3⟩ | ⟨h1, dp, h2, h3⟩
    · rw [h1]
      simp only [ok_bind, pure, Except.pure]
      rcases ih with ⟨out, h4, h5, h6⟩ | ⟨h4, pc', h5, h6⟩
      · refine .inl ⟨_, by rw [h4]; rfl, ?_, .cons ⟨⟨rfl, by simp, by simpa using h3⟩, rfl, rfl, rfl⟩ h6⟩
        intro pc' hpc'
        rcases List.mem_cons.1 hpc' with rfl | h
        · exact h2
        · exact h5 pc' h
      · exact .inr ⟨by rw [h4]; rfl, pc', List.mem_cons_of_mem _ h5, h6⟩
    · exact .inr ⟨by rw [h1]; rfl, pc, by simp, dp, h2, h3⟩

/-- The maximum of one container as the radial tick sees it. -/
theorem maxval_largest {d : DataContainer K} (hd : d.Reachable) :
    ∃ r, d.getMaxval = .ok r ∧ LargestValue [d] (r.map Prod.snd) := by
  have hwf := (reachable_normalForm hd).1
  rcases getMaxval_spec (reachable_ne_nil hd) with ⟨h0, h1⟩ | ⟨k, m, h1, h2⟩
  · refine ⟨none, h1, ?_, by simp⟩
    intro d' hd' k pts hk
    rw [List.mem_singleton.1 hd', getPc_radians, h0] at hk
    cases hk
  · refine ⟨some (k, m), h1, ?_, ?_⟩
    · intro d' hd' k' pts hk p hp
      rw [List.mem_singleton.1 hd', getPc_radians, Dict.get_ok_iff] at hk
      refine ⟨m, rfl, ?_⟩
      obtain ⟨pre, v, post, h3, h4, h5, h6, h7⟩ := h2
      have hm := Dict.mem_of_get? hk
      rw [h3] at hm
      rcases List.mem_append.1 hm with h | h
      · exact le_of_lt (h6 _ h p hp)
      · rcases List.mem_cons.1 h with h | h
        · cases h; exact not_lt.1 (h5 p hp)
        · exact not_lt.1 (h7 _ h p hp)
    · intro x hx
      cases hx
      obtain ⟨pre, v, post, h3, ⟨p, hp, hpm⟩, _⟩ := h2
      refine ⟨d, by simp, k, v, ?_, p, hp, hpm⟩
      rw [getPc_radians, Dict.get_ok_iff, Dict.get?_eq_some_iff hwf, h3]
      simp

theorem largestValue_append {l₁ l₂ : List (DataContainer K)} {m₁ m₂ : Option K} (h₁ : LargestValue l₁ m₁)
    (h₂ : LargestValue l₂ m₂) : LargestValue (l₁ ++ l₂) (optMax m₁ m₂) := by
  have hle : ∀ x, (∀ y, m₁ = some y → ∃ z, optMax m₁ m₂ = some z ∧ (x ≤ y → x ≤ z)) ∧
      (∀ y, m₂ = some y → ∃ z, optMax m₁ m₂ = some z ∧ (x ≤ y → x ≤ z)) := by
    intro x
    constructor
    · rintro y rfl
      cases m₂ with
      | none => exact ⟨y, rfl, id⟩
      | some b =>
        by_cases hb : y < b
        · exact ⟨b, by simp [optMax, hb], fun h => h.trans hb.le⟩
        · exact ⟨y, by simp [optMax, hb], id⟩
    · rintro y rfl
      cases m₁ with
      | none => exact ⟨y, rfl, id⟩
      | some b =>
        by_cases hb : b < y
        · exact ⟨y, by simp [optMax, hb], id⟩
        · exact ⟨b, by simp [optMax, hb], fun h => h.trans (not_lt.1 hb)⟩
  refine ⟨?_, ?_⟩
  · intro d hd k pts hk p hp
    rcases List.mem_append.1 hd with h | h
    · obtain ⟨y, hy, hle'⟩ := h₁.1 d h k pts hk p hp
      obtain ⟨z, hz, hxz⟩ := (hle p.2).1 y hy
      exact ⟨z, hz, hxz hle'⟩
    · obtain ⟨y, hy, hle'⟩ := h₂.1 d h k pts hk p hp
      obtain ⟨z, hz, hxz⟩ := (hle p.2).2 y hy
      exact ⟨z, hz, hxz hle'⟩
  · intro x hx
    have : m₁ = some x ∨ m₂ = some x := by
      cases m₁ with
      | none => exact .inr hx
      | some a =>
        cases m₂ with
        | none => exact .inl hx
        | some b =>
          by_cases hb : a < b
          · right; simpa [optMax, hb] using hx
          · left; simpa [optMax, hb] using hx
    rcases this with h | h
    · obtain ⟨d, hd, r⟩ := h₁.2 x h
      exact ⟨d, List.mem_append_left _ hd, r⟩
    · obtain ⟨d, hd, r⟩ := h₂.2 x h
      exact ⟨d, List.mem_append_right _ hd, r⟩

theorem maxOfDats_mapM {dats : List (DataContainer K)} (h : ∀ d ∈ dats, d.Reachable) :
    ∃ ms : List (Option K), dats.mapM (fun d => (do
        let m ← d.getMaxval
        return m.map Prod.snd : Except Err (Option K))) = .ok ms ∧
      List.Forall₂ (fun d m => LargestValue [d] m) dats ms := by
  induction dats with
  | nil => exact ⟨[], rfl, .nil⟩
  | cons d dats ih =>
    obtain ⟨r, h1, h2⟩ := maxval_largest (h d (by simp))
    obtain ⟨ms, h3, h4⟩ := ih (fun d hd => h d (by simp [hd]))
    refine ⟨r.map Prod.snd :: ms, ?_, .cons h2 h4⟩
    rw [List.mapM_cons, h1, h3]
    rfl

theorem largest_foldl {dats : List (DataContainer K)} {ms : List (Option K)}
    (h : List.Forall₂ (fun d m => LargestValue [d] m) dats ms) : ∀ {l : List (DataContainer K)} {m : Option K},
    LargestValue l m → LargestValue (l ++ dats) (ms.foldl optMax m) := by
  induction h with
  | nil => intro l m hl; simpa using hl
  | @cons d m' dats ms h _ ih =>
    intro l m hl
    have := ih (largestValue_append hl h)
    simpa using this

theorem maxOfDats_ok {dats : List (DataContainer K)} (h : ∀ d ∈ dats, d.Reachable) (hne : dats ≠ []) :
    ∃ m, maxOfDats dats = .ok m ∧ LargestValue dats m := by
  obtain ⟨ms, h1, h2⟩ := maxOfDats_mapM h
  unfold maxOfDats
  rw [h1, ok_bind]
  cases h2 with
  | nil => exact absurd rfl hne
  | @cons d m dats ms h' h2 =>
    exact ⟨_, rfl, by simpa using largest_foldl h2 h'⟩

theorem maxOfDats_nil : maxOfDats ([] : List (DataContainer K)) = .error .valueError := rfl

theorem decorate_ok {dats : List (DataContainer K)} {m : Option K} (h : maxOfDats dats = .ok m) {R : Key → Cell K P → Prop}
    {pcs : List Key} {cs : List (Cell K P)} (hR : List.Forall₂ R pcs cs) :
    ∃ out, decorate dats pcs cs = .ok out ∧
      List.Forall₂ (fun pc c => ∃ c₀, R pc c₀ ∧ c = { c₀ with title := some pc, rtick := some m }) pcs out := by
  induction hR with
  | nil => exact ⟨[], rfl, .nil⟩
  | @cons pc c pcs cs hc _ ih =>
    obtain ⟨out, h1, h2⟩ := ih
    refine ⟨{ c with title := some pc, rtick := some m } :: out, ?_, .cons ⟨c, hc, rfl⟩ h2⟩
    simp only [decorate]
    rw [h, h1]
    rfl

theorem decorate_error {dats : List (DataContainer K)} {e : Err} (h : maxOfDats dats = .error e) (pc : Key)
    (pcs : List Key) (c : Cell K P) (cs : List (Cell K P)) :
    decorate dats (pc :: pcs) (c :: cs) = .error e := by
  simp only [decorate]
  rw [h]
  rfl

end Shgpy
