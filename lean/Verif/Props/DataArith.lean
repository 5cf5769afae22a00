import Verif.Proofs.DataArith

/-!
# Property C14: `dat_add` and `dat_subtract`
-/

set_option linter.unusedSectionVars false
set_option linter.unusedSimpArgs false

namespace Shgpy
open Spec

variable {K : Type} [Field K] [LinearOrder K] [IsStrictOrderedRing K] [FloorRing K] [HasPi K]

/-- The containers have the same key set and at least one key, the arrays of their respective first keys have
the same shape, and key by key the angles are compatible. -/
def Combinable (c₁ c₂ : DataContainer K) : Prop :=
  (∀ k, k ∈ c₁.getKeys ↔ k ∈ c₂.getKeys) ∧ c₁.getKeys ≠ [] ∧
  (∀ v₁ v₂ r₁ r₂, c₁.getValues sRadians = .ok (v₁ :: r₁) → c₂.getValues sRadians = .ok (v₂ :: r₂) →
    v₁.length = v₂.length) ∧
  (∀ k p₁ p₂, c₁.getPc k sRadians = .ok p₁ → c₂.getPc k sRadians = .ok p₂ → Compatible p₁ p₂)

/-- The angles stored under each key are pairwise distinct. -/
def DistinctKeys (c : DataContainer K) : Prop :=
  ∀ k pts, c.getPc k sRadians = .ok pts → (pts.map Prod.fst).Nodup

theorem expand_length_of_compatible {p₁ p₂ : List (K × K)} (h : Compatible p₁ p₂) :
    (expand p₁ p₂).length = p₁.length := h.length_eq.symm

theorem zipWith_fst {op : K → K → K} {p₁ p₂ : List (K × K)} (h : p₂.length = p₁.length) :
    (List.zipWith (fun p q : K × K => (p.1, op p.2 q.2)) p₁ p₂).map Prod.fst = p₁.map Prod.fst := by
  induction p₁ generalizing p₂ with
  | nil => simp
  | cons p p₁ ih =>
    cases p₂ with
    | nil => simp at h
    | cons q p₂ =>
      simp only [List.length_cons, Nat.add_right_cancel_iff] at h
      simp only [List.zipWith_cons_cons, List.map_cons, ih h]

theorem combine_ok (op : K → K → K) {c₁ c₂ : DataContainer K} (h₁ : c₁.Reachable) (h₂ : c₂.Reachable)
    (hd : DistinctKeys c₁) (hc : Combinable c₁ c₂) :
    ∃ c, datCombine op c₁ c₂ = .ok (c, []) ∧ c.Reachable ∧ c.getKeys = c₁.getKeys ∧
      ∀ k p₁ p₂, c₁.getPc k sRadians = .ok p₁ → c₂.getPc k sRadians = .ok p₂ →
        c.getPc k sRadians = .ok (List.zipWith (fun p q => (p.1, op p.2 q.2)) p₁ (expand p₁ p₂)) := by
  obtain ⟨hk, hne, hlen, hcomp⟩ := hc
  obtain ⟨hwf1, hnf1⟩ := reachable_normalForm h₁
  obtain ⟨hwf2, hnf2⟩ := reachable_normalForm h₂
  have hkeys : ∀ k ∈ c₁.getKeys, ∃ p₁ p₂, Dict.get c₁.data k = .ok p₁ ∧ Dict.get c₂.data k = .ok p₂ ∧
      Compatible p₁ p₂ := by
    intro k hk1
    obtain ⟨p₁, hp₁⟩ := Dict.mem_keys.1 hk1
    obtain ⟨p₂, hp₂⟩ := Dict.mem_keys.1 ((hk k).1 hk1)
    have e1 := get_of_mem hwf1 hp₁
    have e2 := get_of_mem hwf2 hp₂
    exact ⟨p₁, p₂, e1, e2, hcomp k p₁ p₂ e1 e2⟩
  obtain ⟨items, hl, hf⟩ := combineLoop_ok (op := op) hkeys
  have hik : Dict.keys items = c₁.getKeys := by
    clear hl hkeys
    generalize c₁.getKeys = ks at hf
    induction hf with
    | nil => rfl
    | cons h _ ih => rw [Dict.keys_cons, h.1, ih]
  have hiwf : Dict.WF items := by
    unfold Dict.WF; rw [hik]; exact hwf1
  have hitem : ∀ it ∈ items, ∃ p₁ p₂, (it.1, p₁) ∈ c₁.data ∧ Dict.get c₁.data it.1 = .ok p₁ ∧
      Compatible p₁ p₂ ∧ it.2 = List.zipWith (fun p q => (p.1, op p.2 q.2)) p₁ (expand p₁ p₂) := by
    intro it hit
    obtain ⟨k, hk1, he, hv⟩ := forall₂_mem_right hf hit
    obtain ⟨p₁, p₂, e1, e2, e3⟩ := hkeys k hk1
    subst he
    exact ⟨p₁, p₂, Dict.mem_of_get? (Dict.get_ok_iff.1 e1), e1, e3, hv p₁ p₂ e1 e2⟩
  have hinit := init_items hiwf
    (by
      intro it hit
      obtain ⟨p₁, p₂, hm, _, hcp, he⟩ := hitem it hit
      rw [he]
      exact NormalForm_of_fst (zipWith_fst (expand_length_of_compatible hcp)) (hnf1 _ hm))
    (by
      intro it hit
      obtain ⟨p₁, p₂, hm, hg, hcp, he⟩ := hitem it hit
      rw [he, zipWith_fst (expand_length_of_compatible hcp)]
      exact hd it.1 p₁ hg)
  refine ⟨⟨items, 1, 0, some 0, false, sRadians⟩, ?_, ⟨_, _, _, _, _, [], hinit, rfl⟩, hik, ?_⟩
  · unfold datCombine
    rw [if_neg (by rw [Bool.not_eq_false]; exact setEq_iff.2 hk)]
    cases hd1 : c₁.data with
    | nil => exact absurd (by unfold DataContainer.getKeys; rw [hd1]; rfl) hne
    | cons it1 r1 =>
      have hne2 : c₂.data ≠ [] := by
        intro hh
        have : it1.1 ∈ c₂.getKeys := (hk it1.1).1 (by unfold DataContainer.getKeys; rw [hd1]; simp)
        unfold DataContainer.getKeys at this
        rw [hh] at this
        simp at this
      cases hd2 : c₂.data with
      | nil => exact absurd hd2 hne2
      | cons it2 r2 =>
        have hv1 : c₁.getValues sRadians = .ok (it1.2 :: Dict.values r1) := by
          have : c₁.getValues sRadians = .ok c₁.data.values := rfl
          rw [this, hd1]; rfl
        have hv2 : c₂.getValues sRadians = .ok (it2.2 :: Dict.values r2) := by
          have : c₂.getValues sRadians = .ok c₂.data.values := rfl
          rw [this, hd2]; rfl
        have hlen' := hlen _ _ _ _ hv1 hv2
        rw [hd1, hd2] at hl
        simp only [hv1, hv2, bind, Except.bind, pyGet, le_refl, if_true, Int.toNat_zero, List.getElem?_cons_zero,
          hlen', ne_eq, not_true, if_false, hl]
        exact hinit
  · intro k p₁ p₂ e1 e2
    rw [getPc_radians] at e1 e2 ⊢
    have hk1 : k ∈ c₁.getKeys := Dict.mem_keys_of_mem (Dict.mem_of_get? (Dict.get_ok_iff.1 e1))
    obtain ⟨it, hit, he, hv⟩ := forall₂_mem_left hf hk1
    rw [← hv p₁ p₂ e1 e2]
    exact get_of_mem hiwf (he ▸ hit)

theorem combine_error (op : K → K → K) {c₁ c₂ : DataContainer K} (h₁ : c₁.Reachable) (h₂ : c₂.Reachable)
    (hc : ¬ Combinable c₁ c₂) :
    datCombine op c₁ c₂ =
      .error (if c₁.getKeys = [] ∧ c₂.getKeys = [] then .indexError else .valueError) := by
  obtain ⟨hwf1, hnf1⟩ := reachable_normalForm h₁
  obtain ⟨hwf2, hnf2⟩ := reachable_normalForm h₂
  unfold datCombine
  by_cases hk : ∀ k, k ∈ c₁.getKeys ↔ k ∈ c₂.getKeys
  swap
  · have : setEq c₁.getKeys c₂.getKeys = false := by
      rw [Bool.eq_false_iff, Ne, setEq_iff]; exact hk
    rw [if_pos this, if_neg]
    rintro ⟨e1, e2⟩
    apply hk
    rw [e1, e2]; simp
  rw [if_neg (by rw [Bool.not_eq_false]; exact setEq_iff.2 hk)]
  cases hd1 : c₁.data with
  | nil =>
    have e1 : c₁.getKeys = [] := by unfold DataContainer.getKeys; rw [hd1]; rfl
    have e2 : c₂.getKeys = [] := by
      rw [List.eq_nil_iff_forall_not_mem]
      intro k hk2
      have := (hk k).2 hk2
      rw [e1] at this
      simp at this
    rw [if_pos ⟨e1, e2⟩]
    have hv1 : c₁.getValues sRadians = .ok [] := by
      have : c₁.getValues sRadians = .ok c₁.data.values := rfl
      rw [this, hd1]; rfl
    simp [hv1, bind, Except.bind, pyGet]
  | cons it1 r1 =>
    have e1 : c₁.getKeys ≠ [] := by unfold DataContainer.getKeys; rw [hd1]; simp
    rw [if_neg (fun hh => e1 hh.1)]
    have hne2 : c₂.data ≠ [] := by
      intro hh
      have : it1.1 ∈ c₂.getKeys := (hk it1.1).1 (by unfold DataContainer.getKeys; rw [hd1]; simp)
      unfold DataContainer.getKeys at this
      rw [hh] at this
      simp at this
    cases hd2 : c₂.data with
    | nil => exact absurd hd2 hne2
    | cons it2 r2 =>
      have hv1 : c₁.getValues sRadians = .ok (it1.2 :: Dict.values r1) := by
        have : c₁.getValues sRadians = .ok c₁.data.values := rfl
        rw [this, hd1]; rfl
      have hv2 : c₂.getValues sRadians = .ok (it2.2 :: Dict.values r2) := by
        have : c₂.getValues sRadians = .ok c₂.data.values := rfl
        rw [this, hd2]; rfl
      simp only [hv1, hv2, bind, Except.bind, pyGet, le_refl, if_true, Int.toNat_zero, List.getElem?_cons_zero]
      by_cases hlen : it1.2.length = it2.2.length
      · rw [if_neg (by simpa using hlen)]
        have hl := combineLoop_error (op := op) (d₁ := c₁.data) (d₂ := c₂.data) (ks := c₁.getKeys)
          (by
            intro k hk1
            obtain ⟨p₁, hp₁⟩ := Dict.mem_keys.1 hk1
            obtain ⟨p₂, hp₂⟩ := Dict.mem_keys.1 ((hk k).1 hk1)
            exact ⟨p₁, p₂, get_of_mem hwf1 hp₁, get_of_mem hwf2 hp₂⟩)
          (by
            intro hall
            apply hc
            refine ⟨hk, e1, ?_, ?_⟩
            · intro v₁ v₂ q₁ q₂ f1 f2
              rw [hv1] at f1; rw [hv2] at f2
              cases f1; cases f2
              exact hlen
            · intro k p₁ p₂ f1 f2
              rw [getPc_radians] at f1 f2
              exact hall k (Dict.mem_keys_of_mem (Dict.mem_of_get? (Dict.get_ok_iff.1 f1))) p₁ p₂ f1 f2)
        rw [hd1, hd2] at hl
        rw [hl]
      · rw [if_pos (by simpa using hlen)]

/-- **C14.** `dat_subtract` on combinable containers (angles of the first distinct): keys and angles of the
first container, differences of the values, no warning. -/
theorem C14_subtract {c₁ c₂ : DataContainer K} (h₁ : c₁.Reachable) (h₂ : c₂.Reachable)
    (hd : DistinctKeys c₁) (hc : Combinable c₁ c₂) :
    ∃ c, datSubtract c₁ c₂ = .ok (c, []) ∧ c.getKeys = c₁.getKeys ∧
      ∀ k p₁ p₂, c₁.getPc k sRadians = .ok p₁ → c₂.getPc k sRadians = .ok p₂ →
        c.getPc k sRadians = .ok (List.zipWith (fun p q => (p.1, p.2 - q.2)) p₁ (expand p₁ p₂)) := by
  obtain ⟨c, e1, _, e2, e3⟩ := combine_ok (fun a b => a - b) h₁ h₂ hd hc
  exact ⟨c, e1, e2, e3⟩

/-- **C14.** `dat_add`. -/
theorem C14_add {c₁ c₂ : DataContainer K} (h₁ : c₁.Reachable) (h₂ : c₂.Reachable)
    (hd : DistinctKeys c₁) (hc : Combinable c₁ c₂) :
    ∃ c, datAdd c₁ c₂ = .ok (c, []) ∧ c.getKeys = c₁.getKeys ∧
      ∀ k p₁ p₂, c₁.getPc k sRadians = .ok p₁ → c₂.getPc k sRadians = .ok p₂ →
        c.getPc k sRadians = .ok (List.zipWith (fun p q => (p.1, p.2 + q.2)) p₁ (expand p₁ p₂)) := by
  obtain ⟨c, e1, _, e2, e3⟩ := combine_ok (fun a b => a + b) h₁ h₂ hd hc
  exact ⟨c, e1, e2, e3⟩

/-- **C14.** Everything else is rejected: `ValueError`, or `IndexError` when neither container has a key. -/
theorem C14_rejects {c₁ c₂ : DataContainer K} (h₁ : c₁.Reachable) (h₂ : c₂.Reachable)
    (hc : ¬ Combinable c₁ c₂) :
    datSubtract c₁ c₂ = .error (if c₁.getKeys = [] ∧ c₂.getKeys = [] then .indexError else .valueError) ∧
    datAdd c₁ c₂ = .error (if c₁.getKeys = [] ∧ c₂.getKeys = [] then .indexError else .valueError) :=
  ⟨combine_error _ h₁ h₂ hc, combine_error _ h₁ h₂ hc⟩

theorem expand_eq_of_length {p₁ p₁' p₂ : List (K × K)} (h : p₁'.length = p₁.length) :
    expand p₁' p₂ = expand p₁ p₂ := by
  match p₂ with
  | [] => rfl
  | [q] =>
    simp only [expand]
    rw [List.map_const', List.map_const', h]
  | _ :: _ :: _ => rfl

theorem forall₂_close_congr {p₁ p₁' q : List (K × K)} (h : p₁'.map Prod.fst = p₁.map Prod.fst)
    (hf : List.Forall₂ (fun p q : K × K => Close p.1 q.1) p₁ q) :
    List.Forall₂ (fun p q : K × K => Close p.1 q.1) p₁' q := by
  induction hf generalizing p₁' with
  | nil => have : p₁' = [] := by simpa using h
           subst this; exact .nil
  | cons hh _ ih =>
    cases p₁' with
    | nil => simp at h
    | cons p p₁' =>
      simp only [List.map_cons, List.cons.injEq] at h
      exact .cons (by rw [h.1]; exact hh) (ih h.2)

theorem zipWith_sub_add {p₁ p₂ : List (K × K)} (h : p₂.length = p₁.length) :
    List.zipWith (fun p q : K × K => (p.1, p.2 + q.2))
      (List.zipWith (fun p q : K × K => (p.1, p.2 - q.2)) p₁ p₂) p₂ = p₁ := by
  induction p₁ generalizing p₂ with
  | nil => simp
  | cons p p₁ ih =>
    cases p₂ with
    | nil => simp at h
    | cons q p₂ => simp at h ⊢; exact ih h

theorem dict_ext {α : Type} {d d' : Dict Key α} (hk : Dict.keys d = Dict.keys d') (hwf : Dict.WF d)
    (h : ∀ k v, Dict.get d k = .ok v → Dict.get d' k = .ok v) : d = d' := by
  have hwf' : Dict.WF d' := by unfold Dict.WF; rw [← hk]; exact hwf
  induction d generalizing d' with
  | nil => cases d' with
    | nil => rfl
    | cons => simp at hk
  | cons it d ih =>
    obtain ⟨k, v⟩ := it
    cases d' with
    | nil => simp at hk
    | cons it' d' =>
      obtain ⟨k', v'⟩ := it'
      simp only [Dict.keys_cons, List.cons.injEq] at hk
      obtain ⟨rfl, hk⟩ := hk
      have hv := h k v (by simp [Dict.get, Dict.get?])
      simp only [Dict.get, Dict.get?, if_true, Except.ok.injEq] at hv
      subst hv
      unfold Dict.WF at hwf hwf'
      simp only [Dict.keys_cons, List.nodup_cons] at hwf hwf'
      congr 1
      apply ih hk hwf.2
      · intro k' w hw
        have hne : k ≠ k' := by
          rintro rfl
          exact hwf.1 (Dict.mem_keys_of_mem (Dict.mem_of_get? (Dict.get_ok_iff.1 hw)))
        have := h k' w (by
          rw [Dict.get_ok_iff] at hw ⊢
          simp only [Dict.get?, hne, if_false]; exact hw)
        rw [Dict.get_ok_iff] at this ⊢
        simpa only [Dict.get?, hne, if_false] using this
      · exact hwf'.2

/-- **C14.** Subtracting and adding the same container restores the data. -/
theorem C14_subtract_then_add {c₁ c₂ c : DataContainer K} (h₁ : c₁.Reachable) (h₂ : c₂.Reachable)
    (hd : DistinctKeys c₁) {w : List Key} (h : datSubtract c₁ c₂ = .ok (c, w)) :
    ∃ c', datAdd c c₂ = .ok (c', []) ∧ c'.getItems sRadians = c₁.getItems sRadians := by
  have hc : Combinable c₁ c₂ := by
    by_contra hc
    rw [(C14_rejects h₁ h₂ hc).1] at h
    cases h
  obtain ⟨c0, e1, hr, e2, e3⟩ := combine_ok (fun a b => a - b) h₁ h₂ hd hc
  have : c0 = c := by
    have := e1.symm.trans h
    cases this; rfl
  subst this
  obtain ⟨hwf1, hnf1⟩ := reachable_normalForm h₁
  obtain ⟨hwf2, _⟩ := reachable_normalForm h₂
  obtain ⟨hk, hne, hlen, hcomp⟩ := hc
  have hget : ∀ k p, c0.getPc k sRadians = .ok p → ∃ p₁ p₂, c₁.getPc k sRadians = .ok p₁ ∧
      c₂.getPc k sRadians = .ok p₂ ∧ Compatible p₁ p₂ ∧
      p = List.zipWith (fun p q => (p.1, p.2 - q.2)) p₁ (expand p₁ p₂) := by
    intro k p hp
    have hk0 : k ∈ c₁.getKeys := by
      rw [← e2]; exact Dict.mem_keys_of_mem (Dict.mem_of_get? (Dict.get_ok_iff.1 hp))
    obtain ⟨p₁, hp₁⟩ := Dict.mem_keys.1 hk0
    obtain ⟨p₂, hp₂⟩ := Dict.mem_keys.1 ((hk k).1 hk0)
    have f1 := get_of_mem hwf1 hp₁
    have f2 := get_of_mem hwf2 hp₂
    have f3 := e3 k p₁ p₂ f1 f2
    rw [hp] at f3
    cases f3
    exact ⟨p₁, p₂, f1, f2, hcomp k p₁ p₂ f1 f2, rfl⟩
  have hfst : ∀ p₁ p₂ : List (K × K), Compatible p₁ p₂ →
      (List.zipWith (fun p q : K × K => (p.1, p.2 - q.2)) p₁ (expand p₁ p₂)).map Prod.fst = p₁.map Prod.fst :=
    fun p₁ p₂ hcp => zipWith_fst (op := fun a b => a - b) (expand_length_of_compatible hcp)
  have hd0 : DistinctKeys c0 := by
    intro k p hp
    obtain ⟨p₁, p₂, f1, _, f3, rfl⟩ := hget k p hp
    rw [hfst p₁ p₂ f3]
    exact hd k p₁ f1
  have hc0 : Combinable c0 c₂ := by
    refine ⟨?_, ?_, ?_, ?_⟩
    · rw [e2]; exact hk
    · rw [e2]; exact hne
    · intro v₁ v₂ r₁ r₂ g1 g2
      cases hd1 : c₁.data with
      | nil => exact absurd (by unfold DataContainer.getKeys; rw [hd1]; rfl) hne
      | cons it1 rr =>
        have hv1 : c₁.getValues sRadians = .ok (it1.2 :: Dict.values rr) := by
          have : c₁.getValues sRadians = .ok c₁.data.values := rfl
          rw [this, hd1]; rfl
        have hl := hlen _ _ _ _ hv1 g2
        cases hd0' : c0.data with
        | nil =>
          have : c0.getValues sRadians = .ok c0.data.values := rfl
          rw [this, hd0'] at g1
          cases g1
        | cons it0 rr0 =>
          have hv0 : c0.getValues sRadians = .ok (it0.2 :: Dict.values rr0) := by
            have : c0.getValues sRadians = .ok c0.data.values := rfl
            rw [this, hd0']; rfl
          rw [hv0] at g1
          cases g1
          have hkey : it0.1 = it1.1 := by
            have := e2
            unfold DataContainer.getKeys at this
            rw [hd0', hd1] at this
            simp only [Dict.keys_cons, List.cons.injEq] at this
            exact this.1
          have hp0 : c0.getPc it0.1 sRadians = .ok it0.2 := by
            rw [getPc_radians, hd0', Dict.get_ok_iff]; simp [Dict.get?]
          have hp1 : c₁.getPc it1.1 sRadians = .ok it1.2 := by
            rw [getPc_radians, hd1, Dict.get_ok_iff]; simp [Dict.get?]
          obtain ⟨p₁, p₂, f1, _, f3, f4⟩ := hget _ _ hp0
          rw [hkey, hp1] at f1
          cases f1
          have := congrArg List.length (hfst _ _ f3)
          rw [← f4] at this
          simp only [List.length_map] at this
          rw [this, hl]
    · intro k p q hp hq
      obtain ⟨p₁, p₂, f1, f2, f3, rfl⟩ := hget k p hp
      rw [hq] at f2
      cases f2
      have hl : (List.zipWith (fun p q : K × K => (p.1, p.2 - q.2)) p₁ (expand p₁ q)).length = p₁.length := by
        have := congrArg List.length (hfst _ _ f3)
        simpa only [List.length_map] using this
      unfold Compatible
      rw [expand_eq_of_length hl]
      exact forall₂_close_congr (hfst _ _ f3) f3
  obtain ⟨c', g1, g2, g3⟩ := C14_add hr h₂ hd0 hc0
  refine ⟨c', g1, ?_⟩
  rw [getItems_radians, getItems_radians]
  congr 1
  symm
  apply dict_ext
  · have := e2.symm.trans g2.symm
    exact this
  · exact hwf1
  · intro k p₁ hp₁
    have hk1 : k ∈ c₁.getKeys := Dict.mem_keys_of_mem (Dict.mem_of_get? (Dict.get_ok_iff.1 hp₁))
    obtain ⟨p₂, hp₂⟩ := Dict.mem_keys.1 ((hk k).1 hk1)
    have f2 := get_of_mem hwf2 hp₂
    have f0 := e3 k p₁ p₂ hp₁ f2
    have f3 := g3 k _ p₂ f0 f2
    rw [getPc_radians] at f3
    rw [f3]
    have hcp := hcomp k p₁ p₂ hp₁ f2
    have hl : (List.zipWith (fun p q : K × K => (p.1, p.2 - q.2)) p₁ (expand p₁ p₂)).length = p₁.length := by
      have := congrArg List.length (hfst _ _ hcp)
      simpa only [List.length_map] using this
    rw [expand_eq_of_length hl, zipWith_sub_add (expand_length_of_compatible hcp)]

theorem expand_self (p : List (K × K)) : expand p p = p := by
  match p with
  | [] => rfl
  | [q] => rfl
  | _ :: _ :: _ => rfl

theorem close_self (a : K) : Close a a := by
  unfold Close
  rw [sub_self, abs_zero]
  positivity

/-- **C14.** A container minus itself is zero everywhere. -/
theorem C14_subtract_self {c : DataContainer K} (h : c.Reachable) (hd : DistinctKeys c)
    (hne : c.getKeys ≠ []) :
    ∃ c', datSubtract c c = .ok (c', []) ∧ c'.getKeys = c.getKeys ∧
      ∀ k pts, c.getPc k sRadians = .ok pts → c'.getPc k sRadians = .ok (pts.map (fun p => (p.1, 0))) := by
  obtain ⟨c', e1, e2, e3⟩ := C14_subtract h h hd ⟨fun k => Iff.rfl, hne, by
    intro v₁ v₂ r₁ r₂ g1 g2
    rw [g1] at g2
    cases g2; rfl, by
    intro k p₁ p₂ g1 g2
    rw [g1] at g2
    cases g2
    unfold Compatible
    rw [expand_self]
    exact List.forall₂_same.2 (fun p _ => close_self _)⟩
  refine ⟨c', e1, e2, ?_⟩
  intro k pts hk
  rw [e3 k pts pts hk hk, expand_self]
  congr 1
  clear hk
  induction pts with
  | nil => rfl
  | cons p pts ih => simp [ih]

/-- **C14.** Addition is commutative in the values when the angles are equal. -/
theorem C14_add_comm {c₁ c₂ : DataContainer K} (h₁ : c₁.Reachable) (h₂ : c₂.Reachable)
    (hd : DistinctKeys c₁) (hc : Combinable c₁ c₂) (hc' : Combinable c₂ c₁)
    (hx : ∀ k p₁ p₂, c₁.getPc k sRadians = .ok p₁ → c₂.getPc k sRadians = .ok p₂ →
      p₁.map Prod.fst = p₂.map Prod.fst) :
    ∃ c c', datAdd c₁ c₂ = .ok (c, []) ∧ datAdd c₂ c₁ = .ok (c', []) ∧
      ∀ k ∈ c₁.getKeys, ∃ pts, c.getPc k sRadians = .ok pts ∧ c'.getPc k sRadians = .ok pts := by
  obtain ⟨hwf1, _⟩ := reachable_normalForm h₁
  obtain ⟨hwf2, _⟩ := reachable_normalForm h₂
  have hd' : DistinctKeys c₂ := by
    intro k p hp
    have hk2 : k ∈ c₂.getKeys := Dict.mem_keys_of_mem (Dict.mem_of_get? (Dict.get_ok_iff.1 hp))
    obtain ⟨p₁, hp₁⟩ := Dict.mem_keys.1 ((hc.1 k).2 hk2)
    have f1 := get_of_mem hwf1 hp₁
    rw [← hx k p₁ p f1 hp]
    exact hd k p₁ f1
  obtain ⟨c, e1, _, e3⟩ := C14_add h₁ h₂ hd hc
  obtain ⟨c', e1', _, e3'⟩ := C14_add h₂ h₁ hd' hc'
  refine ⟨c, c', e1, e1', ?_⟩
  intro k hk
  obtain ⟨p₁, hp₁⟩ := Dict.mem_keys.1 hk
  obtain ⟨p₂, hp₂⟩ := Dict.mem_keys.1 ((hc.1 k).1 hk)
  have f1 := get_of_mem hwf1 hp₁
  have f2 := get_of_mem hwf2 hp₂
  refine ⟨_, e3 k p₁ p₂ f1 f2, ?_⟩
  rw [e3' k p₂ p₁ f2 f1]
  congr 1
  have hfst := hx k p₁ p₂ f1 f2
  have hl : p₂.length = p₁.length := by simpa using (congrArg List.length hfst).symm
  have x1 : expand p₁ p₂ = p₂ := by rw [expand_eq_of_length hl.symm, expand_self]
  have x2 : expand p₂ p₁ = p₁ := by rw [expand_eq_of_length hl, expand_self]
  rw [x1, x2]
  clear * - hfst
  induction p₁ generalizing p₂ with
  | nil => have : p₂ = [] := by simpa using hfst.symm
           subst this; rfl
  | cons p p₁ ih =>
    cases p₂ with
    | nil => simp at hfst
    | cons q p₂ =>
      simp only [List.map_cons, List.cons.injEq] at hfst
      simp only [List.zipWith_cons_cons, List.cons.injEq, Prod.mk.injEq]
      exact ⟨⟨hfst.1.symm, add_comm _ _⟩, ih _ hfst.2⟩

/-! ### A concrete case -/

/-- Two reachable containers with the same keys in different order that can be combined. -/
example : ∃ c₁ c₂ : DataContainer ℚ, c₁.Reachable ∧ c₂.Reachable ∧ DistinctKeys c₁ ∧ Combinable c₁ c₂ ∧
    c₁.getKeys = [kPP, kSS] ∧ c₂.getKeys = [kSS, kPP] := by
  have hpi : (3 : ℚ) < HasPi.pi := by unfold HasPi.pi instHasPiRat; norm_num
  have hnf : ∀ y y' : ℚ, NormalForm [(0, y), (1, y')] := by
    intro y y'
    refine ⟨by simp, ?_, by simp⟩
    intro p hp
    simp only [List.mem_cons, List.not_mem_nil, or_false] at hp
    rcases hp with rfl | rfl
    · exact ⟨le_rfl, by linarith⟩
    · exact ⟨by norm_num, by simp only; linarith⟩
  have mk : ∀ k k' : Key, k ≠ k' → ∀ a b c d : ℚ,
      DataContainer.Reachable (⟨[(k, [(0, a), (1, b)]), (k', [(0, c), (1, d)])], 1, 0, some 0, false, sRadians⟩ :
        DataContainer ℚ) := by
    intro k k' hkk a b c d
    refine ⟨_, _, _, _, _, [], init_items (items := [(k, [(0, a), (1, b)]), (k', [(0, c), (1, d)])]) ?_ ?_ ?_, rfl⟩
    · simpa [Dict.WF] using hkk
    · intro it hit
      simp only [List.mem_cons, List.not_mem_nil, or_false] at hit
      rcases hit with rfl | rfl <;> exact hnf _ _
    · intro it hit
      simp only [List.mem_cons, List.not_mem_nil, or_false] at hit
      rcases hit with rfl | rfl <;> simp
  refine ⟨_, _, mk kPP kSS (by decide) 1 2 3 4, mk kSS kPP (by decide) 5 6 7 8, ?_, ⟨?_, ?_, ?_, ?_⟩, rfl, rfl⟩
  · intro k pts hk
    have := Dict.mem_of_get? (Dict.get_ok_iff.1 hk)
    simp only [List.mem_cons, Prod.mk.injEq, List.not_mem_nil, or_false] at this
    rcases this with ⟨_, rfl⟩ | ⟨_, rfl⟩ <;> simp
  · intro k
    simp [DataContainer.getKeys, Dict.keys, or_comm]
  · simp [DataContainer.getKeys, Dict.keys]
  · intro v₁ v₂ r₁ r₂ g1 g2
    cases g1; cases g2; rfl
  · intro k p₁ p₂ g1 g2
    have h1 := Dict.mem_of_get? (Dict.get_ok_iff.1 g1)
    have h2 := Dict.mem_of_get? (Dict.get_ok_iff.1 g2)
    simp only [List.mem_cons, Prod.mk.injEq, List.not_mem_nil, or_false] at h1 h2
    rcases h1 with ⟨_, rfl⟩ | ⟨_, rfl⟩ <;> rcases h2 with ⟨_, rfl⟩ | ⟨_, rfl⟩ <;>
    · unfold Compatible expand
      refine .cons (close_self _) (.cons (close_self _) .nil)

end Shgpy
