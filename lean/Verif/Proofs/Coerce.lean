import Verif.Proofs.DataInit
import Verif.Spec.DataInput
import Mathlib.Data.List.Dedup
import Mathlib.Data.List.Perm.Basic

/-! Lemmas about `_coerce_to_oblique_incidence`. -/

set_option linter.unusedSectionVars false

namespace Shgpy
open Spec

variable {K : Type} [Field K] [LinearOrder K] [IsStrictOrderedRing K] [FloorRing K] [HasPi K]

/-- The array rotated by 90 degrees. -/
def rot90 (v : NArr K) : NArr K :=
  ⟨v.isInt, v.pts.map (fun p => (castTo v.isInt (pmod (p.1 + HasPi.pi / 2)), p.2))⟩

/-- The dictionary with normalized keys. -/
def renamed (d : Dict Key (NArr K)) : Dict Key (NArr K) :=
  Dict.ofPairs (d.map (fun p => (normKey p.1, p.2)))

theorem mem_keys_renamed {d : Dict Key (NArr K)} {k : Key} :
    k ∈ Dict.keys (renamed d) ↔ k ∈ (Dict.keys d).map normKey := by
  rw [renamed, Dict.mem_keys_ofPairs]
  simp [Dict.keys, Function.comp_def]

theorem two_key_dict {d : Dict Key (NArr K)} (hd : Dict.WF d) {a b : Key} (hab : a ≠ b)
    (h : ∀ x, x ∈ Dict.keys d ↔ x = a ∨ x = b) :
    ∃ va vb, d = [(a, va), (b, vb)] ∨ d = [(b, vb), (a, va)] := by
  have hp : (Dict.keys d).Perm [a, b] := by
    rw [List.perm_ext_iff_of_nodup hd (by simpa using hab)]
    simpa using h
  match d, hp with
  | [], hp => simpa using hp.length_eq
  | [_], hp => simpa using hp.length_eq
  | _ :: _ :: _ :: _, hp => simpa using hp.length_eq
  | [(k₁, v₁), (k₂, v₂)], hp =>
    simp only [Dict.keys_cons, Dict.keys_nil] at hp
    have h1 : k₁ = a ∨ k₁ = b := by
      have : k₁ ∈ [a, b] := hp.subset (by simp)
      simpa using this
    rcases h1 with rfl | rfl
    · have : [k₂].Perm [b] := (List.perm_cons k₁).1 hp
      have : k₂ = b := by simpa using this
      subst this
      exact ⟨v₁, v₂, Or.inl rfl⟩
    · have h2 := hp.trans (List.Perm.swap k₁ a [])
      have : [k₂].Perm [a] := (List.perm_cons k₁).1 h2
      have : k₂ = a := by simpa using this
      subst this
      exact ⟨v₂, v₁, Or.inr rfl⟩

theorem fill_explicit {a b : Key} (ha : a = kPP ∨ a = kSS) (hb : b = kPS ∨ b = kSP) (va vb : NArr K)
    {d : Dict Key (NArr K)} (hd : d = [(a, va), (b, vb)] ∨ d = [(b, vb), (a, va)]) :
    ∃ r, fillLeftover d ((Dict.keys d).foldl (fun l k => l.erase k) [kPP, kPS, kSP, kSS]) = .ok (d ++ r) ∧
      (r = [(partner a, rot90 va), (partner b, rot90 vb)] ∨
       r = [(partner b, rot90 vb), (partner a, rot90 va)]) := by
  rcases ha with rfl | rfl <;> rcases hb with rfl | rfl <;> rcases hd with rfl | rfl <;>
  · first
    | exact ⟨_, rfl, Or.inl rfl⟩
    | exact ⟨_, rfl, Or.inr rfl⟩

theorem not_setEq_four_of_two {ks : List Key} {a b : Key} (ha : a = kPP ∨ a = kSS)
    (hb : b = kPS ∨ b = kSP) (h : ∀ x, x ∈ ks ↔ x = a ∨ x = b) :
    setEq ks [kPP, kPS, kSP, kSS] = false := by
  rw [Bool.eq_false_iff, Ne, setEq_iff]
  intro h'
  have h1 := (h kPP).symm.trans (h' kPP)
  have h2 := (h kSS).symm.trans (h' kSS)
  rcases ha with rfl | rfl <;> rcases hb with rfl | rfl <;> revert h1 h2 <;> decide

theorem setEq_pair {ks : List Key} {a b : Key} :
    setEq ks [a, b] = true ↔ ∀ x, x ∈ ks ↔ x = a ∨ x = b := by
  rw [setEq_iff]; simp

/-- What `_coerce_to_oblique_incidence` returns, in each of its three branches. -/
theorem coerceOblique_cases (d : Dict Key (NArr K)) :
    ((∀ x, x ∈ (Dict.keys d).map normKey ↔ x = kPP ∨ x = kPS ∨ x = kSP ∨ x = kSS) ∧
      coerceOblique d = .ok (renamed d)) ∨
    (∃ a b va vb r, (a = kPP ∨ a = kSS) ∧ (b = kPS ∨ b = kSP) ∧
      (∀ x, x ∈ (Dict.keys d).map normKey ↔ x = a ∨ x = b) ∧
      (renamed d = [(a, va), (b, vb)] ∨ renamed d = [(b, vb), (a, va)]) ∧
      (r = [(partner a, rot90 va), (partner b, rot90 vb)] ∨
       r = [(partner b, rot90 vb), (partner a, rot90 va)]) ∧
      coerceOblique d = .ok (renamed d ++ r)) ∨
    (¬ ObliqueKeys ((Dict.keys d).map normKey) ∧ coerceOblique d = .error .valueError) := by
  set ks := (Dict.keys d).map normKey with hks
  by_cases h4 : setEq ks [kPP, kPS, kSP, kSS] = true
  · left
    refine ⟨?_, ?_⟩
    · simpa using setEq_iff.1 h4
    · unfold coerceOblique
      simp only [← hks]
      rw [if_pos h4]; rfl
  · by_cases h2 : ∃ a b, (a = kPP ∨ a = kSS) ∧ (b = kPS ∨ b = kSP) ∧ ∀ x, x ∈ ks ↔ x = a ∨ x = b
    · right; left
      obtain ⟨a, b, ha, hb, h⟩ := h2
      have hab : a ≠ b := by rcases ha with rfl | rfl <;> rcases hb with rfl | rfl <;> decide
      have hk : ∀ x, x ∈ Dict.keys (renamed d) ↔ x = a ∨ x = b := by
        intro x; rw [mem_keys_renamed]; exact h x
      obtain ⟨va, vb, hr⟩ := two_key_dict (Dict.WF_ofPairs _) hab hk
      obtain ⟨r, hf, hr'⟩ := fill_explicit ha hb va vb hr
      refine ⟨a, b, va, vb, r, ha, hb, h, hr, hr', ?_⟩
      unfold coerceOblique
      simp only [← hks]
      rw [if_neg h4, if_pos]
      · exact hf
      · simp only [Bool.or_eq_true, setEq_pair]
        rcases ha with rfl | rfl <;> rcases hb with rfl | rfl <;> simp only [h, implies_true, true_or, or_true]
    · right; right
      refine ⟨?_, ?_⟩
      · rintro (h | h)
        · exact h4 (setEq_iff.2 (by simpa using h))
        · exact h2 h
      · unfold coerceOblique
        simp only [← hks]
        rw [if_neg h4, if_neg]
        simp only [Bool.or_eq_true, setEq_pair]
        rintro (((h | h) | h) | h)
        · exact h2 ⟨kPP, kPS, Or.inl rfl, Or.inl rfl, h⟩
        · exact h2 ⟨kPP, kSP, Or.inl rfl, Or.inr rfl, h⟩
        · exact h2 ⟨kSS, kPS, Or.inr rfl, Or.inl rfl, h⟩
        · exact h2 ⟨kSS, kSP, Or.inr rfl, Or.inr rfl, h⟩

end Shgpy
