import Verif.Spec.Angle
import Verif.Model.DataContainer
import Mathlib.Tactic.Ring
import Mathlib.Tactic.Positivity
import Mathlib.Tactic.FieldSimp
import Mathlib.Tactic.LinearCombination
import Mathlib.Tactic.Push
import Mathlib.Data.List.Sort
import Mathlib.Algebra.Order.Floor.Ring

/-! Lemmas about angles modulo 2π and about sorting points. -/

set_option linter.unusedSectionVars false

namespace Shgpy
open Spec

variable {K : Type} [Field K] [LinearOrder K] [IsStrictOrderedRing K] [FloorRing K] [HasPi K]

theorem twoPi_pos : (0 : K) < twoPi := by
  unfold twoPi
  have := HasPi.pi_pos (K := K)
  linarith

theorem pmod_inTurn (x : K) : InTurn (pmod x) := by
  have h := twoPi_pos (K := K)
  unfold InTurn pmod
  have h1 := Int.floor_le (x / twoPi)
  have h2 := Int.lt_floor_add_one (x / twoPi)
  rw [le_div_iff₀ h] at h1
  rw [div_lt_iff₀ h] at h2
  change 0 ≤ x - twoPi * _ ∧ x - twoPi * _ < twoPi
  constructor <;> nlinarith

theorem pmod_angleEq (x : K) : AngleEq (pmod x) x := by
  refine ⟨-⌊x / twoPi⌋, ?_⟩
  unfold pmod twoPi
  push_cast
  ring

theorem Spec.AngleEq.refl (x : K) : AngleEq x x := ⟨0, by simp⟩

theorem Spec.AngleEq.symm {x y : K} (h : AngleEq x y) : AngleEq y x := by
  obtain ⟨n, rfl⟩ := h
  exact ⟨-n, by push_cast; ring⟩

theorem Spec.AngleEq.trans {x y z : K} (h : AngleEq x y) (h' : AngleEq y z) : AngleEq x z := by
  obtain ⟨n, rfl⟩ := h
  obtain ⟨m, rfl⟩ := h'
  exact ⟨m + n, by push_cast; ring⟩

theorem Spec.AngleEq.add_right {x y : K} (h : AngleEq x y) (a : K) : AngleEq (x + a) (y + a) := by
  obtain ⟨n, rfl⟩ := h
  exact ⟨n, by ring⟩

theorem Spec.InTurn.eq_of_angleEq {x y : K} (hx : InTurn x) (hy : InTurn y) (h : AngleEq x y) : x = y := by
  obtain ⟨n, rfl⟩ := h
  have hp := HasPi.pi_pos (K := K)
  have h0 : n = 0 := by
    have h1 : (n : K) < 1 := by
      by_contra hc
      push Not at hc
      have := mul_le_mul_of_nonneg_right hc (by linarith : (0 : K) ≤ 2 * HasPi.pi)
      have := hx.2; have := hy.1
      linarith
    have h2 : (-1 : K) < n := by
      by_contra hc
      push Not at hc
      have := mul_le_mul_of_nonneg_right hc (by linarith : (0 : K) ≤ 2 * HasPi.pi)
      have := hx.1; have := hy.2
      linarith
    have h1' : n < 1 := by exact_mod_cast h1
    have h2' : -1 < n := by exact_mod_cast h2
    omega
  simp [h0]

theorem pmod_of_inTurn {x : K} (h : InTurn x) : pmod x = x :=
  (pmod_inTurn x).eq_of_angleEq h (pmod_angleEq x)

theorem pmod_eq_of_angleEq {x y : K} (h : AngleEq x y) : pmod x = pmod y :=
  (pmod_inTurn x).eq_of_angleEq (pmod_inTurn y)
    ((pmod_angleEq x).trans (h.trans (pmod_angleEq y).symm))

theorem pmod_eq_iff {x y : K} : pmod x = pmod y ↔ AngleEq x y :=
  ⟨fun h => (pmod_angleEq x).symm.trans (h ▸ pmod_angleEq y), pmod_eq_of_angleEq⟩

theorem pmod_add (x a : K) : pmod (pmod x + a) = pmod (x + a) :=
  pmod_eq_of_angleEq ((pmod_angleEq x).add_right a)

theorem castTo_inTurn (b : Bool) {x : K} (h : InTurn x) : InTurn (castTo b x) := by
  unfold castTo
  split
  · rw [if_pos h.1]
    exact ⟨by exact_mod_cast Int.floor_nonneg.2 h.1, lt_of_le_of_lt (Int.floor_le x) h.2⟩
  · exact h

@[simp] theorem castTo_false (x : K) : castTo false x = x := rfl

/-! ### Sorting -/

theorem sortPts_perm (l : List (K × K)) : (sortPts l).Perm l := List.mergeSort_perm l _

theorem sortPts_sorted (l : List (K × K)) : (sortPts l).Pairwise (fun p q => p.1 ≤ q.1) := by
  have := List.pairwise_mergeSort (le := fun a b : K × K => decide (a.1 ≤ b.1))
    (by intro a b c h1 h2; simp at *; exact le_trans h1 h2)
    (by intro a b; simp; exact le_total _ _) l
  simpa [sortPts] using this

theorem sortPts_of_sorted {l : List (K × K)} (h : l.Pairwise (fun p q => p.1 ≤ q.1)) : sortPts l = l := by
  unfold sortPts
  exact List.mergeSort_of_pairwise (by simpa using h)

@[simp] theorem sortPts_length (l : List (K × K)) : (sortPts l).length = l.length :=
  (sortPts_perm l).length_eq

theorem sortPts_eq_nil {l : List (K × K)} : sortPts l = [] ↔ l = [] := by
  rw [← List.length_eq_zero_iff, sortPts_length, List.length_eq_zero_iff]

theorem mem_sortPts {l : List (K × K)} {p : K × K} : p ∈ sortPts l ↔ p ∈ l := (sortPts_perm l).mem_iff

/-- Two permutations of each other sorted by angle agree when the angles are pairwise distinct. -/
theorem eq_of_perm_sorted {l l' : List (K × K)} (hp : l.Perm l')
    (h : l.Pairwise (fun p q => p.1 ≤ q.1)) (h' : l'.Pairwise (fun p q => p.1 ≤ q.1))
    (hd : (l.map Prod.fst).Nodup) : l = l' := by
  have hd' : (l'.map Prod.fst).Nodup := (hp.map _).nodup_iff.1 hd
  have s : l.Pairwise (fun p q : K × K => p.1 < q.1) := by
    rw [List.Nodup, List.pairwise_map] at hd
    exact (h.and hd).imp (fun hh => lt_of_le_of_ne hh.1 hh.2)
  have s' : l'.Pairwise (fun p q : K × K => p.1 < q.1) := by
    rw [List.Nodup, List.pairwise_map] at hd'
    exact (h'.and hd').imp (fun hh => lt_of_le_of_ne hh.1 hh.2)
  exact hp.eq_of_pairwise (fun a b _ _ h1 h2 => absurd h1 (not_lt.2 h2.le)) s s'

end Shgpy
