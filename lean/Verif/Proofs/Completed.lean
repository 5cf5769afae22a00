import Verif.Props.Cubic
import Verif.Props.Default
import Verif.Props.GenExample

/-!
# Points of the combinations that `normal_to_oblique` fills in (for C145)
-/

set_option linter.unusedSectionVars false

namespace Shgpy
open Spec

/-- Points in normal form that are the moved points of a list are what `phase_shift_data` makes of the list. -/
theorem eq_shiftPts {a : ℝ} {l pts : List (ℝ × ℝ)} (hl : NormalForm l) (hd : (l.map Prod.fst).Nodup) (hp : NormalForm pts)
    (hm : Matched (Moved a 1) l pts) : pts = shiftPts a l := by
  obtain ⟨m, h1, h2⟩ := hm
  have hm' : m = l.map (fun p => (pmod (p.1 + a), p.2)) := by
    have hin : ∀ q ∈ m, InTurn q.1 := fun q hq => hp.2.1 q (h2.mem_iff.2 hq)
    clear h2 hp hl hd
    induction h1 with
    | nil => rfl
    | @cons p q l m h _ ih =>
      rw [List.map_cons, ← ih (fun q hq => hin q (List.mem_cons_of_mem _ hq))]
      obtain ⟨h3, h4⟩ := h
      have h5 : q.1 = pmod (p.1 + a) :=
        (hin q List.mem_cons_self).eq_of_angleEq (pmod_inTurn _) (h3.trans (pmod_angleEq _).symm)
      congr 1
      exact Prod.ext h5 (by rw [h4, one_mul])
  have hperm : pts.Perm (shiftPts a l) := by
    unfold shiftPts
    rw [← hm']
    exact h2.trans (sortPts_perm _).symm
  exact (eq_of_perm_sorted hperm.symm (sortPts_sorted _) hp.2.2 (shiftPts_nodup hl hd)).symm

/-- A combination that is given at all is given by a last item. -/
theorem exists_lastFor {d : Dict RawKey (RawVal ℝ)} {X : Key} (h : X ∈ pcs d) : ∃ k v, LastFor d k v ∧ pcOf k = X := by
  induction d with
  | nil => simp [pcs] at h
  | cons it d ih =>
    by_cases hX : X ∈ pcs d
    · obtain ⟨k, v, ⟨pre, post, h1, h2⟩, h3⟩ := ih hX
      exact ⟨k, v, ⟨it :: pre, post, by rw [h1]; rfl, h2⟩, h3⟩
    · obtain ⟨rk, v⟩ := it
      cases rk with
      | other o => exact absurd (by simpa [pcs] using h) hX
      | str s =>
        have : X = pcOf s ∨ X ∈ pcs d := by simpa [pcs] using h
        rcases this with rfl | h'
        · exact ⟨s, v, ⟨[], d, rfl, hX⟩, rfl⟩
        · exact absurd h' hX

section
variable {iter : List (RawKey × RawVal ℝ)} {units : Key} {c : DataContainer ℝ} {w : List Key} {N : ℕ}

/-- The points of one combination of a new container. -/
theorem init_points (h : DataContainer.init iter units true = .ok (c, w)) {X : Key} {pts : List (ℝ × ℝ)}
    (hX : c.getPc X sRadians = .ok pts) : NormalForm pts := by
  obtain ⟨items, h1, _, _, h4⟩ := C01_construction_normal_form h
  rw [getItems_radians] at h1
  rw [getPc_radians, Dict.get_ok_iff] at hX
  refine h4 X pts ?_
  rw [← Except.ok.inj h1]
  exact Dict.mem_of_get? hX

theorem sampled_distinct (hN : 1 ≤ N) (y : ℝ → ℝ) : DistinctAngles (sampled N y) := by
  have hnf := sampled_normalForm hN y
  have hnd := sampled_nodup hN y
  rw [List.Nodup, List.pairwise_map] at hnd
  unfold DistinctAngles
  have h2 : (sampled N y).Pairwise (fun p q => p ∈ sampled N y ∧ q ∈ sampled N y) := by
    rw [List.pairwise_iff_forall_sublist]
    intro a b hab
    exact ⟨hab.subset (by simp), hab.subset (by simp)⟩
  exact hnd.imp₂ (fun p q hpq ⟨h3, h4⟩ he => hpq ((hnf.2.1 p h3).eq_of_angleEq (hnf.2.1 q h4) he)) h2

theorem distinct_of_grid (hN : 1 ≤ N) (hin : ∀ k v dt xs ys, (k, v) ∈ Dict.ofPairs iter → IsXY v dt xs ys → (dt = .float ∨ units = sDegrees) ∧
      ∃ y, (xs.zip ys).map (fun p => (rad units p.1, p.2)) = sampled N y) :
    ∀ k v dt xs ys, (k, v) ∈ Dict.ofPairs iter → IsXY v dt xs ys →
      (dt = .float ∨ units = sDegrees) ∧ DistinctAngles ((xs.zip ys).map (fun p => (rad units p.1, p.2))) := by
  intro k v dt xs ys hkv hv
  obtain ⟨h1, y, h2⟩ := hin k v dt xs ys hkv hv
  exact ⟨h1, by rw [h2]; exact sampled_distinct hN y⟩

/-- A given combination has the points that were given. -/
theorem given_points (h : DataContainer.init iter units true = .ok (c, w)) (hN : 1 ≤ N)
    (hin : ∀ k v dt xs ys, (k, v) ∈ Dict.ofPairs iter → IsXY v dt xs ys → (dt = .float ∨ units = sDegrees) ∧
      ∃ y, (xs.zip ys).map (fun p => (rad units p.1, p.2)) = sampled N y)
    {k : Key} {v : RawVal ℝ} {dt : DType} {xs ys : List ℝ} {y : ℝ → ℝ} (hl : LastFor (Dict.ofPairs iter) k v) (hv : IsXY v dt xs ys)
    (hy : (xs.zip ys).map (fun p => (rad units p.1, p.2)) = sampled N y) : c.getPc (pcOf k) sRadians = .ok (sampled N y) := by
  obtain ⟨_, h2, _⟩ := C13_normal_to_oblique h (distinct_of_grid hN hin)
  obtain ⟨pts, h3, m, h4, h5⟩ := h2 k v dt xs ys hl hv
  rw [h3]
  congr 1
  have hnf := sampled_normalForm hN y
  rw [eq_shiftPts (a := 0) hnf (sampled_nodup hN y) (init_points h h3) ⟨m, ?_, h5⟩, shiftPts_zero hnf]
  rw [← hy, List.forall₂_map_left_iff]
  exact h4.imp (fun p q hpq => ⟨by rw [add_zero]; exact hpq.1, by rw [one_mul]; exact hpq.2⟩)

/-- A combination that is not given has the points of its partner, turned by a quarter turn. -/
theorem completed_points (h : DataContainer.init iter units true = .ok (c, w)) (hN : 1 ≤ N)
    (hin : ∀ k v dt xs ys, (k, v) ∈ Dict.ofPairs iter → IsXY v dt xs ys → (dt = .float ∨ units = sDegrees) ∧
      ∃ y, (xs.zip ys).map (fun p => (rad units p.1, p.2)) = sampled N y)
    {X : Key} (hX : X ∈ [kPP, kPS, kSP, kSS]) (hn : X ∉ pcs (Dict.ofPairs iter)) :
    ∃ k v dt xs ys y, LastFor (Dict.ofPairs iter) k v ∧ IsXY v dt xs ys ∧ pcOf k = partner X ∧
      (xs.zip ys).map (fun p => (rad units p.1, p.2)) = sampled N y ∧ c.getPc (partner X) sRadians = .ok (sampled N y) ∧
      c.getPc X sRadians = .ok (shiftPts (Real.pi / 2) (sampled N y)) := by
  obtain ⟨_, _, h3⟩ := C13_normal_to_oblique h (distinct_of_grid hN hin)
  obtain ⟨hp, pts, pts', h4, h5, h6⟩ := h3 X hX hn
  obtain ⟨k, v, hl, hk⟩ := exists_lastFor hp
  have hmem : (RawKey.str k, v) ∈ Dict.ofPairs iter := by
    obtain ⟨pre, post, he, _⟩ := hl
    rw [he]; simp
  obtain ⟨_, dt, xs, ys, hv⟩ := ((C04_acceptance iter units true).1.1 ⟨c, w, h⟩).2.1 _ _ hmem
  obtain ⟨_, y, hy⟩ := hin _ v dt xs ys hmem hv
  have h7 := given_points h hN hin hl hv hy
  rw [hk] at h7
  rw [h5] at h7
  cases h7
  refine ⟨k, v, dt, xs, ys, y, hl, hv, hk, hy, h5, ?_⟩
  rw [h4]
  congr 1
  exact eq_shiftPts (sampled_normalForm hN y) (sampled_nodup hN y) (init_points h h4) h6

end

/-- Turning by a quarter turn multiplies component `m` by `(-i)^m`. -/
theorem harmonic_quarter (m : ℤ) : harmonic m (-(Real.pi / 2)) = (-Complex.I) ^ m := by
  have h1 : (-Complex.I) = Complex.exp (-(Real.pi / 2 * Complex.I)) := by
    rw [Complex.exp_neg, Complex.exp_pi_div_two_mul_I, Complex.inv_I]
  unfold harmonic
  rw [h1, ← Complex.exp_int_mul]
  congr 1
  push_cast
  ring

end Shgpy
