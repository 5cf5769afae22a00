import Verif.Props.CompletedMin

/-!
# Two combinations measured at normal incidence, with a dark measurement: C145
-/

namespace Shgpy
open Spec

variable {iter iter₁ iter₂ : List (RawKey × RawVal ℝ)} {units units₁ units₂ : Key} {c c₁ c₂ : DataContainer ℝ} {w w₁ w₂ : List Key} {N : ℕ}

/-- Sorting by angle does not look at the values. -/
theorem shiftPts_order (b : ℝ) (N : ℕ) : ∃ l : List ℕ, (∀ j ∈ l, j < N) ∧ ∀ y : ℝ → ℝ,
    shiftPts b (sampled N y) = l.map (fun j => (pmod (gridAngle N j + b), y (gridAngle N j))) := by
  refine ⟨(List.range N).mergeSort (fun i j => decide (pmod (gridAngle N i + b) ≤ pmod (gridAngle N j + b))), fun j hj => ?_, fun y => ?_⟩
  · exact List.mem_range.1 ((List.mergeSort_perm _ _).mem_iff.1 hj)
  · unfold shiftPts sortPts sampled
    rw [List.map_map]
    exact (List.map_mergeSort (s := fun a b : ℝ × ℝ => decide (a.1 ≤ b.1))
      (f := fun j => (pmod (gridAngle N j + b), y (gridAngle N j))) (fun _ _ _ _ => rfl)).symm

/-- The difference of two turned measurements is the turned difference. -/
theorem shiftPts_sub (b : ℝ) (N : ℕ) (y₁ y₂ : ℝ → ℝ) :
    List.zipWith (fun p q => (p.1, p.2 - q.2)) (shiftPts b (sampled N y₁)) (shiftPts b (sampled N y₂)) =
      shiftPts b (sampled N (fun x => y₁ x - y₂ x)) := by
  obtain ⟨l, _, hl⟩ := shiftPts_order b N
  rw [hl, hl, hl, List.zipWith_map, List.zipWith_self]

/-- The angle by which the points of a combination are turned: nothing for a given one, a quarter turn for one that is filled in. -/
noncomputable def turnOf (given : List Key) (X : Key) : ℝ := if X ∈ given then 0 else Real.pi / 2

/-- The combination from which the values of `X` come. -/
def sourceOf (given : List Key) (X : Key) : Key := if X ∈ given then X else partner X

/-- The points of a combination. -/
theorem turned_points (h : DataContainer.init iter units true = .ok (c, w)) (hN : 1 ≤ N)
    (hin : ∀ k v dt xs ys, (k, v) ∈ Dict.ofPairs iter → IsXY v dt xs ys → (dt = .float ∨ units = sDegrees) ∧
      ∃ y, (xs.zip ys).map (fun p => (rad units p.1, p.2)) = sampled N y) {X : Key} (hX : X ∈ [kPP, kPS, kSP, kSS]) :
    ∃ k v dt xs ys y, LastFor (Dict.ofPairs iter) k v ∧ IsXY v dt xs ys ∧ pcOf k = sourceOf (pcs (Dict.ofPairs iter)) X ∧
      (xs.zip ys).map (fun p => (rad units p.1, p.2)) = sampled N y ∧
      c.getPc X sRadians = .ok (shiftPts (turnOf (pcs (Dict.ofPairs iter)) X) (sampled N y)) := by
  by_cases hp : X ∈ pcs (Dict.ofPairs iter)
  · obtain ⟨k, v, hl, hk⟩ := exists_lastFor hp
    have hmem : (RawKey.str k, v) ∈ Dict.ofPairs iter := by
      obtain ⟨pre, post, he, _⟩ := hl
      rw [he]; simp
    obtain ⟨_, dt, xs, ys, hv⟩ := ((C04_acceptance iter units true).1.1 ⟨c, w, h⟩).2.1 _ _ hmem
    obtain ⟨_, y, hy⟩ := hin _ v dt xs ys hmem hv
    have h8 := given_points h hN hin hl hv hy
    refine ⟨k, v, dt, xs, ys, y, hl, hv, by rw [sourceOf, if_pos hp, hk], hy, ?_⟩
    rw [turnOf, if_pos hp, shiftPts_zero (sampled_normalForm hN y), ← hk, h8]
  · obtain ⟨k, v, dt, xs, ys, y, hl, hv, hk, hy, _, h9⟩ := completed_points h hN hin hX hp
    exact ⟨k, v, dt, xs, ys, y, hl, hv, by rw [sourceOf, if_neg hp, hk], hy, by rw [turnOf, if_neg hp, h9]⟩

/-- Turned values near the intensities of the partner are near the intensities. -/
theorem turned_measured {M : ℕ} (hM : 8 ≤ M) (Y : Crystal) {δ : ℝ} {y : ℝ → ℝ} {given : List Key} {p q : Pol}
    (hy : ∀ p' q', combo p' q' = sourceOf given (combo p q) → ∀ j < N, |y (gridAngle N j) - intensity Y 0 (gridAngle N j) p' q'| ≤ δ) :
    MeasuredOn M (integralCoeff (fun x => (intensity Y 0 x p q : ℂ))) δ (shiftPts (turnOf given (combo p q)) (sampled N y)) := by
  have hpat : ∀ p q x, pattern M (integralCoeff (fun x => (intensity Y 0 x p q : ℂ))) x = (intensity Y 0 x p q : ℂ) :=
    fun p q x => pattern_coeff hM (intensity_degree Y 0 p q) x
  have hper : ∀ p q x (n : ℤ), intensity Y 0 (x + n * (2 * Real.pi)) p q = intensity Y 0 x p q := by
    intro p q x n
    have := pattern_periodic M (integralCoeff (fun x => (intensity Y 0 x p q : ℂ))) x n
    rw [hpat, hpat] at this
    exact_mod_cast this
  intro s hs
  rw [hpat, ← Complex.ofReal_sub, Complex.norm_real, Real.norm_eq_abs]
  unfold shiftPts at hs
  obtain ⟨t, ht, rfl⟩ := List.mem_map.1 (mem_sortPts.1 hs)
  obtain ⟨j, hj, rfl⟩ := List.mem_map.1 ht
  rw [List.mem_range] at hj
  obtain ⟨n, hn⟩ : AngleEq (pmod (gridAngle N j + turnOf given (combo p q))) (gridAngle N j + turnOf given (combo p q)) := pmod_angleEq _
  have hn' : pmod (gridAngle N j + turnOf given (combo p q)) = gridAngle N j + turnOf given (combo p q) + n * (2 * Real.pi) := hn
  dsimp only
  rw [hn', hper]
  by_cases hp : combo p q ∈ given
  · rw [turnOf, if_pos hp, add_zero]
    exact hy p q (by rw [sourceOf, if_pos hp]) j hj
  · rw [turnOf, if_neg hp]
    have h11 := intensity_partner Y (gridAngle N j) (if p = .P then .S else .P) (if q = .P then .S else .P)
    have e1 : ∀ p : Pol, (if (if p = .P then Pol.S else .P) = .P then Pol.S else .P) = p := by intro p; cases p <;> rfl
    rw [e1, e1] at h11
    rw [← h11]
    exact hy _ _ (by rw [sourceOf, if_neg hp, partner_combo]) j hj

/-- **C145 with a dark measurement.**  Measure the same combinations with and without the crystal, at `N` equally spaced angles, and load both with
`normal_to_oblique`.  If the differences of the values are the intensities of a crystal at normal incidence up to `δ`, then the difference of the
two containers has Fourier components, in all four combinations, which are those of the intensities with the error of `C145_crystal`. -/
theorem C145_dark (h₁ : DataContainer.init iter₁ units₁ true = .ok (c₁, w₁)) (h₂ : DataContainer.init iter₂ units₂ true = .ok (c₂, w₂))
    {M : ℕ} (hM : 8 ≤ M) (hN : 2 * M < N) (Y : Crystal) {δ : ℝ}
    (hin₁ : ∀ k v dt xs ys, (k, v) ∈ Dict.ofPairs iter₁ → IsXY v dt xs ys → (dt = .float ∨ units₁ = sDegrees) ∧
      ∃ y, (xs.zip ys).map (fun p => (rad units₁ p.1, p.2)) = sampled N y)
    (hin₂ : ∀ k v dt xs ys, (k, v) ∈ Dict.ofPairs iter₂ → IsXY v dt xs ys → (dt = .float ∨ units₂ = sDegrees) ∧
      ∃ y, (xs.zip ys).map (fun p => (rad units₂ p.1, p.2)) = sampled N y)
    (hsame : ∀ X, X ∈ pcs (Dict.ofPairs iter₁) ↔ X ∈ pcs (Dict.ofPairs iter₂))
    (hm : ∀ k₁ v₁ dt₁ xs₁ ys₁ y₁ k₂ v₂ dt₂ xs₂ ys₂ y₂ p q,
      LastFor (Dict.ofPairs iter₁) k₁ v₁ → IsXY v₁ dt₁ xs₁ ys₁ → (xs₁.zip ys₁).map (fun p => (rad units₁ p.1, p.2)) = sampled N y₁ →
      LastFor (Dict.ofPairs iter₂) k₂ v₂ → IsXY v₂ dt₂ xs₂ ys₂ → (xs₂.zip ys₂).map (fun p => (rad units₂ p.1, p.2)) = sampled N y₂ →
      pcOf k₁ = combo p q → pcOf k₂ = combo p q →
      ∀ j < N, |y₁ (gridAngle N j) - y₂ (gridAngle N j) - intensity Y 0 (gridAngle N j) p q| ≤ δ) :
    ∃ diff fdat, datSubtract c₁ c₂ = .ok (diff, []) ∧ datToFdat cubicInterp diff M = .ok fdat ∧ fdat.getM = M ∧
      fdat.getKeys.Perm [kPP, kPS, kSP, kSS] ∧
      ∀ p q, ∃ z : ℤ → ℂ, (∀ m : ℤ, -(M : ℤ) ≤ m → m ≤ M → DRepresents fdat (combo p q) m (z m)) ∧
        √(∑ m ∈ Finset.Icc (-(M : ℤ)) M, ‖z m - integralCoeff (fun x => (intensity Y 0 x p q : ℂ)) m‖ ^ 2) ≤
          14 * fourth M (integralCoeff (fun x => (intensity Y 0 x p q : ℂ))) * (2 * Real.pi / N) ^ 4 + 75 * δ := by
  have hN1 : 1 ≤ N := by omega
  have r₁ : c₁.Reachable := ⟨iter₁, units₁, true, c₁, w₁, [], h₁, rfl⟩
  have r₂ : c₂.Reachable := ⟨iter₂, units₂, true, c₂, w₂, [], h₂, rfl⟩
  obtain ⟨hk₁, _, _⟩ := C13_normal_to_oblique h₁ (distinct_of_grid hN1 hin₁)
  obtain ⟨hk₂, _, _⟩ := C13_normal_to_oblique h₂ (distinct_of_grid hN1 hin₂)
  have hturn : ∀ X, turnOf (pcs (Dict.ofPairs iter₂)) X = turnOf (pcs (Dict.ofPairs iter₁)) X := by
    intro X; simp only [turnOf, hsame X]
  have hsrc : ∀ X, sourceOf (pcs (Dict.ofPairs iter₂)) X = sourceOf (pcs (Dict.ofPairs iter₁)) X := by
    intro X; simp only [sourceOf, hsame X]
  have hfour : ∀ {c : DataContainer ℝ}, c.getKeys.Perm [kPP, kPS, kSP, kSS] → ∀ {X pts}, c.getPc X sRadians = .ok pts →
      X ∈ [kPP, kPS, kSP, kSS] := by
    intro c hk X pts hX
    rw [← hk.mem_iff]
    rw [getPc_radians, Dict.get_ok_iff] at hX
    exact List.mem_map_of_mem (f := Prod.fst) (Dict.mem_of_get? hX)
  have hpair : ∀ p q, ∃ y₁ y₂,
      c₁.getPc (combo p q) sRadians = .ok (shiftPts (turnOf (pcs (Dict.ofPairs iter₁)) (combo p q)) (sampled N y₁)) ∧
      c₂.getPc (combo p q) sRadians = .ok (shiftPts (turnOf (pcs (Dict.ofPairs iter₁)) (combo p q)) (sampled N y₂)) ∧
      ∀ p' q', combo p' q' = sourceOf (pcs (Dict.ofPairs iter₁)) (combo p q) →
        ∀ j < N, |(y₁ (gridAngle N j) - y₂ (gridAngle N j)) - intensity Y 0 (gridAngle N j) p' q'| ≤ δ := by
    intro p q
    obtain ⟨k₁, v₁, dt₁, xs₁, ys₁, y₁, a1, a2, a3, a4, a5⟩ := turned_points h₁ hN1 hin₁ (combo_four p q)
    obtain ⟨k₂, v₂, dt₂, xs₂, ys₂, y₂, b1, b2, b3, b4, b5⟩ := turned_points h₂ hN1 hin₂ (combo_four p q)
    rw [hturn] at b5
    rw [hsrc] at b3
    exact ⟨y₁, y₂, a5, b5, fun p' q' he => hm _ _ _ _ _ _ _ _ _ _ _ _ p' q' a1 a2 a4 b1 b2 b4 (a3.trans he.symm) (b3.trans he.symm)⟩
  have hlen : ∀ b y, (shiftPts b (sampled N y)).length = N := fun b y => by simp [shiftPts, sampled]
  have hexp : ∀ b y₁ y₂, expand (shiftPts b (sampled N y₁)) (shiftPts b (sampled N y₂)) = shiftPts b (sampled N y₂) := by
    intro b y₁ y₂
    have := hlen b y₂
    generalize shiftPts b (sampled N y₂) = l at this
    match l with
    | [] => rfl
    | [_] => simp at this; omega
    | _ :: _ :: _ => rfl
  have hd : DistinctKeys c₁ := by
    intro X pts hX
    obtain ⟨p, q, rfl⟩ := four_combo (hfour hk₁ hX)
    obtain ⟨y₁, y₂, a1, _⟩ := hpair p q
    rw [a1] at hX
    cases hX
    exact shiftPts_nodup (sampled_normalForm hN1 y₁) (sampled_nodup hN1 y₁)
  have hval : ∀ {c : DataContainer ℝ}, c.Reachable → c.getKeys.Perm [kPP, kPS, kSP, kSS] →
      (∀ p q, ∃ b y, c.getPc (combo p q) sRadians = .ok (shiftPts b (sampled N y))) → ∀ {v r}, c.getValues sRadians = .ok (v :: r) → v.length = N := by
    intro c hr hk hall v r hv
    have hv' : c.data.values = v :: r := Except.ok.inj hv
    cases hdt : c.data with
    | nil => rw [hdt] at hv'; cases hv'
    | cons kv d =>
      rw [hdt] at hv'
      have e : kv.2 = v := (List.cons.inj hv').1
      have hX : c.getPc kv.1 sRadians = .ok v := by
        rw [getPc_radians]
        exact get_of_mem (reachable_normalForm hr).1 (by rw [hdt, ← e]; simp)
      obtain ⟨p, q, hpq⟩ := four_combo (hfour hk hX)
      obtain ⟨b, y, hy⟩ := hall p q
      rw [hpq, hy] at hX
      cases hX
      exact hlen b y
  have hc : Combinable c₁ c₂ := by
    refine ⟨fun k => by rw [hk₁.mem_iff, hk₂.mem_iff], ?_, ?_, ?_⟩
    · intro he
      rw [he] at hk₁
      exact absurd hk₁.length_eq (by simp)
    · intro v₁ v₂ s₁ s₂ e1 e2
      rw [hval r₁ hk₁ (fun p q => by obtain ⟨y₁, y₂, a1, _⟩ := hpair p q; exact ⟨_, y₁, a1⟩) e1,
        hval r₂ hk₂ (fun p q => by obtain ⟨y₁, y₂, _, a2, _⟩ := hpair p q; exact ⟨_, y₂, a2⟩) e2]
    · intro X p₁ p₂ e1 e2
      obtain ⟨p, q, rfl⟩ := four_combo (hfour hk₁ e1)
      obtain ⟨y₁, y₂, a1, a2, _⟩ := hpair p q
      rw [a1] at e1
      rw [a2] at e2
      cases e1
      cases e2
      unfold Compatible
      rw [hexp]
      obtain ⟨l, _, hl⟩ := shiftPts_order (turnOf (pcs (Dict.ofPairs iter₁)) (combo p q)) N
      rw [hl, hl, List.forall₂_map_left_iff, List.forall₂_map_right_iff]
      refine List.forall₂_same.2 (fun j _ => ?_)
      unfold Close
      rw [sub_self, abs_zero]
      positivity
  obtain ⟨diff, e1, e2, e3, e4⟩ := combine_ok (fun a b => a - b) r₁ r₂ hd hc
  have hdiff : ∀ p q, ∃ y, diff.getPc (combo p q) sRadians = .ok (shiftPts (turnOf (pcs (Dict.ofPairs iter₁)) (combo p q)) (sampled N y)) ∧
      ∀ p' q', combo p' q' = sourceOf (pcs (Dict.ofPairs iter₁)) (combo p q) →
        ∀ j < N, |y (gridAngle N j) - intensity Y 0 (gridAngle N j) p' q'| ≤ δ := by
    intro p q
    obtain ⟨y₁, y₂, a1, a2, a3⟩ := hpair p q
    refine ⟨fun x => y₁ x - y₂ x, ?_, a3⟩
    rw [e4 _ _ _ a1 a2, hexp, shiftPts_sub]
  let a : Key → ℤ → ℂ := fun X =>
    if X = kPP then integralCoeff (fun x => (intensity Y 0 x .P .P : ℂ)) else
    if X = kPS then integralCoeff (fun x => (intensity Y 0 x .P .S : ℂ)) else
    if X = kSP then integralCoeff (fun x => (intensity Y 0 x .S .P : ℂ)) else integralCoeff (fun x => (intensity Y 0 x .S .S : ℂ))
  have ha : ∀ p q, a (combo p q) = integralCoeff (fun x => (intensity Y 0 x p q : ℂ)) := by
    intro p q
    cases p <;> cases q <;> rfl
  have hkd : diff.getKeys.Perm [kPP, kPS, kSP, kSS] := by rw [e3]; exact hk₁
  have key := C137_fourier e2 (M := M) (c := a) (h := fun _ => 2 * Real.pi / N) (ρ := fun _ => 1) (δ := fun _ => δ) (fun X pts hX => ?_)
  · obtain ⟨fdat, g1, g2, g3, g4⟩ := key
    refine ⟨diff, fdat, e1, g1, g3, by rw [g2]; exact hkd, fun p q => ?_⟩
    obtain ⟨z, g5, g6⟩ := g4 (combo p q) (hkd.mem_iff.2 (combo_four p q))
    rw [ha] at g6
    exact ⟨z, g5, by simpa only [mul_one, one_pow] using g6⟩
  · obtain ⟨p, q, rfl⟩ := four_combo (hfour hkd hX)
    obtain ⟨y, g1, g2⟩ := hdiff p q
    rw [g1] at hX
    cases hX
    rw [ha]
    refine ⟨by rw [hlen]; exact hN, by rw [hlen]; omega, fun x => ?_, turned_covers (by omega) y _, turned_spread (by omega) y _,
      turned_measured hM Y g2⟩
    rw [pattern_coeff hM (intensity_degree Y 0 p q), Complex.ofReal_im]

/-- **C145 from files with dark files.**  Let the files and the dark files hold the same accepted set of combinations at `N` equally spaced angles,
and let the differences of their values be the intensities of a crystal at normal incidence up to `δ`.  Then `load_data_and_fourier_transform`
with `normal_to_oblique` returns components of all four combinations, which are those of the crystal with the error of `C145_files`. -/
theorem C145_files_dark {float : Key → Option ℝ} {fs : CsvFiles} {names dark : Dict Key Key} {y yd : Key → ℝ → ℝ}
    (hu₁ : units₁ = sRadians ∨ units₁ = sDegrees) (hu₂ : units₂ = sRadians ∨ units₂ = sDegrees) (hwf : Dict.WF names) (hwd : Dict.WF dark)
    (hkeys : ∀ k, k ∈ names.keys ↔ k ∈ dark.keys) (ho : ObliqueKeys (names.keys.map pcOf))
    (hS : FilesSample float fs names units₁ N y) (hD : FilesSample float fs dark units₂ N yd) {M : ℕ} (hM : 8 ≤ M) (hN : 2 * M < N)
    (Y : Crystal) {δ : ℝ}
    (hm : ∀ k ∈ names.keys, ∀ k' ∈ dark.keys, ∀ p q, pcOf k = combo p q → pcOf k' = combo p q →
      ∀ j < N, |y k (gridAngle N j) - yd k' (gridAngle N j) - intensity Y 0 (gridAngle N j) p q| ≤ δ) :
    ∃ dat fdat, loadDataAndFourierTransform float fs cubicInterp names units₁ (some (dark, units₂)) M false 1 true = .ok (dat, fdat) ∧
      fdat.getM = M ∧ fdat.getKeys.Perm [kPP, kPS, kSP, kSS] ∧
      ∀ p q, ∃ z : ℤ → ℂ, (∀ m : ℤ, -(M : ℤ) ≤ m → m ≤ M → DRepresents fdat (combo p q) m (z m)) ∧
        √(∑ m ∈ Finset.Icc (-(M : ℤ)) M, ‖z m - integralCoeff (fun x => (intensity Y 0 x p q : ℂ)) m‖ ^ 2) ≤
          14 * fourth M (integralCoeff (fun x => (intensity Y 0 x p q : ℂ))) * (2 * Real.pi / N) ^ 4 + 75 * δ := by
  have hmap : ∀ X, X ∈ names.keys.map pcOf ↔ X ∈ dark.keys.map pcOf := by
    intro X
    simp only [List.mem_map, hkeys]
  have ho' : ObliqueKeys (dark.keys.map pcOf) := by
    unfold ObliqueKeys at ho ⊢
    simpa only [hmap] using ho
  obtain ⟨iter₁, c₁, w₁, h₁, hl₁, hin₁, hp₁, _, hpc₁⟩ := files_container hu₁ hwf ho hS (by omega)
  obtain ⟨iter₂, c₂, w₂, h₂, hl₂, hin₂, hp₂, _, hpc₂⟩ := files_container hu₂ hwd ho' hD (by omega)
  have hy : ∀ {units : Key} {xs ys : List ℝ} {u v : ℝ → ℝ}, (xs.zip ys).map (fun p => (rad units p.1, p.2)) = sampled N u →
      (∀ s ∈ xs.zip ys, ∃ j < N, rad units s.1 = gridAngle N j ∧ s.2 = v (gridAngle N j)) → ∀ j < N, u (gridAngle N j) = v (gridAngle N j) := by
    intro units xs ys u v hs hv j hj
    have hmem : (gridAngle N j, u (gridAngle N j)) ∈ sampled N u := List.mem_map.2 ⟨j, List.mem_range.2 hj, rfl⟩
    rw [← hs] at hmem
    obtain ⟨s, hs', he⟩ := List.mem_map.1 hmem
    obtain ⟨i, _, g1, g2⟩ := hv s hs'
    rw [← (Prod.mk.inj he).2, g2, ← g1, (Prod.mk.inj he).1]
  obtain ⟨diff, fdat, e1, e2, e3, e4, e5⟩ := C145_dark h₁ h₂ hM hN Y (δ := δ) hin₁ hin₂
    (fun X => by rw [hpc₁, hpc₂]; exact hmap X) (by
      intro k₁ v₁ dt₁ xs₁ ys₁ y₁ k₂ v₂ dt₂ xs₂ ys₂ y₂ p q a1 a2 a3 b1 b2 b3 hk₁ hk₂ j hj
      obtain ⟨g1, g2⟩ := hp₁ _ _ _ _ _ a1 a2
      obtain ⟨g3, g4⟩ := hp₂ _ _ _ _ _ b1 b2
      rw [hy a3 g2 j hj, hy b3 g4 j hj]
      exact hm k₁ g1 k₂ g3 p q hk₁ hk₂ j hj)
  refine ⟨diff, fdat, (C35_composition _ _ _ _ _ _ _ _ _ _ _).2 ⟨diff, ?_, by simp, e2⟩, e3, e4, e5⟩
  show loadDataAndDarkSubtract float fs names units₁ dark units₂ true = .ok diff
  unfold loadDataAndDarkSubtract
  have hset : setEq names.keys dark.keys = true := setEq_iff.2 hkeys
  rw [hset, if_neg (by decide), hl₁, ok_bind, hl₂, ok_bind, e1]
  rfl

open FitCases in
/-- The hypotheses are met: the files and the dark files hold the value `1 / 4` at 36 angles. -/
example : ∃ dat fdat, loadDataAndFourierTransform unaryFloat unaryCsv cubicInterp [(['p', 'p'], ['f']), (['s', 'p', '1'], ['g'])] sDegrees
      (some ([(['s', 'p', '1'], ['g']), (['p', 'p'], ['f'])], sDegrees)) 16 false 1 true = .ok (dat, fdat) ∧
    fdat.getKeys.Perm [kPP, kPS, kSP, kSS] := by
  obtain ⟨dat, fdat, h1, _, h2, _⟩ := C145_files_dark (float := unaryFloat) (fs := unaryCsv) (units₁ := sDegrees) (units₂ := sDegrees) (N := 36)
    (names := [(['p', 'p'], ['f']), (['s', 'p', '1'], ['g'])]) (dark := [(['s', 'p', '1'], ['g']), (['p', 'p'], ['f'])]) (.inr rfl) (.inr rfl)
    (by unfold Dict.WF; decide) (by unfold Dict.WF; decide) (fun k => by simp [Dict.keys, or_comm])
    (.inr ⟨kPP, kSP, .inl rfl, .inr rfl, fun x => by
      have : (Dict.keys [((['p', 'p'] : Key), (['f'] : Key)), (['s', 'p', '1'], ['g'])]).map pcOf = [kPP, kSP] := by decide
      rw [this]; simp⟩)
    (unary_samples_all _) (unary_samples_all _) (M := 16) (by omega) (by omega) SixFold.axial (δ := 1)
    (fun k _ k' _ p q _ _ j _ => by
      obtain ⟨h3, h4⟩ := SixFold.axial_le p q (gridAngle 36 j)
      rw [abs_le]
      constructor <;> linarith)
  exact ⟨dat, fdat, h1, h2⟩

end Shgpy
