import Verif.Spec.DataDuplicates
import Verif.Props.DataInit

/-!
# C03: which points survive
-/

set_option linter.unusedSectionVars false

namespace Shgpy
open Spec

variable {K : Type} [Field K] [LinearOrder K] [IsStrictOrderedRing K] [FloorRing K] [HasPi K]

/-- The points of `l` whose reduced angle is not the angle of an earlier point of `pre ++ l`. -/
def surv (pre : List (K × K)) : List (K × K) → List (K × K)
  | [] => []
  | p :: r => if pmod p.1 ∈ pre.map Prod.fst then surv (pre ++ [p]) r else p :: surv (pre ++ [p]) r

theorem dedupFrom_surv (kept pre l : List (K × K)) (h : ∀ x, InTurn x → (x ∈ kept.map Prod.fst ↔ x ∈ pre.map Prod.fst)) :
    dedupFrom kept l = kept ++ surv pre l := by
  induction l generalizing kept pre with
  | nil => simp [dedupFrom, surv]
  | cons p l ih =>
      simp only [dedupFrom, surv, h _ (pmod_inTurn p.1)]
      split
      · next hm =>
        refine ih kept (pre ++ [p]) fun x hx => ?_
        rw [h x hx]
        simp only [List.map_append, List.map_cons, List.map_nil, List.mem_append, List.mem_singleton, iff_self_or]
        rintro rfl
        rwa [pmod_of_inTurn hx] at hm
      · rw [ih (kept ++ [p]) (pre ++ [p]) fun x hx => ?_]
        · simp
        · rw [List.map_append, List.map_append, List.mem_append, List.mem_append, h x hx]

theorem eq_pmod_iff {x y : K} : x = pmod y ↔ InTurn x ∧ AngleEq x y := by
  constructor
  · rintro rfl
    exact ⟨pmod_inTurn y, pmod_angleEq y⟩
  · rintro ⟨h1, n, hn⟩
    rw [← pmod_of_inTurn h1]
    exact pmod_eq_of_angleEq ⟨n, hn⟩

/-- The same by positions. -/
theorem surv_eq (pre l : List (K × K)) (P : ℕ → Bool)
    (hP : ∀ j p, l[j]? = some p → (P j = true ↔ pmod p.1 ∉ ((pre ++ l).take (pre.length + j)).map Prod.fst)) :
    surv pre l = ((List.range l.length).filter P).filterMap (fun j => l[j]?) := by
  induction l generalizing pre P with
  | nil => rfl
  | cons p l ih =>
      have h0 := hP 0 p rfl
      have := ih (pre ++ [p]) (fun j => P (j + 1)) (by
        intro j q hq
        rw [hP (j + 1) q (by simpa using hq)]
        simp only [List.append_assoc, List.singleton_append, List.length_append, List.length_singleton]
        rw [show pre.length + (j + 1) = pre.length + 1 + j by omega])
      rw [surv, this, List.length_cons, List.range_succ_eq_map, List.filter_cons, List.filter_map]
      simp only [Nat.add_zero, List.take_left'] at h0
      have e : ∀ f : ℕ → Bool, List.filterMap (fun j => (p :: l)[j]?) (List.map Nat.succ (List.filter f (List.range l.length))) =
          List.filterMap (fun j => l[j]?) (List.filter f (List.range l.length)) := by
        intro f
        rw [List.filterMap_map]
        rfl
      by_cases hm : pmod p.1 ∈ pre.map Prod.fst
      · have : P 0 = false := by
          rw [← Bool.not_eq_true]
          intro h
          exact h0.1 h (by simpa using hm)
        rw [if_pos hm, this, if_neg (by simp), e]
        rfl
      · have : P 0 = true := h0.2 (by simpa using hm)
        rw [if_neg hm, this, if_pos rfl, List.filterMap_cons]
        simp only [List.getElem?_cons_zero, e]
        rfl

theorem repeats_iff {units : Key} {xs ys : List K} (hl : xs.length = ys.length) {j : ℕ} {p : K × K}
    (hp : ((xs.zip ys).map (fun p => (rad units p.1, p.2)))[j]? = some p) :
    Repeats units xs j ↔ pmod p.1 ∈ (((xs.zip ys).map (fun p => (rad units p.1, p.2))).take j).map Prod.fst := by
  rw [List.getElem?_map, Option.map_eq_some_iff] at hp
  obtain ⟨⟨x, y⟩, hxy, rfl⟩ := hp
  obtain ⟨hx, hy⟩ := List.getElem?_zip_eq_some.1 hxy
  constructor
  · rintro ⟨i, hij, u, v, hu, hv, h1, h2⟩
    cases hx.symm.trans hv
    have hi : i < ys.length := by rw [← hl]; exact (List.getElem?_eq_some_iff.1 hu).1
    rw [List.mem_map]
    refine ⟨(rad units u, ys[i]), ?_, eq_pmod_iff.2 ⟨h1, h2⟩⟩
    rw [List.mem_take_iff_getElem]
    have hi' : i < xs.length := hl ▸ hi
    have hj : j < xs.length := (List.getElem?_eq_some_iff.1 hx).1
    refine ⟨i, by simp; omega, ?_⟩
    have : xs[i] = u := by
      have := List.getElem?_eq_getElem hi'
      rw [hu] at this
      exact (Option.some.inj this).symm
    simp [this]
  · intro h
    obtain ⟨q, hq, he⟩ := List.mem_map.1 h
    obtain ⟨i, hi, rfl⟩ := List.mem_take_iff_getElem.1 hq
    simp only [List.length_map, List.length_zip, lt_inf_iff] at hi
    have hi' : i < xs.length := by omega
    refine ⟨i, by omega, xs[i], x, List.getElem?_eq_getElem hi', hx, ?_⟩
    refine eq_pmod_iff.1 ?_
    rw [← he]
    simp

theorem surv_survivors {units : Key} {xs ys : List K} (hl : xs.length = ys.length) :
    dedupFrom [] ((xs.zip ys).map (fun p => (rad units p.1, p.2))) = (survivors units xs ys).map (fun p => (rad units p.1, p.2)) := by
  classical
  rw [dedupFrom_surv [] [] _ (fun _ _ => Iff.rfl), List.nil_append,
    surv_eq [] _ (fun j => decide (¬ Repeats units xs j)) ?_]
  · rw [survivors, List.map_filterMap, List.length_map]
    congr 1
    · funext j
      rw [List.getElem?_map]
  · intro j p hp
    rw [decide_eq_true_iff, repeats_iff hl hp]
    simp

/-- C03, exact.  The points of a combination after the construction are, up to whole turns and order, exactly the points of the input
that do not repeat a direction; and there is a warning exactly when a point repeats a direction. -/
theorem C03_survivors {iter : List (RawKey × RawVal K)} {units : Key}
    {c : DataContainer K} {w : List Key} (h : DataContainer.init iter units false = .ok (c, w))
    {k : Key} {v : RawVal K} {dt : DType} {xs ys : List K}
    (hk : (RawKey.str k, v) ∈ Dict.ofPairs iter) (hv : IsXY v dt xs ys) (hdt : dt = .float ∨ units = sDegrees) :
    ∃ pts, c.getPc k sRadians = .ok pts ∧
      Matched (fun p q => AngleEq q.1 (rad units p.1) ∧ q.2 = p.2) (survivors units xs ys) pts ∧
      (k ∈ w ↔ ∃ j, Repeats units xs j) ∧
      ((pts.map Prod.fst).Nodup ↔ ∀ i j x y, i < j → xs[i]? = some x → xs[j]? = some y →
        AngleEq (rad units x) (rad units y) → Repeats units xs j) := by
  classical
  obtain ⟨_, h2⟩ := init_plain h
  obtain ⟨h3, h4⟩ := h2 k v dt xs ys hk hv
  have hl : xs.length = ys.length := by obtain ⟨_, _, hl, _⟩ := hv; exact hl
  have hint : (xyArr units dt xs ys).isInt = false := by
    simp only [xyArr, decide_eq_false_iff_not, not_and, not_not]
    intro hd
    rcases hdt with rfl | hu
    · cases hd
    · exact hu
  have hs : dedupFrom [] (xyArr units dt xs ys).pts = (survivors units xs ys).map (fun p => (rad units p.1, p.2)) :=
    surv_survivors hl
  have hsome : ∀ j ∈ List.range (xs.zip ys).length, ((xs.zip ys)[j]?).isSome := by
    intro j hj
    rw [List.mem_range] at hj
    simp [List.getElem?_eq_getElem hj]
  refine ⟨_, h3, ?_, ?_, ?_⟩
  · obtain ⟨m, hm, hp⟩ := finalPts_matched hint
    refine ⟨m, ?_, hp⟩
    rw [hs, List.forall₂_map_left_iff] at hm
    exact hm
  · rw [h4, hs, List.length_map]
    have hlen : (xyArr units dt xs ys).pts.length = (List.range (xs.zip ys).length).length := by simp [xyArr]
    have hlen' : (survivors units xs ys).length =
        ((List.range (xs.zip ys).length).filter (fun j => decide (¬ Repeats units xs j))).length := by
      unfold survivors
      rw [List.length_filterMap_eq_countP, List.countP_eq_length.2]
      intro j hj
      exact hsome j (List.mem_filter.1 hj).1
    rw [hlen, hlen']
    constructor
    · intro hlt
      by_contra hne
      push Not at hne
      rw [List.filter_eq_self.2 (fun j _ => by simpa using hne j)] at hlt
      exact lt_irrefl _ hlt
    · rintro ⟨j, hj⟩
      refine lt_of_le_of_ne (List.length_filter_le _ _) fun he => ?_
      have := List.filter_eq_self.1 ((List.filter_sublist).eq_of_length he) j (by
        obtain ⟨i, _, x, y, _, hy, _⟩ := hj
        have := (List.getElem?_eq_some_iff.1 hy).1
        simp only [List.mem_range, List.length_zip, lt_inf_iff]
        omega)
      simp [hj] at this
  · unfold finalPts
    rw [((sortPts_perm _).map Prod.fst).nodup_iff, List.map_map, hs, List.map_map]
    have e : ∀ l : List (K × K), (l.map ((Prod.fst ∘ fun p : K × K => (castTo (xyArr units dt xs ys).isInt (pmod p.1), p.2)) ∘
        fun p => (rad units p.1, p.2))) = l.map (fun p => pmod (rad units p.1)) := by
      intro l
      refine List.map_congr_left fun p _ => ?_
      simp [hint, castTo_false]
    rw [e]
    have e2 : (survivors units xs ys).map (fun p => pmod (rad units p.1)) =
        ((List.range (xs.zip ys).length).filter (fun j => decide (¬ Repeats units xs j))).map
          (fun j => pmod (rad units (xs.getD j 0))) := by
      unfold survivors
      rw [List.map_filterMap, ← List.filterMap_eq_map]
      convert List.filterMap_congr ?_ using 2
      intro j hj
      have hj := List.mem_range.1 (List.mem_filter.1 hj).1
      have hx : j < xs.length := by
        simp only [List.length_zip, lt_inf_iff] at hj
        exact hj.1
      rw [List.getElem?_eq_getElem hj]
      simp [List.getD_eq_getElem?_getD, List.getElem?_eq_getElem hx]
    rw [e2, List.nodup_map_iff_inj_on (List.nodup_range.filter _)]
    have hmem : ∀ {j : ℕ} {x : K}, xs[j]? = some x → (j ∈ (List.range (xs.zip ys).length).filter (fun j => decide (¬ Repeats units xs j)) ↔
        ¬ Repeats units xs j) := by
      intro j x hx
      have := (List.getElem?_eq_some_iff.1 hx).1
      rw [List.mem_filter, List.mem_range, List.length_zip, ← hl, min_self, decide_eq_true_iff]
      exact and_iff_right this
    constructor
    · intro hinj i j x y hij hx hy hxy
      by_contra hj
      have hi : ¬ Repeats units xs i := by
        rintro ⟨i', hi', x', z, hx', hz, h1, h2⟩
        cases hx.symm.trans hz
        exact hj ⟨i', hi'.trans hij, x', y, hx', hy, h1, h2.trans hxy⟩
      have := hinj i ((hmem hx).2 hi) j ((hmem hy).2 hj) (by
        rw [List.getD_eq_getElem?_getD, List.getD_eq_getElem?_getD, hx, hy]
        exact pmod_eq_of_angleEq hxy)
      omega
    · intro hall i hi j hj he
      have hlt : ∀ {j : ℕ}, j ∈ (List.range (xs.zip ys).length).filter (fun j => decide (¬ Repeats units xs j)) → j < xs.length := by
        intro j hj
        have hj := List.mem_range.1 (List.mem_filter.1 hj).1
        simp only [List.length_zip, lt_inf_iff] at hj
        exact hj.1
      obtain ⟨x, hx⟩ : ∃ x, xs[i]? = some x := ⟨_, List.getElem?_eq_getElem (hlt hi)⟩
      obtain ⟨y, hy⟩ : ∃ y, xs[j]? = some y := ⟨_, List.getElem?_eq_getElem (hlt hj)⟩
      rw [List.getD_eq_getElem?_getD, List.getD_eq_getElem?_getD, hx, hy] at he
      have hae : AngleEq (rad units x) (rad units y) := pmod_eq_iff.1 he
      rcases lt_trichotomy i j with hlt' | heq | hgt
      · exact absurd (hall i j _ _ hlt' hx hy hae) ((hmem hy).1 hj)
      · exact heq
      · exact absurd (hall j i _ _ hgt hy hx hae.symm) ((hmem hx).1 hi)

/-- The hypotheses of `C03_survivors` are met by the container of `exIter`. -/
example : ∃ c w, DataContainer.init exIter sRadians false = .ok (c, w) ∧
    (RawKey.str kPP, RawVal.arr2 DType.float [[7, 1, 0], [3, 5, 2]]) ∈ Dict.ofPairs exIter ∧
    IsXY (RawVal.arr2 DType.float [[7, 1, 0], [3, 5, 2]] : RawVal ℚ) .float [7, 1, 0] [3, 5, 2] := by
  obtain ⟨c, w, h⟩ := (C04_acceptance exIter sRadians false).1.2 (exIter_acceptable false)
  exact ⟨c, w, h, by rw [exIter_items]; simp [exIter], [], rfl, rfl, by decide⟩

/-- A full turn repeats the angle 0, but not a full turn. -/
example : Repeats (K := K) sRadians [0, 2 * HasPi.pi] 1 ∧
    ¬ Repeats (K := K) sRadians [2 * HasPi.pi, 2 * HasPi.pi] 1 := by
  have hr : ∀ x : K, rad sRadians x = x := fun x => by simp [rad, sRadians, sDegrees]
  have hpi : (0 : K) < HasPi.pi := HasPi.pi_pos
  refine ⟨⟨0, by omega, 0, 2 * HasPi.pi, rfl, rfl, ?_, ?_⟩, ?_⟩
  · rw [hr]; exact ⟨le_refl _, by linarith⟩
  · rw [hr, hr]; exact ⟨-1, by push_cast; ring⟩
  · rintro ⟨i, hi, x, y, hx, _, h, _⟩
    obtain rfl : i = 0 := by omega
    cases hx
    rw [hr] at h
    exact lt_irrefl _ h.2

end Shgpy
