import Verif.Proofs.DataInit2

/-!
# Properties C01-C04 and C13: construction of a `DataContainer`
-/

set_option linter.unusedSectionVars false

namespace Shgpy
open Spec

variable {K : Type} [Field K] [LinearOrder K] [IsStrictOrderedRing K] [FloorRing K] [HasPi K]

/-- **C01.** A constructed container is in normal form under every key. -/
theorem C01_construction_normal_form {iter : List (RawKey × RawVal K)} {units : Key} {b : Bool}
    {c : DataContainer K} {w : List Key} (h : DataContainer.init iter units b = .ok (c, w)) :
    ∃ items, c.getItems sRadians = .ok items ∧ items.map Prod.fst = c.getKeys ∧ c.getKeys.Nodup ∧
      ∀ k pts, (k, pts) ∈ items → NormalForm pts := by
  obtain ⟨_, d, d', hd, hd', hne, rfl, rfl⟩ := init_ok h
  have hwf : Dict.WF d := WF_checkIterable hd (Dict.WF_ofPairs _)
  have hwfr : Dict.WF (radDict units d) := by rw [radDict_eq, WF_mapVals]; exact hwf
  refine ⟨_, getItems_radians _, rfl, ?_, ?_⟩
  · change Dict.WF (Dict.mapVals finalPts d')
    rw [WF_mapVals]
    cases b with
    | false =>
      simp only [Bool.false_eq_true, if_false, Except.ok.injEq] at hd'
      subst hd'
      exact hwfr
    | true =>
      simp only [if_true] at hd'
      rcases coerceOblique_cases (radDict units d) with ⟨_, h2⟩ | ⟨a, e, va, vb, r, ha, he, _, hr, hr', h2⟩ | ⟨_, h2⟩
      · rw [h2] at hd'; cases hd'; exact Dict.WF_ofPairs _
      · rw [h2] at hd'; cases hd'
        rcases hr with hr | hr <;> rcases hr' with rfl | rfl <;> rw [hr] <;>
          rcases ha with rfl | rfl <;> rcases he with rfl | rfl <;>
          simp only [Dict.WF, Dict.keys, List.map_append, List.map_cons, List.map_nil] <;> decide
      · rw [h2] at hd'; cases hd'
  · intro k pts hp
    obtain ⟨v, hv, rfl⟩ := Dict.mem_mapVals.1 hp
    exact finalPts_normalForm (hne _ hv)

/-- **C02.** Without `normal_to_oblique`: keys in order of first occurrence, and the points of a float array
(or of an integer array given in degrees) are kept up to duplicates, whole turns and order. -/
theorem C02_construction_preserves_points {iter : List (RawKey × RawVal K)} {units : Key}
    {c : DataContainer K} {w : List Key} (h : DataContainer.init iter units false = .ok (c, w)) :
    c.getKeys.map RawKey.str = firstOcc (iter.map Prod.fst) ∧
    ∀ k v dt xs ys, (RawKey.str k, v) ∈ Dict.ofPairs iter → IsXY v dt xs ys →
      (dt = .float ∨ units = sDegrees) →
      ∃ pts kept, c.getPc k sRadians = .ok pts ∧ kept.Sublist (xs.zip ys) ∧
        Matched (fun p q => AngleEq q.1 (rad units p.1) ∧ q.2 = p.2) kept pts ∧
        (∀ p ∈ xs.zip ys, ∃ q ∈ kept, AngleEq (rad units p.1) (rad units q.1)) ∧
        (k ∈ w ↔ kept.length < (xs.zip ys).length) ∧
        (DistinctAngles ((xs.zip ys).map (fun p => (rad units p.1, p.2))) → kept = xs.zip ys) := by
  obtain ⟨h1, h2⟩ := init_plain h
  refine ⟨h1, ?_⟩
  intro k v dt xs ys hk hv hdt
  obtain ⟨h3, h4⟩ := h2 k v dt xs ys hk hv
  obtain ⟨kept, hs, he⟩ := List.sublist_map_iff.1 (dedup_sublist (xyArr units dt xs ys).pts)
  have hint : (xyArr units dt xs ys).isInt = false := by
    simp only [xyArr, decide_eq_false_iff_not, not_and, not_not]
    intro hd
    rcases hdt with rfl | hu
    · cases hd
    · exact hu
  refine ⟨_, kept, h3, hs, ?_, ?_, ?_, ?_⟩
  · obtain ⟨m, hm, hp⟩ := finalPts_matched hint
    refine ⟨m, ?_, hp⟩
    rw [he, List.forall₂_map_left_iff] at hm
    exact hm
  · intro p hp
    obtain ⟨q, hq, hpq⟩ := dedupFrom_covers [] (xyArr units dt xs ys).pts (rad units p.1, p.2)
      (List.mem_map.2 ⟨p, hp, rfl⟩)
    rw [he] at hq
    obtain ⟨q', hq', rfl⟩ := List.mem_map.1 hq
    exact ⟨q', hq', hpq⟩
  · rw [h4, he]
    simp [xyArr]
  · intro hd
    have := dedup_of_distinct (l := (xyArr units dt xs ys).pts) hd
    rw [this] at he
    apply hs.eq_of_length
    have := congrArg List.length he
    simpa [xyArr] using this.symm

/-- An integer array given in radians is *not* preserved: its angles are truncated after reduction. -/
theorem C02_int_radians_truncated :
    ∃ c w, DataContainer.init (K := ℚ) [(.str kPP, .arr2 .int [[7], [1]])] sRadians false = .ok (c, w) ∧
      c.getPc kPP sRadians = .ok [(0, 1)] ∧ ¬ AngleEq (0 : ℚ) 7 := by
  refine ⟨⟨[(kPP, [(0, 1)])], 1, 0, some 0, false, sRadians⟩, [], ?_, ?_, ?_⟩
  · have hp : pmod (7 : ℚ) = 7 - 2 * (884279719003555 / 281474976710656) := by
      unfold pmod twoPi HasPi.pi instHasPiRat
      norm_num
    have hf : castTo true (pmod (7 : ℚ)) = 0 := by
      rw [hp, castTo, if_pos rfl, if_pos (by norm_num)]
      norm_num
    rw [init_eq, if_pos (Or.inl rfl)]
    simp [Dict.ofPairs, Dict.set, checkIterable, checkVal, radDict, sRadians, sDegrees, Dict.mapVals,
      finalPts, dedupFrom, sortPts, duplicateWarnings, hf]
  · rfl
  · rintro ⟨n, hn⟩
    unfold HasPi.pi instHasPiRat at hn
    simp only at hn
    have h1 : (n : ℚ) = -(7 * 281474976710656 / (2 * 884279719003555)) := by
      field_simp
      field_simp at hn
      linarith
    have h2 : (-2 : ℚ) < n := by rw [h1]; norm_num
    have h3 : (n : ℚ) < -1 := by rw [h1]; norm_num
    have h2' : (-2 : ℤ) < n := by exact_mod_cast h2
    have h3' : n < (-1 : ℤ) := by exact_mod_cast h3
    omega

/-- **C03 fails**: two points at the (equal) angle 2π both survive, and no warning is issued. -/
theorem C03_duplicates_can_survive :
    ∃ (iter : List (RawKey × RawVal K)) (c : DataContainer K) (pts : List (K × K)),
      DataContainer.init iter sRadians false = .ok (c, []) ∧ c.getPc kPP sRadians = .ok pts ∧
      ¬ (pts.map Prod.fst).Nodup := by
  have hp : pmod (twoPi : K) = 0 := by
    unfold pmod
    rw [div_self (twoPi_pos (K := K)).ne']
    simp
  have hne : ¬ ((0 : K) = twoPi) := (twoPi_pos (K := K)).ne
  refine ⟨[(.str kPP, .arr2 .float [[twoPi, twoPi], [1, 2]])],
    ⟨[(kPP, [(0, 1), (0, 2)])], 1, 0, some 0, false, sRadians⟩, [(0, 1), (0, 2)], ?_, ?_, ?_⟩
  · have hs : sortPts [((0 : K), (1 : K)), (0, 2)] = [(0, 1), (0, 2)] := sortPts_of_sorted (by simp)
    rw [init_eq, if_pos (Or.inl rfl)]
    simp [Dict.ofPairs, Dict.set, checkIterable, checkVal, radDict, sRadians, sDegrees, Dict.mapVals,
      finalPts, dedupFrom, duplicateWarnings, hp, hne, hs]
  · rfl
  · simp

/-- **C03, the part that holds**: float data (or degrees) whose angles already lie in one turn end up with
pairwise distinct angles.  Missing: angles outside `[0, 2π)`, see `C03_duplicates_can_survive`. -/
theorem C03_no_duplicate_angles_partial {iter : List (RawKey × RawVal K)} {units : Key}
    {c : DataContainer K} {w : List Key} (h : DataContainer.init iter units false = .ok (c, w))
    {k : Key} {v : RawVal K} {dt : DType} {xs ys : List K}
    (hk : (RawKey.str k, v) ∈ Dict.ofPairs iter) (hv : IsXY v dt xs ys)
    (hdt : dt = .float ∨ units = sDegrees) (hx : ∀ x ∈ xs, InTurn (rad units x)) :
    ∃ pts, c.getPc k sRadians = .ok pts ∧ (pts.map Prod.fst).Nodup := by
  obtain ⟨_, h2⟩ := init_plain h
  obtain ⟨h3, h4⟩ := h2 k v dt xs ys hk hv
  refine ⟨_, h3, ?_⟩
  have hint : (xyArr units dt xs ys).isInt = false := by
    simp only [xyArr, decide_eq_false_iff_not, not_and, not_not]
    intro hd
    rcases hdt with rfl | hu
    · cases hd
    · exact hu
  have hin : ∀ p ∈ (xyArr units dt xs ys).pts, InTurn p.1 := by
    intro p hp
    obtain ⟨q, hq, rfl⟩ := List.mem_map.1 hp
    exact hx _ (List.of_mem_zip hq).1
  have hnd := dedupFrom_nodup (kept := []) (by simp) hin
  unfold finalPts
  rw [((sortPts_perm _).map Prod.fst).nodup_iff, List.map_map]
  have he : List.map (Prod.fst ∘ fun p : K × K => (castTo (xyArr units dt xs ys).isInt (pmod p.1), p.2))
      (dedupFrom [] (xyArr units dt xs ys).pts)
      = List.map Prod.fst (dedupFrom [] (xyArr units dt xs ys).pts) := by
    apply List.map_congr_left
    intro p hp
    simp only [Function.comp, hint, castTo_false]
    exact pmod_of_inTurn (hin p ((dedup_sublist _).subset hp))
  rw [he]
  exact hnd

/-- **C04.** The exact acceptance condition, and `ValueError` is the only exception. -/
theorem C04_acceptance (iter : List (RawKey × RawVal K)) (units : Key) (b : Bool) :
    ((∃ c w, DataContainer.init iter units b = .ok (c, w)) ↔ Acceptable (Dict.ofPairs iter) units b) ∧
    ∀ e, DataContainer.init iter units b = .error e → e = .valueError := by
  rw [init_eq]
  unfold Acceptable
  by_cases hu : units = sRadians ∨ units = sDegrees
  swap
  · rw [if_neg hu]
    refine ⟨⟨(by rintro ⟨c, w, h⟩; cases h), fun h => absurd h.1 hu⟩, ?_⟩
    intro e he; cases he; rfl
  rw [if_pos hu]
  cases hc : checkIterable (Dict.ofPairs iter) with
  | error e =>
    have hno : ¬ ∃ d', checkIterable (Dict.ofPairs iter) = .ok d' := by rw [hc]; simp
    rw [checkIterable_ok_iff] at hno
    refine ⟨⟨(by rintro ⟨c, w, h⟩; cases h), fun h => absurd h.2.1 hno⟩, ?_⟩
    intro e' he
    cases he
    exact checkIterable_error hc
  | ok d =>
    have hyes := checkIterable_ok_iff.1 ⟨d, hc⟩
    have hf := checkIterable_ok hc
    rw [and_iff_right hu, and_iff_right hyes]
    cases b with
    | false =>
      simp only [Bool.false_eq_true, if_false]
      have key : (∀ p ∈ radDict units d, p.2.pts ≠ []) ↔
          ∀ k v dt xs ys, (k, v) ∈ Dict.ofPairs iter → IsXY v dt xs ys → xs ≠ [] := by
        rw [radDict_eq]
        constructor
        · intro hall k v dt xs ys hk hv
          obtain ⟨⟨s, a⟩, hq, hs, ha⟩ := forall₂_mem_left hf hk
          have := hall (s, radArr units a) (Dict.mem_mapVals.2 ⟨a, hq, rfl⟩)
          rw [radArr_of_isXY ha hv, Ne, xyArr_pts_eq_nil] at this
          · exact this
          · obtain ⟨_, _, hl, _⟩ := hv; exact hl
        · rintro hall ⟨s, u⟩ hp
          obtain ⟨a, ha, rfl⟩ := Dict.mem_mapVals.1 hp
          obtain ⟨⟨k, v⟩, hq, _, hv⟩ := forall₂_mem_right hf ha
          obtain ⟨dt, xs, ys, rest, h1, h2, h3, _⟩ := checkVal_some.1 hv
          have hxy : IsXY v dt xs ys := ⟨rest, h1, h2, h3⟩
          have := hall k v dt xs ys hq hxy
          rw [radArr_of_isXY hv hxy, Ne, xyArr_pts_eq_nil h2]
          exact this
      rw [← key]
      split
      · next hne => exact ⟨⟨fun _ => hne, fun _ => ⟨_, _, rfl⟩⟩, (by intro e he; cases he)⟩
      · next hne =>
        exact ⟨⟨(by rintro ⟨c, w, h⟩; cases h), fun h => absurd h hne⟩, by intro e he; cases he; rfl⟩
    | true =>
      simp only [if_true]
      have hpcs : (Dict.keys (radDict units d)).map normKey = pcs (Dict.ofPairs iter) := by
        rw [radDict_eq, Dict.keys_mapVals, pcs_eq hf]
      have key : (∀ p ∈ renamed (radDict units d), p.2.pts ≠ []) ↔
          ∀ k v dt xs ys, LastFor (Dict.ofPairs iter) k v → IsXY v dt xs ys → xs ≠ [] := by
        constructor
        · intro hall k v dt xs ys hk hv
          have hlen : xs.length = ys.length := by obtain ⟨_, _, hl, _⟩ := hv; exact hl
          obtain ⟨rest, h1, h2, h3⟩ := hv
          have hcv := checkVal_some.2 ⟨dt, xs, ys, rest, h1, h2, h3, rfl⟩
          have := hall _ ((mem_renamed units hc (pcOf k) _).2 ⟨k, v, _, rfl, hk, hcv, rfl⟩)
          rw [radArr_of_isXY hcv ⟨rest, h1, h2, h3⟩, Ne, xyArr_pts_eq_nil hlen] at this
          exact this
        · rintro hall ⟨X, u⟩ hp
          obtain ⟨k, v, a, rfl, hl, ha, rfl⟩ := (mem_renamed units hc X u).1 hp
          obtain ⟨dt, xs, ys, rest, h1, h2, h3, _⟩ := checkVal_some.1 ha
          have hxy : IsXY v dt xs ys := ⟨rest, h1, h2, h3⟩
          rw [radArr_of_isXY ha hxy, Ne, xyArr_pts_eq_nil h2]
          exact hall k v dt xs ys hl hxy
      rcases coerceOblique_cases (radDict units d) with ⟨h1, h2⟩ | ⟨a, e, va, vb, r, ha, he, h1, hr, hr', h2⟩ | ⟨h1, h2⟩
      · rw [h2]
        have hob : ObliqueKeys (pcs (Dict.ofPairs iter)) := Or.inl (by rw [← hpcs]; exact h1)
        simp only [hob, true_and, ← key]
        split
        · next hne => exact ⟨⟨fun _ => hne, fun _ => ⟨_, _, rfl⟩⟩, (by intro e he; cases he)⟩
        · next hne =>
          exact ⟨⟨(by rintro ⟨c, w, h⟩; cases h), fun h => absurd h hne⟩, by intro e he; cases he; rfl⟩
      · rw [h2]
        have hob : ObliqueKeys (pcs (Dict.ofPairs iter)) :=
          Or.inr ⟨a, e, ha, he, by rw [← hpcs]; exact h1⟩
        have hr'' : (∀ p ∈ renamed (radDict units d) ++ r, p.2.pts ≠ []) ↔
            ∀ p ∈ renamed (radDict units d), p.2.pts ≠ [] := by
          constructor
          · exact fun hall p hp => hall p (List.mem_append_left _ hp)
          · intro hall p hp
            rcases List.mem_append.1 hp with hp | hp
            · exact hall p hp
            · have hva : va.pts ≠ [] := hall (a, va) (by rcases hr with hr | hr <;> rw [hr] <;> simp)
              have hvb : vb.pts ≠ [] := hall (e, vb) (by rcases hr with hr | hr <;> rw [hr] <;> simp)
              rcases hr' with rfl | rfl <;>
              · simp only [List.mem_cons, List.not_mem_nil, or_false] at hp
                rcases hp with rfl | rfl
                · simpa [rot90_pts_eq_nil] using by assumption
                · simpa [rot90_pts_eq_nil] using by assumption
        simp only [hob, true_and, ← key, hr'']
        split
        · next hne => exact ⟨⟨fun _ => hne, fun _ => ⟨_, _, rfl⟩⟩, (by intro e he; cases he)⟩
        · next hne =>
          exact ⟨⟨(by rintro ⟨c, w, h⟩; cases h), fun h => absurd h hne⟩, by intro e he; cases he; rfl⟩
      · rw [h2]
        rw [hpcs] at h1
        refine ⟨⟨(by rintro ⟨c, w, h⟩; cases h), fun h => absurd h.1 h1⟩, by intro e he; cases he; rfl⟩

theorem pmod_pmod (x : K) : pmod (pmod x) = pmod x := pmod_of_inTurn (pmod_inTurn x)

theorem rot90_matched {v : NArr K} (hi : v.isInt = false) (hd : DistinctAngles v.pts) :
    Matched (Moved (HasPi.pi / 2) 1) (finalPts v) (finalPts (rot90 v)) := by
  have hd' : DistinctAngles (rot90 v).pts := by
    unfold rot90 DistinctAngles
    simp only [List.pairwise_map, hi, castTo_false]
    refine hd.imp ?_
    intro p q hpq h
    apply hpq
    have h1 := (pmod_angleEq _).symm.trans (h.trans (pmod_angleEq _))
    have h2 := h1.add_right (-(HasPi.pi / 2))
    simpa using h2
  refine ⟨(finalPts v).map (fun p => (pmod (p.1 + HasPi.pi / 2), p.2)), ?_, ?_⟩
  · rw [List.forall₂_map_right_iff, List.forall₂_same]
    intro p _
    exact ⟨pmod_angleEq _, (one_mul _).symm⟩
  · unfold finalPts
    rw [dedup_of_distinct hd, dedup_of_distinct hd']
    refine (sortPts_perm _).trans (List.Perm.trans ?_ ((sortPts_perm _).map _).symm)
    simp only [hi, rot90, castTo_false, List.map_map]
    apply List.Perm.of_eq
    apply List.map_congr_left
    intro p _
    simp only [Function.comp, pmod_pmod, pmod_add]

/-- **C13.** `normal_to_oblique` on data that is not of integer dtype and has no repeated directions: exactly
the four combinations; a given one keeps its points; a missing one is its partner advanced by π/2. -/
theorem C13_normal_to_oblique {iter : List (RawKey × RawVal K)} {units : Key}
    {c : DataContainer K} {w : List Key} (h : DataContainer.init iter units true = .ok (c, w))
    (hin : ∀ k v dt xs ys, (k, v) ∈ Dict.ofPairs iter → IsXY v dt xs ys →
      (dt = .float ∨ units = sDegrees) ∧
        DistinctAngles ((xs.zip ys).map (fun p => (rad units p.1, p.2)))) :
    c.getKeys.Perm [kPP, kPS, kSP, kSS] ∧
    (∀ k v dt xs ys, LastFor (Dict.ofPairs iter) k v → IsXY v dt xs ys →
      ∃ pts, c.getPc (pcOf k) sRadians = .ok pts ∧
        Matched (fun p q => AngleEq q.1 (rad units p.1) ∧ q.2 = p.2) (xs.zip ys) pts) ∧
    (∀ X ∈ [kPP, kPS, kSP, kSS], X ∉ pcs (Dict.ofPairs iter) →
      partner X ∈ pcs (Dict.ofPairs iter) ∧
      ∃ pts pts', c.getPc X sRadians = .ok pts ∧ c.getPc (partner X) sRadians = .ok pts' ∧
        Matched (Moved (HasPi.pi / 2) 1) pts' pts) := by
  obtain ⟨_, _, _, hnd, _⟩ := C01_construction_normal_form h
  obtain ⟨_, d, d', hd, hd', hne, rfl, rfl⟩ := init_ok h
  simp only [if_true] at hd'
  have hf := checkIterable_ok hd
  have hwfd : Dict.WF (Dict.mapVals finalPts d') := hnd
  have hpcs : (Dict.keys (radDict units d)).map normKey = pcs (Dict.ofPairs iter) := by
    rw [radDict_eq, Dict.keys_mapVals, pcs_eq hf]
  have hgood : ∀ k v dt xs ys, LastFor (Dict.ofPairs iter) k v → IsXY v dt xs ys →
      (xyArr units dt xs ys).isInt = false ∧ DistinctAngles (xyArr units dt xs ys).pts := by
    intro k v dt xs ys hl hv
    have hm : (RawKey.str k, v) ∈ Dict.ofPairs iter := by
      obtain ⟨pre, post, he, _⟩ := hl
      rw [he]; simp
    obtain ⟨h1, h2⟩ := hin _ v dt xs ys hm hv
    refine ⟨?_, h2⟩
    simp only [xyArr, decide_eq_false_iff_not, not_and, not_not]
    intro hdt
    rcases h1 with rfl | hu
    · cases hdt
    · exact hu
  have hren : ∀ X u, (X, u) ∈ renamed (radDict units d) → u.isInt = false ∧ DistinctAngles u.pts := by
    intro X u hu
    obtain ⟨k, v, a, rfl, hl, ha, rfl⟩ := (mem_renamed units hd X u).1 hu
    obtain ⟨dt, xs, ys, rest, h1, h2, h3, _⟩ := checkVal_some.1 ha
    have hxy : IsXY v dt xs ys := ⟨rest, h1, h2, h3⟩
    rw [radArr_of_isXY ha hxy]
    exact hgood k v dt xs ys hl hxy
  have hget : ∀ X u, (X, u) ∈ d' →
      DataContainer.getPc ⟨Dict.mapVals finalPts d', 1, 0, some 0, true, units⟩ X sRadians = .ok (finalPts u) := by
    intro X u hu
    rw [getPc_radians]
    exact get_of_mem hwfd (Dict.mem_mapVals.2 ⟨u, hu, rfl⟩)
  have hsub : ∀ x ∈ renamed (radDict units d), x ∈ d' := by
    intro x hx
    rcases coerceOblique_cases (radDict units d) with ⟨h1, h2⟩ | ⟨a, e, va, vb, r, ha, he, h1, hr, hr', h2⟩ | ⟨h1, h2⟩
    · rw [h2] at hd'; cases hd'; exact hx
    · rw [h2] at hd'; cases hd'; exact List.mem_append_left _ hx
    · rw [h2] at hd'; cases hd'
  refine ⟨?_, ?_, ?_⟩
  · rcases coerceOblique_cases (radDict units d) with ⟨h1, h2⟩ | ⟨a, e, va, vb, r, ha, he, h1, hr, hr', h2⟩ | ⟨h1, h2⟩
    · rw [h2] at hd'; cases hd'
      change (Dict.keys (Dict.mapVals finalPts (renamed (radDict units d)))).Perm _
      rw [Dict.keys_mapVals, List.perm_ext_iff_of_nodup (l₁ := Dict.keys (renamed (radDict units d)))
        (Dict.WF_ofPairs _) (by decide)]
      intro x
      rw [mem_keys_renamed, h1]
      simp
    · rw [h2] at hd'; cases hd'
      change (Dict.keys (Dict.mapVals finalPts (renamed (radDict units d) ++ r))).Perm _
      rw [Dict.keys_mapVals]
      rcases hr with hr | hr <;> rcases hr' with rfl | rfl <;> rw [hr] <;>
          rcases ha with rfl | rfl <;> rcases he with rfl | rfl <;>
          simp only [Dict.keys, List.map_append, List.map_cons, List.map_nil] <;> decide
    · rw [h2] at hd'; cases hd'
  · intro k v dt xs ys hl hv
    obtain ⟨rest, h1, h2, h3⟩ := hv
    have hcv := checkVal_some.2 ⟨dt, xs, ys, rest, h1, h2, h3, rfl⟩
    have hxy : IsXY v dt xs ys := ⟨rest, h1, h2, h3⟩
    have hm := (mem_renamed units hd (pcOf k) _).2 ⟨k, v, _, rfl, hl, hcv, rfl⟩
    rw [radArr_of_isXY hcv hxy] at hm
    refine ⟨_, hget _ _ (hsub _ hm), ?_⟩
    obtain ⟨hi, hdist⟩ := hgood k v dt xs ys hl hxy
    obtain ⟨m, hm1, hm2⟩ := finalPts_matched hi
    refine ⟨m, ?_, hm2⟩
    rw [dedup_of_distinct hdist] at hm1
    unfold xyArr at hm1
    rw [List.forall₂_map_left_iff] at hm1
    exact hm1
  · intro X hX hnX
    rcases coerceOblique_cases (radDict units d) with ⟨h1, h2⟩ | ⟨a, e, va, vb, r, ha, he, h1, hr, hr', h2⟩ | ⟨h1, h2⟩
    · rw [hpcs] at h1
      exact absurd ((h1 X).2 (by simpa using hX)) hnX
    · have hmem : ∀ x ∈ r, x ∈ d' := by
        intro x hx
        rw [h2] at hd'; cases hd'
        exact List.mem_append_right _ hx
      rw [hpcs] at h1
      have hma : (a, va) ∈ renamed (radDict units d) := by rcases hr with hr | hr <;> rw [hr] <;> simp
      have hmb : (e, vb) ∈ renamed (radDict units d) := by rcases hr with hr | hr <;> rw [hr] <;> simp
      have hra : (partner a, rot90 va) ∈ r := by rcases hr' with rfl | rfl <;> simp
      have hrb : (partner e, rot90 vb) ∈ r := by rcases hr' with rfl | rfl <;> simp
      have hXab : ¬ (X = a ∨ X = e) := fun hh => hnX ((h1 X).2 hh)
      have : (X = partner a ∧ partner X = a) ∨ (X = partner e ∧ partner X = e) := by
        simp only [List.mem_cons, List.not_mem_nil, or_false] at hX
        rcases ha with rfl | rfl <;> rcases he with rfl | rfl <;> rcases hX with rfl | rfl | rfl | rfl <;>
          first
          | exact absurd (Or.inl rfl) hXab
          | exact absurd (Or.inr rfl) hXab
          | decide
      rcases this with ⟨hX1, hX2⟩ | ⟨hX1, hX2⟩
      · rw [hX2]
        refine ⟨(h1 a).2 (Or.inl rfl), finalPts (rot90 va), _, ?_, hget _ _ (hsub _ hma), ?_⟩
        · rw [hX1]
          exact hget _ _ (hmem _ hra)
        · exact rot90_matched (hren _ _ hma).1 (hren _ _ hma).2
      · rw [hX2]
        refine ⟨(h1 e).2 (Or.inr rfl), finalPts (rot90 vb), _, ?_, hget _ _ (hsub _ hmb), ?_⟩
        · rw [hX1]
          exact hget _ _ (hmem _ hrb)
        · exact rot90_matched (hren _ _ hmb).1 (hren _ _ hmb).2
    · rw [h2] at hd'; cases hd'

/-! ### Concrete cases meeting the hypotheses -/

section Examples

/-- A concrete input with an unsorted, out-of-range angle. -/
def exIter : List (RawKey × RawVal ℚ) :=
  [(.str kPP, .arr2 .float [[7, 1, 0], [3, 5, 2]]), (.str kSP, .arr2 .float [[-1], [4]])]

theorem exIter_items : Dict.ofPairs exIter = exIter := by rfl

theorem exIter_acceptable (b : Bool) : Acceptable (Dict.ofPairs exIter) sRadians b := by
  rw [exIter_items]
  have hxs : ∀ k v dt xs ys, (k, v) ∈ exIter → IsXY v dt xs ys → xs ≠ [] := by
    rintro k v dt xs ys hkv ⟨rest, rfl, _, _⟩ rfl
    simp [exIter] at hkv
  refine ⟨Or.inl rfl, ?_, ?_⟩
  · intro k v hkv
    simp only [exIter, List.mem_cons, Prod.mk.injEq, List.not_mem_nil, or_false] at hkv
    rcases hkv with ⟨rfl, rfl⟩ | ⟨rfl, rfl⟩
    · exact ⟨⟨_, rfl⟩, _, _, _, [], rfl, rfl, by decide⟩
    · exact ⟨⟨_, rfl⟩, _, _, _, [], rfl, rfl, by decide⟩
  · split
    · refine ⟨Or.inr ⟨kPP, kSP, Or.inl rfl, Or.inr rfl, ?_⟩, ?_⟩
      · intro x
        have : pcs exIter = [kPP, kSP] := by decide
        rw [this]; simp
      · intro k v dt xs ys hl
        apply hxs (.str k) v dt xs ys
        obtain ⟨pre, post, he, _⟩ := hl
        rw [he]; simp
    · exact hxs

/-- The constructor succeeds on `exIter`, with and without `normal_to_oblique`: the hypotheses of C01, C02
and C13 are met. -/
example (b : Bool) : ∃ c w, DataContainer.init exIter sRadians b = .ok (c, w) :=
  (C04_acceptance exIter sRadians b).1.2 (exIter_acceptable b)

/-- The side condition of C13 on `exIter`. -/
example : ∀ k v dt xs ys, (k, v) ∈ Dict.ofPairs exIter → IsXY v dt xs ys →
    (dt = .float ∨ sRadians = sDegrees) ∧
      DistinctAngles ((xs.zip ys).map (fun p => (rad sRadians p.1, p.2))) := by
  have hne : ∀ x y : ℚ, -12 < x - y → x - y < 12 → x - y ≠ 0 → x - y ≠ 2 * HasPi.pi →
      x - y ≠ -(2 * HasPi.pi) → ¬ AngleEq x y := by
    rintro x y h1 h2 h3 h4 h5 ⟨n, hn⟩
    have hpi : (3 : ℚ) < HasPi.pi := by unfold HasPi.pi instHasPiRat; norm_num
    have hn' : x - y = n * (2 * HasPi.pi) := by rw [hn]; ring
    have hlt : (n : ℚ) < 2 := by
      by_contra hc
      push Not at hc
      nlinarith
    have hgt : (-2 : ℚ) < n := by
      by_contra hc
      push Not at hc
      nlinarith
    have hlt' : n < 2 := by exact_mod_cast hlt
    have hgt' : -2 < n := by exact_mod_cast hgt
    have : n = -1 ∨ n = 0 ∨ n = 1 := by omega
    rcases this with rfl | rfl | rfl
    · exact h5 (by rw [hn']; push_cast; ring)
    · exact h3 (by rw [hn']; simp)
    · exact h4 (by rw [hn']; push_cast; ring)
  rw [exIter_items]
  rintro k v dt xs ys hkv ⟨rest, rfl, _, _⟩
  simp only [exIter, List.mem_cons, Prod.mk.injEq, List.not_mem_nil, or_false, RawVal.arr2.injEq,
    List.cons.injEq] at hkv
  rcases hkv with ⟨_, rfl, rfl, rfl, _⟩ | ⟨_, rfl, rfl, rfl, _⟩
  · refine ⟨Or.inl rfl, ?_⟩
    have hr : ∀ x : ℚ, rad sRadians x = x := fun x => by simp [rad, sRadians, sDegrees]
    simp only [DistinctAngles, List.zip_cons_cons, List.zip_nil_left, List.map_cons, List.map_nil, hr,
      List.pairwise_cons, List.mem_cons, List.not_mem_nil, or_false, forall_eq_or_imp, forall_eq,
      List.Pairwise.nil, and_true, implies_true, false_implies]
    unfold HasPi.pi instHasPiRat at hne
    simp only at hne
    refine ⟨⟨hne _ _ ?_ ?_ ?_ ?_ ?_, hne _ _ ?_ ?_ ?_ ?_ ?_⟩, hne _ _ ?_ ?_ ?_ ?_ ?_⟩ <;> norm_num
  · refine ⟨Or.inl rfl, ?_⟩
    simp [DistinctAngles]

/-- The range condition of `C03_no_duplicate_angles_partial` is met by data on one turn. -/
example : ∀ x ∈ ([0, 90, 270, 359] : List ℚ), InTurn (rad sDegrees x) := by
  have hpi : (0 : ℚ) < HasPi.pi := HasPi.pi_pos
  intro x hx
  simp only [List.mem_cons, List.not_mem_nil, or_false] at hx
  unfold InTurn rad
  rw [if_pos rfl]
  rcases hx with rfl | rfl | rfl | rfl <;> constructor <;> linarith

/-- Rejected inputs exist for every reason. -/
example : ∃ e, DataContainer.init (K := ℚ) [(.str kPP, .arr2 .float [[1], [2]])] ['D', 'e', 'g', 'r', 'e', 'e', 's'] false
    = .error e := ⟨.valueError, rfl⟩

end Examples

end Shgpy
