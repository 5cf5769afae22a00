import Verif.Proofs.FloatAngle
import Verif.Proofs.DataInit

/-!
# Properties of angles in floating point arithmetic: C85
-/

set_option linter.unusedSectionVars false
set_option linter.unusedSimpArgs false
set_option linter.unusedVariables false

namespace Shgpy
open Spec

/-- The remainder of the exact division by `b`, in `[0, b)`. -/
noncomputable def exactRemainder (x b : ℝ) : ℝ := x - b * ⌊x / b⌋

theorem dedupWith_sublist (mod : ℝ → ℝ) (pts : List (ℝ × ℝ)) : ∀ kept, ∀ q ∈ dedupWith mod kept pts, q ∈ kept ∨ q ∈ pts := by
  induction pts with
  | nil => intro kept q hq; exact .inl hq
  | cons a r ih =>
    intro kept q hq
    unfold dedupWith at hq
    split_ifs at hq
    · rcases ih _ _ hq with h | h
      · exact .inl h
      · exact .inr (List.mem_cons_of_mem _ h)
    · rcases ih _ _ hq with h | h
      · rcases List.mem_append.1 h with h | h
        · exact .inl h
        · rw [List.mem_singleton] at h; subst h; exact .inr List.mem_cons_self
      · exact .inr (List.mem_cons_of_mem _ h)

theorem dedupWith_pmod (pts : List (ℝ × ℝ)) : ∀ kept, dedupWith pmod kept pts = dedupFrom kept pts := by
  induction pts with
  | nil => intro kept; rfl
  | cons a r ih =>
    intro kept
    unfold dedupWith dedupFrom
    by_cases h : pmod a.1 ∈ kept.map Prod.fst
    · rw [if_pos h, if_pos h, ih]
    · rw [if_neg h, if_neg h, ih]

theorem arrayWith_single (mod : ℝ → ℝ) (x y : ℝ) : arrayWith mod [(x, y)] = .ok [(mod x, y)] := by
  unfold arrayWith
  have : dedupWith mod [] [(x, y)] = [(x, y)] := by simp [dedupWith]
  rw [this]
  simp [sortPts]

/-- With the exact remainder this is the model of the construction of which C01 to C04 are stated. -/
theorem C85_exact (k : Key) (pts : List (ℝ × ℝ)) :
    (DataContainer.init [(.str k, .arr2 .float [pts.map Prod.fst, pts.map Prod.snd])] sRadians false).map (fun r => r.1.data) =
      (arrayWith pmod pts).map (fun a => [(k, a)]) := by
  have hz : (pts.map Prod.fst).zip (pts.map Prod.snd) = pts := by
    induction pts with
    | nil => rfl
    | cons a r ih => simp [ih]
  unfold arrayWith
  rw [dedupWith_pmod]
  have hu : checkAngleUnits sRadians = .ok () := by decide
  have hd : sRadians ≠ sDegrees := by decide
  have hm : Dict.mapValsM modulate [(k, (⟨false, dedupFrom [] pts⟩ : NArr ℝ))] =
      (modulate ⟨false, dedupFrom [] pts⟩).map (fun a => [(k, a)]) := by
    cases hmod : modulate (⟨false, dedupFrom [] pts⟩ : NArr ℝ) <;> simp [Dict.mapValsM, hmod, bind, Except.bind, Except.map, pure, Except.pure]
  simp only [DataContainer.init, hu, if_neg hd, Dict.ofPairs, List.foldl, Dict.set, checkIterable, checkVal,
    List.length_map, true_and, if_true, ne_eq, hz, bind, Except.bind]
  simp only [reduceCtorEq, not_false_eq_true, if_true, decide_false, Bool.false_eq_true, if_false, removeDuplicates,
    Dict.mapVals, List.map, hm, modulate]
  by_cases h : dedupFrom [] pts = []
  · simp [h, Except.map]
  · simp [h, Except.map, castTo, pure, Except.pure]

section
variable {p : ℕ} (A : FloatArith p) {b : ℝ}

/-- C85, what holds.  In floating point arithmetic with any number of digits and any rule for ties, with any positive float `b` for
`2*np.pi`, the angles of a constructed container are sorted and in `[0, b]`; every angle is a nearest float to the exact remainder of
one of the given angles, with its intensity; for given angles that are not negative, it is the exact remainder, below `b`.  Missing:
that angles are below `b` for negative angles too, which is false: see `C85_turn_broken`. -/
theorem C85_range_partial (hb : 0 < b) (hf : IsFloat p b) {pts out : List (ℝ × ℝ)}
    (h : arrayWith (fun x => npMod A x b) pts = .ok out) :
    out ≠ [] ∧ out.Pairwise (fun q q' => q.1 ≤ q'.1) ∧ ∀ q ∈ out, 0 ≤ q.1 ∧ q.1 ≤ b ∧ ∃ q₀ ∈ pts, q.2 = q₀.2 ∧
      (∀ y, IsFloat p y → |q.1 - exactRemainder q₀.1 b| ≤ |y - exactRemainder q₀.1 b|) ∧
      (0 ≤ q₀.1 → q.1 = exactRemainder q₀.1 b ∧ q.1 < b) := by
  unfold arrayWith at h
  split_ifs at h with hn
  cases h
  refine ⟨?_, sortPts_sorted _, fun q hq => ?_⟩
  · intro hc
    have := (sortPts_perm ((dedupWith (fun x => npMod A x b) [] pts).map (fun q => (npMod A q.1 b, q.2)))).length_eq
    rw [hc, List.length_nil, List.length_map] at this
    exact hn (List.eq_nil_of_length_eq_zero this.symm)
  · rw [mem_sortPts] at hq
    obtain ⟨q₀, h0, rfl⟩ := List.mem_map.1 hq
    have hr := npMod_range A (x := q₀.1) hb hf
    have hmem : q₀ ∈ pts := by
      rcases dedupWith_sublist _ _ _ _ h0 with h | h
      · cases h
      · exact h
    exact ⟨hr.1, hr.2, q₀, hmem, rfl, fun y hy => npMod_nearest A hb hy, fun hx => npMod_nonneg A hb hx⟩

/-- C85 fails for negative angles: in every floating point arithmetic there is a negative angle that construction turns into the angle
`b` (a full turn), instead of 0; constructing a container again from these data changes the angle to 0; and together with a point
at 0 it gives two points, at the first and at the last angle of the turn, for one direction. -/
theorem C85_turn_broken (hb : 0 < b) (hf : IsFloat p b) : ∃ x, IsFloat p x ∧ x < 0 ∧ ∀ y y₀ : ℝ,
    arrayWith (fun x => npMod A x b) [(x, y)] = .ok [(b, y)] ∧
    arrayWith (fun x => npMod A x b) [(b, y)] = .ok [(0, y)] ∧
    arrayWith (fun x => npMod A x b) [(0, y₀), (x, y)] = .ok [(0, y₀), (b, y)] := by
  obtain ⟨x, h1, h2, _, h3⟩ := npMod_turn A hb hf
  have hb0 : npMod A b b = 0 := by
    rw [(npMod_nonneg A hb hb.le).1, div_self hb.ne', Int.floor_one]; simp
  have h00 : npMod A 0 b = 0 := by
    rw [(npMod_nonneg A hb le_rfl).1]; simp
  refine ⟨x, h1, h2, fun y y₀ => ⟨by rw [arrayWith_single, h3], by rw [arrayWith_single, hb0], ?_⟩⟩
  have hd : dedupWith (fun x => npMod A x b) [] [(0, y₀), (x, y)] = [(0, y₀), (x, y)] := by
    simp [dedupWith, h3, hb.ne']
  unfold arrayWith
  rw [hd, if_neg (by simp)]
  congr 1
  simp only [List.map, h00, h3]
  unfold sortPts
  exact List.mergeSort_of_pairwise (by simp [hb.le])

/-- C85 for `phase_shift_data`, what holds. -/
theorem C85_shift_partial (hb : 0 < b) (hf : IsFloat p b) (angle : ℝ) (pts : List (ℝ × ℝ)) :
    (shiftWith (fun x a => A.rnd (x + a)) (fun x => npMod A x b) angle pts).length = pts.length ∧
    (shiftWith (fun x a => A.rnd (x + a)) (fun x => npMod A x b) angle pts).Pairwise (fun q q' => q.1 ≤ q'.1) ∧
    ∀ q ∈ shiftWith (fun x a => A.rnd (x + a)) (fun x => npMod A x b) angle pts, 0 ≤ q.1 ∧ q.1 ≤ b ∧
      ∃ q₀ ∈ pts, q.2 = q₀.2 ∧
        ∀ y, IsFloat p y → |q.1 - exactRemainder (A.rnd (q₀.1 + angle)) b| ≤ |y - exactRemainder (A.rnd (q₀.1 + angle)) b| := by
  refine ⟨?_, sortPts_sorted _, fun q hq => ?_⟩
  · unfold shiftWith
    rw [(sortPts_perm _).length_eq, List.length_map]
  · unfold shiftWith at hq
    rw [mem_sortPts] at hq
    obtain ⟨q₀, h0, rfl⟩ := List.mem_map.1 hq
    have hr := npMod_range A (x := A.rnd (q₀.1 + angle)) hb hf
    exact ⟨hr.1, hr.2, q₀, h0, rfl, fun y hy => npMod_nearest A hb hy⟩

/-- C85 fails for `phase_shift_data` too: a point at 0 goes to the angle `b` with a small negative phase shift; a second shift by
zero moves it to 0. -/
theorem C85_shift_broken (hb : 0 < b) (hf : IsFloat p b) : ∃ a, IsFloat p a ∧ a < 0 ∧ ∀ y : ℝ,
    shiftWith (fun x a => A.rnd (x + a)) (fun x => npMod A x b) a [(0, y)] = [(b, y)] ∧
    shiftWith (fun x a => A.rnd (x + a)) (fun x => npMod A x b) 0 [(b, y)] = [(0, y)] := by
  obtain ⟨x, h1, h2, _, h3⟩ := npMod_turn A hb hf
  have hb0 : npMod A b b = 0 := by
    rw [(npMod_nonneg A hb hb.le).1, div_self hb.ne', Int.floor_one]; simp
  refine ⟨x, h1, h2, fun y => ⟨?_, ?_⟩⟩
  · unfold shiftWith
    simp [rnd_float A h1, h3, sortPts]
  · unfold shiftWith
    simp [rnd_float A hf, hb0, sortPts]

end

/-! ## Concrete cases -/

/-- There is an arithmetic with 53 digits, and the number that Python has for `2*np.pi`, 884279719003555 / 2^47, is a float. -/
example : ∃ _ : FloatArith 53, IsFloat 53 (884279719003555 * (2 : ℝ) ^ (-47 : ℤ)) ∧ (0 : ℝ) < 884279719003555 * (2 : ℝ) ^ (-47 : ℤ) :=
  ⟨nearestArith 53 (by norm_num), ⟨884279719003555, -47, by norm_num, by norm_num⟩, by positivity⟩

/-- A container that satisfies the hypothesis of `C85_range_partial`. -/
example (A : FloatArith 53) : arrayWith (fun x => npMod A x (884279719003555 * (2 : ℝ) ^ (-47 : ℤ))) [(1, 5)] = .ok [(1, 5)] := by
  rw [arrayWith_single, (npMod_nonneg A (by positivity) (by norm_num)).1]
  have : ⌊(1 : ℝ) / (884279719003555 * (2 : ℝ) ^ (-47 : ℤ))⌋ = 0 := by
    rw [Int.floor_eq_iff]
    constructor
    · rw [Int.cast_zero]; positivity
    · rw [div_lt_iff₀ (by positivity)]; norm_num
  rw [this]
  simp

end Shgpy
