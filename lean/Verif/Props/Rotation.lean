import Verif.Proofs.Rotation

/-!
# Theorems: rotation matrices and the cross product (C38, C39, C40)
-/

namespace Shgpy
open Spec

set_option linter.unusedSectionVars false
set_option linter.unusedSimpArgs false

theorem norm3_sq (v : Vec) : norm3 v ^ 2 = v 0 ^ 2 + v 1 ^ 2 + v 2 ^ 2 :=
  Real.sq_sqrt (by positivity)

theorem norm3_nonneg (v : Vec) : 0 ≤ norm3 v := Real.sqrt_nonneg _

theorem norm3_ne_zero {v : Vec} (h : v ≠ 0) : norm3 v ≠ 0 := by
  intro h0
  apply h
  have := norm3_sq v
  rw [h0] at this
  have h1 : v 0 = 0 := by nlinarith [sq_nonneg (v 0), sq_nonneg (v 1), sq_nonneg (v 2)]
  have h2 : v 1 = 0 := by nlinarith [sq_nonneg (v 0), sq_nonneg (v 1), sq_nonneg (v 2)]
  have h3 : v 2 = 0 := by nlinarith [sq_nonneg (v 0), sq_nonneg (v 1), sq_nonneg (v 2)]
  funext i
  fin_cases i <;> simpa

theorem direction_eq (v : Vec) : direction v = fun i => v i / norm3 v := rfl

theorem direction_unit {v : Vec} (h : v ≠ 0) : direction v 0 ^ 2 + direction v 1 ^ 2 + direction v 2 ^ 2 = 1 := by
  have hn := norm3_ne_zero h
  simp only [direction_eq, div_pow]
  rw [norm3_sq]
  have : v 0 ^ 2 + v 1 ^ 2 + v 2 ^ 2 ≠ 0 := by rw [← norm3_sq]; exact pow_ne_zero 2 hn
  field_simp

theorem rotationMatrix3_float {n : Vec} (h : n ≠ 0) (t : ℝ) :
    rotationMatrix3 .float n t = .ok (rodrigues (direction n) (Real.cos t) (Real.sin t), direction n) := by
  unfold rotationMatrix3
  rw [if_neg (norm3_ne_zero h)]
  rfl

/-! ## C38: `rotation_matrix3` -/

/-- **C38**, for lists and float arrays (for integer arrays it fails, see `C38_integer_axis_broken`).  For every nonzero axis (a list or a float array) and angle the result is orthogonal with determinant one,
fixes the axis and has trace `1 + 2 cos t`; the passed axis is left as the unit vector of its direction. -/
theorem C38_rotation_partial {n : Vec} (h : n ≠ 0) (t : ℝ) :
    ∃ A n', rotationMatrix3 .float n t = .ok (A, n') ∧ IsRotation A ∧ A.mulVec n = n ∧
      A.trace = 1 + 2 * Real.cos t ∧ n' = direction n ∧ n' 0 ^ 2 + n' 1 ^ 2 + n' 2 ^ 2 = 1 := by
  have hu := direction_unit h
  have hn := norm3_ne_zero h
  refine ⟨_, _, rotationMatrix3_float h t, rodrigues_rotation hu (Real.cos_sq_add_sin_sq t), ?_, ?_, rfl, hu⟩
  · have hv : ∀ i, n i = norm3 n * direction n i := by
      intro i; rw [direction_eq]; field_simp
    generalize direction n = d at *
    generalize Real.cos t = c
    generalize Real.sin t = s
    funext i
    fin_cases i <;>
      simp [rodrigues, Matrix.mulVec, dotProduct, Fin.sum_univ_three, hv 0, hv 1, hv 2] <;> grind
  · rw [Matrix.trace_fin_three]
    simp only [rodrigues, Matrix.of_apply, Matrix.cons_val', Matrix.cons_val_zero, Matrix.cons_val_one, Matrix.cons_val]
    linear_combination (1 - Real.cos t) * hu

/-- **C38, orientation.**  A vector perpendicular to the axis is turned by `t` in the positive sense about the axis:
its image is `cos t * v + sin t * (n/|n| × v)`. -/
theorem C38_orientation {n v : Vec} (h : n ≠ 0) (hv : n 0 * v 0 + n 1 * v 1 + n 2 * v 2 = 0) (t : ℝ) :
    ∃ A n', rotationMatrix3 .float n t = .ok (A, n') ∧
      A.mulVec v = fun i => Real.cos t * v i + Real.sin t *
        (![direction n 1 * v 2 - direction n 2 * v 1, direction n 2 * v 0 - direction n 0 * v 2,
           direction n 0 * v 1 - direction n 1 * v 0] : Vec) i := by
  have hn := norm3_ne_zero h
  refine ⟨_, _, rotationMatrix3_float h t, ?_⟩
  have hd : direction n 0 * v 0 + direction n 1 * v 1 + direction n 2 * v 2 = 0 := by
    simp only [direction_eq]
    rw [div_mul_eq_mul_div, div_mul_eq_mul_div, div_mul_eq_mul_div, ← add_div, ← add_div, hv, zero_div]
  generalize direction n = d at *
  generalize Real.cos t = c
  generalize Real.sin t = s
  funext i
  fin_cases i <;>
    simp [rodrigues, Matrix.mulVec, dotProduct, Fin.sum_univ_three] <;> grind

/-- **C38, zero angle.** -/
theorem C38_zero_angle {n : Vec} (h : n ≠ 0) : ∃ n', rotationMatrix3 .float n 0 = .ok (1, n') := by
  refine ⟨direction n, ?_⟩
  rw [rotationMatrix3_float h]
  congr 2
  ext i j
  fin_cases i <;> fin_cases j <;> simp [rodrigues]

/-- **C38, angles add** for equal axes. -/
theorem C38_additive {n : Vec} (h : n ≠ 0) (t u : ℝ) :
    ∃ A B C n', rotationMatrix3 .float n t = .ok (A, n') ∧ rotationMatrix3 .float n u = .ok (B, n') ∧
      rotationMatrix3 .float n (t + u) = .ok (C, n') ∧ A * B = C := by
  have hu := direction_unit h
  refine ⟨_, _, _, _, rotationMatrix3_float h t, rotationMatrix3_float h u, rotationMatrix3_float h (t + u), ?_⟩
  rw [Real.cos_add, Real.sin_add]
  have h1 := Real.cos_sq_add_sin_sq t
  have h2 := Real.cos_sq_add_sin_sq u
  generalize direction n = d at *
  generalize hx : d 0 = x at hu
  generalize hy : d 1 = y at hu
  generalize hz : d 2 = z at hu
  generalize Real.cos t = c at *
  generalize Real.sin t = s at *
  generalize Real.cos u = c' at *
  generalize Real.sin u = s' at *
  ext i j
  fin_cases i <;> fin_cases j <;>
    simp [rodrigues, Matrix.mul_apply, Fin.sum_univ_three, hx, hy, hz] <;> grind

theorem norm3_smul (l : ℝ) (n : Vec) : norm3 (fun i => l * n i) = |l| * norm3 n := by
  unfold norm3
  rw [← Real.sqrt_sq_eq_abs, ← Real.sqrt_mul (sq_nonneg l)]
  congr 1
  ring

/-- **C38, only the direction of the axis matters.** -/
theorem C38_direction {n : Vec} (h : n ≠ 0) (t : ℝ) {l : ℝ} (hl : 0 < l) :
    rotationMatrix3 .float (fun i => l * n i) t = rotationMatrix3 .float n t := by
  have hn := norm3_ne_zero h
  have h' : (fun i => l * n i) ≠ (0 : Vec) := by
    intro e
    apply h
    funext i
    have := congrFun e i
    simpa [hl.ne'] using this
  have hd : direction (fun i => l * n i) = direction n := by
    rw [direction_eq, direction_eq, norm3_smul, abs_of_pos hl]
    funext i
    field_simp
  rw [rotationMatrix3_float h', rotationMatrix3_float h, hd]

/-- A zero axis gives no finite matrix. -/
theorem C38_zero_axis (k : AxisKind) (t : ℝ) : rotationMatrix3 k 0 t = .error .nonFinite := by
  unfold rotationMatrix3
  rw [if_pos]
  simp [norm3]

/-- **C38 fails for an axis given as an array of integer dtype**: the normalized components are truncated to integers.
For the axis `(1, 1, 1)` they become `0`, and the result is `cos t` times the identity, not a rotation for `t = π/2`. -/
theorem C38_integer_axis_broken :
    ∃ (n : Vec) (A : Mat) (n' : Vec), (∀ i, ∃ m : ℤ, n i = m) ∧ n ≠ 0 ∧
      rotationMatrix3 .int n (Real.pi / 2) = .ok (A, n') ∧ n' = 0 ∧ ¬ IsRotation A := by
  have hpos : (1 : ℝ) < norm3 (fun _ => 1) := by
    unfold norm3
    rw [Real.lt_sqrt (by norm_num)]
    norm_num
  have hst : AxisKind.store .int (1 / norm3 (fun _ => 1)) = 0 := by
    have h0 : 0 ≤ 1 / norm3 (fun _ => 1) := by positivity
    have h1 : 1 / norm3 (fun _ => 1) < 1 := by rw [div_lt_one (by linarith)]; exact hpos
    unfold AxisKind.store
    simp only
    rw [if_pos h0, Int.floor_eq_zero_iff.2 ⟨h0, h1⟩]
    simp
  refine ⟨fun _ => 1, rodrigues 0 0 1, 0, fun _ => ⟨1, by simp⟩, ?_, ?_, rfl, ?_⟩
  · intro e
    have := congrFun e 0
    simp at this
  · unfold rotationMatrix3
    rw [if_neg (by linarith)]
    simp only [hst, Real.cos_pi_div_two, Real.sin_pi_div_two]
    rfl
  · rintro ⟨-, -, h⟩
    rw [Matrix.det_fin_three] at h
    simp [rodrigues] at h

/-- The axis `(3, 0, 4)` satisfies the hypotheses; its direction is `(3/5, 0, 4/5)`. -/
example : (![3, 0, 4] : Vec) ≠ 0 ∧ direction ![3, 0, 4] = ![3 / 5, 0, 4 / 5] := by
  refine ⟨fun e => by simpa using congrFun e 0, ?_⟩
  have : Real.sqrt ((3 : ℝ) ^ 2 + 0 ^ 2 + 4 ^ 2) = 5 := by
    rw [show (3 : ℝ) ^ 2 + 0 ^ 2 + 4 ^ 2 = 5 ^ 2 by norm_num]
    exact Real.sqrt_sq (by norm_num)
  funext i
  fin_cases i <;> simp [direction] <;> norm_num at this ⊢ <;> simp [this]

/-! ## C40: Levi-Civita symbol and cross product -/

/-- **C40, symbol.**  The symbol of three axes is `0` if two of them are equal and otherwise the sign of the permutation
`0 ↦ i, 1 ↦ j, 2 ↦ k`; with `first_index` the indices are counted from that number; it is `0` for triples of numbers that
are not all axes. -/
theorem C40_levi_civita (first : ℤ) :
    (∀ p : Equiv.Perm (Fin 3), leviCivita ((p 0).val + first) ((p 1).val + first) ((p 2).val + first) first =
      (Equiv.Perm.sign p : ℤ)) ∧
    (∀ i j k : ℤ, i = j ∨ j = k ∨ i = k → leviCivita i j k first = 0) ∧
    (∀ i j k : ℤ, (∃ a ∈ [i, j, k], a < first ∨ first + 3 ≤ a) → leviCivita i j k first = 0) := by
  refine ⟨fun p => ?_, fun i j k h => ?_, fun i j k h => ?_⟩
  · have h : ∀ p : Equiv.Perm (Fin 3), leviCivita (p 0).val (p 1).val (p 2).val = (Equiv.Perm.sign p : ℤ) := by
      decide +kernel
    rw [← h p]
    unfold leviCivita
    simp
  · unfold leviCivita
    have e1 : [i - first, j - first, k - first] ∉ [[0, 1, 2], [1, 2, 0], [2, 0, 1]] := by simp; omega
    have e2 : [i - first, j - first, k - first] ∉ [[1, 0, 2], [0, 2, 1], [2, 1, 0]] := by simp; omega
    simp only [if_neg e1, if_neg e2]
  · simp only [List.mem_cons, List.not_mem_nil, or_false, exists_eq_or_imp, exists_eq_left] at h
    unfold leviCivita
    have e1 : [i - first, j - first, k - first] ∉ [[0, 1, 2], [1, 2, 0], [2, 0, 1]] := by simp; omega
    have e2 : [i - first, j - first, k - first] ∉ [[1, 0, 2], [0, 2, 1], [2, 1, 0]] := by simp; omega
    simp only [if_neg e1, if_neg e2]

/-- **C40, cross product.**  The cross product agrees with the determinant formula (its scalar product with any vector
`u` is the determinant with rows `u, v, w`), is perpendicular to both arguments and antisymmetric. -/
theorem C40_cross_product {K : Type} [CommRing K] (v w : Fin 3 → K) :
    (∀ u : Fin 3 → K, dotProduct u (crossProduct v w) = (Matrix.of ![u, v, w]).det) ∧
    dotProduct v (crossProduct v w) = 0 ∧ dotProduct w (crossProduct v w) = 0 ∧
    crossProduct w v = -crossProduct v w := by
  rw [crossProduct_eq, crossProduct_eq]
  refine ⟨fun u => ?_, ?_, ?_, ?_⟩
  · rw [Matrix.det_fin_three]
    simp [dotProduct, Fin.sum_univ_three]
    ring
  · simp [dotProduct, Fin.sum_univ_three]; ring
  · simp [dotProduct, Fin.sum_univ_three]; ring
  · funext i
    fin_cases i <;> simp <;> ring

/-- The components. -/
theorem C40_components {K : Type} [Ring K] (v w : Fin 3 → K) :
    crossProduct v w = ![v 1 * w 2 - v 2 * w 1, v 2 * w 0 - v 0 * w 2, v 0 * w 1 - v 1 * w 0] :=
  crossProduct_eq v w

/-! ## C39: `rotation_matrix_from_two_vectors` -/

theorem lagrange (v w : Vec) (hv : v 0 ^ 2 + v 1 ^ 2 + v 2 ^ 2 = 1) (hw : w 0 ^ 2 + w 1 ^ 2 + w 2 ^ 2 = 1) :
    norm3 (crossProduct v w) ^ 2 = 1 - (v 0 * w 0 + v 1 * w 1 + v 2 * w 2) ^ 2 := by
  rw [norm3_sq, crossProduct_eq]
  simp
  grind

theorem rodrigues_onto {v w : Vec} (hv : v 0 ^ 2 + v 1 ^ 2 + v 2 ^ 2 = 1) (hw : w 0 ^ 2 + w 1 ^ 2 + w 2 ^ 2 = 1)
    (hx : crossProduct v w ≠ 0) :
    (rodrigues (direction (crossProduct v w)) (Real.cos (Real.arccos (v 0 * w 0 + v 1 * w 1 + v 2 * w 2)))
      (Real.sin (Real.arccos (v 0 * w 0 + v 1 * w 1 + v 2 * w 2)))).mulVec v = w := by
  have hl := lagrange v w hv hw
  have hn := norm3_ne_zero hx
  set c := v 0 * w 0 + v 1 * w 1 + v 2 * w 2 with hc
  have hc2 : c ^ 2 ≤ 1 := by nlinarith [sq_nonneg (norm3 (crossProduct v w))]
  have hb := abs_le_one_iff_mul_self_le_one.2 (by nlinarith : c * c ≤ 1)
  rw [abs_le] at hb
  rw [Real.cos_arccos hb.1 hb.2, Real.sin_arccos, ← hl, Real.sqrt_sq (norm3_nonneg _), direction_eq]
  generalize hm : norm3 (crossProduct v w) = m at hl hn ⊢
  rw [crossProduct_eq]
  funext i
  fin_cases i <;>
    simp [rodrigues, Matrix.mulVec, dotProduct, Fin.sum_univ_three] <;> field_simp <;> grind

theorem parallel_cases {v w : Vec} (hv : v 0 ^ 2 + v 1 ^ 2 + v 2 ^ 2 = 1) (hw : w 0 ^ 2 + w 1 ^ 2 + w 2 ^ 2 = 1)
    (hx : crossProduct v w = 0) : -v = w ∨ v = w := by
  have hl := lagrange v w hv hw
  rw [hx] at hl
  have h0 : norm3 (0 : Vec) = 0 := by simp [norm3]
  rw [h0] at hl
  have h1 : (v 0 * w 0 + v 1 * w 1 + v 2 * w 2 - 1) * (v 0 * w 0 + v 1 * w 1 + v 2 * w 2 + 1) = 0 := by linarith
  have key : ∀ a b c d e f : ℝ, (a - d) ^ 2 + (b - e) ^ 2 + (c - f) ^ 2 = 0 → a = d ∧ b = e ∧ c = f := by
    intro a b c d e f h
    have k1 := sq_nonneg (a - d)
    have k2 := sq_nonneg (b - e)
    have k3 := sq_nonneg (c - f)
    have e1 : (a - d) ^ 2 = 0 := by linarith
    have e2 : (b - e) ^ 2 = 0 := by linarith
    have e3 : (c - f) ^ 2 = 0 := by linarith
    exact ⟨sub_eq_zero.1 (pow_eq_zero_iff two_ne_zero |>.1 e1), sub_eq_zero.1 (pow_eq_zero_iff two_ne_zero |>.1 e2),
      sub_eq_zero.1 (pow_eq_zero_iff two_ne_zero |>.1 e3)⟩
  rcases mul_eq_zero.1 h1 with h | h
  · right
    obtain ⟨a, b, c⟩ := key (v 0) (v 1) (v 2) (w 0) (w 1) (w 2) (by nlinarith)
    funext i; fin_cases i <;> simpa
  · left
    obtain ⟨a, b, c⟩ := key (-v 0) (-v 1) (-v 2) (w 0) (w 1) (w 2) (by nlinarith)
    funext i; fin_cases i <;> simpa

theorem chooseRotation_ok {accuracy : ℝ} (hacc : 0 < accuracy) {v w : Vec} (hv : v 0 ^ 2 + v 1 ^ 2 + v 2 ^ 2 = 1)
    (hw : w 0 ^ 2 + w 1 ^ 2 + w 2 ^ 2 = 1) (hne : -v ≠ w) :
    ∃ Q, chooseRotation accuracy v w = .ok (Q, false) ∧ IsRotation Q ∧ Q.mulVec v = w := by
  unfold chooseRotation
  simp only
  rw [if_neg (fun h => hne h.2)]
  by_cases hx : crossProduct v w = 0
  · have hvw : v = w := (parallel_cases hv hw hx).resolve_left hne
    rw [if_pos ⟨hx, hvw⟩]
    refine ⟨1, rfl, ⟨by simp, by simp, by simp⟩, ?_⟩
    rw [Matrix.one_mulVec, hvw]
  · rw [if_neg (fun h => hx h.1)]
    have hu := direction_unit hx
    have honto := rodrigues_onto hv hw hx
    refine ⟨_, ?_, rodrigues_rotation hu (Real.cos_sq_add_sin_sq _), honto⟩
    unfold rotateOnto
    rw [rotationMatrix3_float hx, ok_bind]
    have hn1 : norm3 (direction (crossProduct v w)) = 1 := by
      unfold norm3
      rw [hu, Real.sqrt_one]
    rw [if_neg (by rw [hn1]; norm_num), if_pos]
    intro i
    rw [honto]
    simpa using hacc

/-- **C39 (partial: the vectors are not antiparallel).**  For all nonzero vectors whose directions are not opposite, the
returned matrix is, up to the rounding error `ε` of its entries, a proper rotation taking the direction of `v` to the
direction of `w`, and no warning is given.  What is missing is the antiparallel case, where the code is wrong
(`C39_antiparallel_broken`). -/
theorem C39_rotation_partial {ε : ℝ} (rnd : Rounding ε) {v w : Vec} (hv : v ≠ 0) (hw : w ≠ 0)
    (hne : direction w ≠ -direction v) {accuracy : ℝ} (hacc : 0 < accuracy) :
    ∃ A Q, rotationFromTwoVectors rnd.run v w accuracy = .ok (A, false) ∧ IsRotation Q ∧
      Q.mulVec (direction v) = direction w ∧ ∀ i j, |A i j - Q i j| ≤ ε := by
  obtain ⟨Q, h1, h2, h3⟩ := chooseRotation_ok hacc (direction_unit hv) (direction_unit hw) (fun h => hne h.symm)
  refine ⟨Q.map rnd.run, Q, ?_, h2, h3, fun i j => rnd.err _⟩
  unfold rotationFromTwoVectors
  rw [if_neg (by simp [norm3_ne_zero hv, norm3_ne_zero hw])]
  rw [direction_eq, direction_eq] at h1
  rw [h1]
  rfl

/-- Without rounding the returned matrix is exactly such a rotation. -/
theorem C39_exact_partial {v w : Vec} (hv : v ≠ 0) (hw : w ≠ 0) (hne : direction w ≠ -direction v) {accuracy : ℝ}
    (hacc : 0 < accuracy) :
    ∃ A, rotationFromTwoVectors id v w accuracy = .ok (A, false) ∧ IsRotation A ∧
      A.mulVec (direction v) = direction w := by
  obtain ⟨A, Q, h1, h2, h3, h4⟩ := C39_rotation_partial ⟨id, fun x => by simp, fun _ => rfl⟩ hv hw hne hacc (ε := 0)
  have : A = Q := by
    ext i j
    have := h4 i j
    have := abs_nonpos_iff.1 this
    linarith
  subst this
  exact ⟨A, h1, h2, h3⟩

/-- **C39 fails for antiparallel vectors**: the result is minus the identity, which has determinant `-1`: an inversion,
not a rotation (and no warning is given). -/
theorem C39_antiparallel_broken {ε : ℝ} (rnd : Rounding ε) {v w : Vec} (hv : v ≠ 0) (hw : w ≠ 0)
    (hanti : direction w = -direction v) (accuracy : ℝ) :
    ∃ A, rotationFromTwoVectors rnd.run v w accuracy = .ok (A, false) ∧ A = -1 ∧ A.det = -1 ∧ ¬ IsRotation A := by
  have hdet : (-1 : Mat).det = -1 := by
    rw [Matrix.det_fin_three]; simp
  have hx : crossProduct (direction v) (direction w) = 0 := by
    rw [hanti, crossProduct_eq]
    funext i
    fin_cases i <;> simp <;> ring
  refine ⟨-1, ?_, rfl, hdet, fun h => ?_⟩
  · unfold rotationFromTwoVectors
    rw [if_neg (by simp [norm3_ne_zero hv, norm3_ne_zero hw])]
    have : chooseRotation accuracy (fun i => v i / norm3 v) (fun i => w i / norm3 w) = .ok (-1, false) := by
      unfold chooseRotation
      simp only
      rw [if_pos ⟨hx, hanti.symm⟩]
    rw [this, ok_bind]
    show Except.ok _ = _
    congr 2
    ext i j
    have h0 := rnd.int 0
    have h1 := rnd.int (-1)
    push_cast at h0 h1
    fin_cases i <;> fin_cases j <;> simp [Matrix.map_apply, h0, h1]
  · have := h.2.2
    rw [hdet] at this
    norm_num at this

/-- Opposite vectors exist among the inputs: `(1, 0, 0)` and `(-2, 0, 0)`. -/
example : (![1, 0, 0] : Vec) ≠ 0 ∧ (![-2, 0, 0] : Vec) ≠ 0 ∧ direction ![-2, 0, 0] = -direction ![1, 0, 0] := by
  refine ⟨fun e => by simpa using congrFun e 0, fun e => by simpa using congrFun e 0, ?_⟩
  funext i
  fin_cases i <;> simp [direction]

/-- And vectors that are not opposite: `(1, 0, 0)` and `(0, 2, 0)`. -/
example : (![1, 0, 0] : Vec) ≠ 0 ∧ (![0, 2, 0] : Vec) ≠ 0 ∧ direction ![0, 2, 0] ≠ -direction ![1, 0, 0] := by
  refine ⟨fun e => by simpa using congrFun e 0, fun e => by simpa using congrFun e 1, fun e => ?_⟩
  have := congrFun e 0
  simp [direction] at this

/-- Rounding to the nearest multiple of `10^-16` is a rounding with error `10^-16 / 2`. -/
noncomputable example : Rounding (1 / 2 / 10 ^ 16) where
  run x := (round (x * 10 ^ 16) : ℤ) / 10 ^ 16
  err x := by
    have h := abs_sub_round (x * 10 ^ 16)
    have : ((round (x * 10 ^ 16) : ℤ) : ℝ) / 10 ^ 16 - x = -((x * 10 ^ 16 - round (x * 10 ^ 16)) / 10 ^ 16) := by
      field_simp
      ring
    rw [this, abs_neg, abs_div, abs_of_pos (show (0 : ℝ) < 10 ^ 16 by positivity)]
    exact div_le_div_of_nonneg_right h (by positivity)
  int n := by
    have : round ((n : ℝ) * 10 ^ 16) = n * 10 ^ 16 := by
      rw [show ((n : ℝ) * 10 ^ 16) = ((n * 10 ^ 16 : ℤ) : ℝ) by push_cast; ring]
      exact round_intCast _
    rw [this]
    push_cast
    field_simp
    norm_num

/-- A zero vector gives no finite matrix. -/
theorem C39_zero_vector (rnd : ℝ → ℝ) (v : Vec) (accuracy : ℝ) :
    rotationFromTwoVectors rnd 0 v accuracy = .error .nonFinite ∧
    rotationFromTwoVectors rnd v 0 accuracy = .error .nonFinite := by
  have h0 : norm3 (0 : Vec) = 0 := by simp [norm3]
  constructor <;> (unfold rotationFromTwoVectors; rw [if_pos (by simp [h0])])

/-! ### Accuracies that are not positive -/

theorem rodrigues_away {v w : Vec} (hv : v 0 ^ 2 + v 1 ^ 2 + v 2 ^ 2 = 1) (hw : w 0 ^ 2 + w 1 ^ 2 + w 2 ^ 2 = 1)
    (hx : crossProduct v w ≠ 0) :
    (rodrigues (direction (crossProduct v w)) (Real.cos (-Real.arccos (v 0 * w 0 + v 1 * w 1 + v 2 * w 2)))
      (Real.sin (-Real.arccos (v 0 * w 0 + v 1 * w 1 + v 2 * w 2)))).mulVec v =
      fun i => 2 * (v 0 * w 0 + v 1 * w 1 + v 2 * w 2) * v i - w i := by
  have hl := lagrange v w hv hw
  have hn := norm3_ne_zero hx
  set c := v 0 * w 0 + v 1 * w 1 + v 2 * w 2 with hc
  have hc2 : c ^ 2 ≤ 1 := by nlinarith [sq_nonneg (norm3 (crossProduct v w))]
  have hb := abs_le_one_iff_mul_self_le_one.2 (by nlinarith : c * c ≤ 1)
  rw [abs_le] at hb
  rw [Real.cos_neg, Real.sin_neg, Real.cos_arccos hb.1 hb.2, Real.sin_arccos, ← hl, Real.sqrt_sq (norm3_nonneg _), direction_eq]
  generalize hm : norm3 (crossProduct v w) = m at hl hn ⊢
  rw [crossProduct_eq]
  funext i
  fin_cases i <;>
    simp [rodrigues, Matrix.mulVec, dotProduct, Fin.sum_univ_three] <;> field_simp <;> grind

theorem direction_direction {v : Vec} (hv : v ≠ 0) : (fun i => direction v i / norm3 (direction v)) = direction v := by
  have hn1 : norm3 (direction v) = 1 := by
    unfold norm3
    rw [direction_unit hv, Real.sqrt_one]
  rw [hn1]
  funext i
  simp

open Classical in
/-- **C39, accuracies that are not positive.**  If the accuracy is not positive and the directions are not parallel, the returned matrix
is, up to rounding, the rotation by the opposite angle: it takes the direction of `v` to the mirror image of the direction of `w`, which
is another direction.  A warning is given exactly if some component of the image exceeds that of the direction of `w` by the accuracy or
more. -/
theorem C39_accuracy {ε : ℝ} (rnd : Rounding ε) {v w : Vec} (hv : v ≠ 0) (hw : w ≠ 0)
    (hne : direction w ≠ -direction v) (hne' : direction w ≠ direction v) {accuracy : ℝ} (hacc : accuracy ≤ 0) :
    ∃ A Q warned, rotationFromTwoVectors rnd.run v w accuracy = .ok (A, warned) ∧ IsRotation Q ∧ (∀ i j, |A i j - Q i j| ≤ ε) ∧
      (Q.mulVec (direction v) = fun i => 2 * (direction v 0 * direction w 0 + direction v 1 * direction w 1 + direction v 2 * direction w 2) *
        direction v i - direction w i) ∧
      Q.mulVec (direction v) ≠ direction w ∧
      (warned = true ↔ ∃ i, accuracy ≤ Q.mulVec (direction v) i - direction w i) := by
  have uv := direction_unit hv
  have uw := direction_unit hw
  have hx : crossProduct (direction v) (direction w) ≠ 0 := by
    intro h
    rcases parallel_cases uv uw h with h | h
    · exact hne h.symm
    · exact hne' h.symm
  have hu := direction_unit hx
  have hdd := direction_direction hx
  have hn1 : norm3 (direction (crossProduct (direction v) (direction w))) = 1 := by
    unfold norm3
    rw [hu, Real.sqrt_one]
  have hne0 : direction (crossProduct (direction v) (direction w)) ≠ 0 := by
    intro h
    rw [h] at hn1
    simp [norm3] at hn1
  set θ := Real.arccos (direction v 0 * direction w 0 + direction v 1 * direction w 1 + direction v 2 * direction w 2) with hθ
  have haway := rodrigues_away uv uw hx
  rw [← hθ] at haway
  have hchoose : chooseRotation accuracy (direction v) (direction w) =
      .ok (rodrigues (direction (crossProduct (direction v) (direction w))) (Real.cos (-θ)) (Real.sin (-θ)),
        decide (¬ precise accuracy (rodrigues (direction (crossProduct (direction v) (direction w))) (Real.cos (-θ)) (Real.sin (-θ)))
          (direction v) (direction w))) := by
    unfold chooseRotation
    simp only
    rw [if_neg (fun h => hx h.1), if_neg (fun h => hx h.1)]
    unfold rotateOnto
    rw [rotationMatrix3_float hx, ok_bind, if_neg (by rw [hn1]; norm_num), if_neg]
    · unfold retry
      simp only
      rw [hdd, rotationMatrix3_float hne0, ok_bind, direction_eq, hdd]
      rfl
    · intro h
      have := h 0
      simp only at this
      rw [rodrigues_onto uv uw hx] at this
      linarith
  refine ⟨(rodrigues (direction (crossProduct (direction v) (direction w))) (Real.cos (-θ)) (Real.sin (-θ))).map rnd.run, _,
    decide (¬ precise accuracy (rodrigues (direction (crossProduct (direction v) (direction w))) (Real.cos (-θ)) (Real.sin (-θ)))
          (direction v) (direction w)), ?_,
    rodrigues_rotation hu (Real.cos_sq_add_sin_sq _), fun i j => rnd.err _, haway, ?_, ?_⟩
  · unfold rotationFromTwoVectors
    rw [if_neg (by simp [norm3_ne_zero hv, norm3_ne_zero hw])]
    show (do let r ← chooseRotation accuracy (direction v) (direction w); _) = _
    rw [hchoose]
    rfl
  · rw [haway]
    intro h
    have h3 : ∀ i, direction w i = (direction v 0 * direction w 0 + direction v 1 * direction w 1 + direction v 2 * direction w 2) * direction v i := by
      intro i
      have := congrFun h i
      linarith
    apply hx
    rw [crossProduct_eq]
    generalize direction v 0 * direction w 0 + direction v 1 * direction w 1 + direction v 2 * direction w 2 = c at h3
    funext i
    fin_cases i <;> simp [h3] <;> ring
  · rw [decide_eq_true_iff]
    unfold precise
    push Not
    rfl

/-- A wrong matrix without a warning: with the accuracy 0, the rotation from (1, -1, 0) to (1, 1, 1) takes the first direction to the
opposite of the second. -/
theorem C39_accuracy_broken : ∃ A : Mat, rotationFromTwoVectors id ![1, -1, 0] ![1, 1, 1] 0 = .ok (A, false) ∧ IsRotation A ∧
    A.mulVec (direction ![1, -1, 0]) = -direction ![1, 1, 1] := by
  have hv : (![1, -1, 0] : Vec) ≠ 0 := fun h => by simpa using congrFun h 0
  have hw : (![1, 1, 1] : Vec) ≠ 0 := fun h => by simpa using congrFun h 0
  have pw : 0 < norm3 ![1, 1, 1] := lt_of_le_of_ne (norm3_nonneg _) (norm3_ne_zero hw).symm
  have e0 : direction ![1, 1, 1] 0 ≠ 0 := by simp [direction_eq, pw.ne']
  have e2 : direction ![1, 1, 1] 2 ≠ 0 := by simp [direction_eq, pw.ne']
  have v2 : direction ![1, -1, 0] 2 = 0 := by simp [direction_eq]
  obtain ⟨A, Q, warned, h1, h2, h3, h4, h5, h6⟩ := C39_accuracy ⟨id, fun x => by simp, fun _ => rfl⟩ hv hw (ε := 0)
    (fun h => e2 (by rw [h]; simp [v2])) (fun h => e2 (by rw [h]; exact v2)) (le_refl 0)
  have hA : A = Q := by
    ext i j
    have := abs_nonpos_iff.1 (h3 i j)
    linarith
  have h7 : Q.mulVec (direction ![1, -1, 0]) = -direction ![1, 1, 1] := by
    rw [h4]
    funext i
    have : direction ![1, -1, 0] 0 * direction ![1, 1, 1] 0 + direction ![1, -1, 0] 1 * direction ![1, 1, 1] 1 +
        direction ![1, -1, 0] 2 * direction ![1, 1, 1] 2 = 0 := by
      simp [direction_eq]
      ring
    rw [this]
    simp
  have h8 : warned = false := by
    by_contra hc
    obtain ⟨i, hi⟩ := h6.1 (by simpa using hc)
    rw [h7] at hi
    have : 0 < direction ![1, 1, 1] i := by
      rw [direction_eq]
      fin_cases i <;> simpa using pw
    simp only [Pi.neg_apply] at hi
    linarith
  subst hA
  exact ⟨A, by rw [← h8]; exact h1, h2, h7⟩

end Shgpy
