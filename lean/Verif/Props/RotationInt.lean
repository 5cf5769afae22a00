import Verif.Props.RotationSymb

/-!
# Property C38 for axes given as arrays of integer dtype
-/

set_option linter.unusedSectionVars false
set_option linter.unusedSimpArgs false

namespace Shgpy
open Spec

theorem store_int_zero {x : ℝ} (h : |x| < 1) : AxisKind.store .int x = 0 := by
  rw [abs_lt] at h
  unfold AxisKind.store
  simp only
  split
  · rename_i h0
    rw [Int.floor_eq_zero_iff.2 ⟨h0, h.2⟩]
    simp
  · rename_i h0
    rw [Int.ceil_eq_zero_iff.2 ⟨h.1, by linarith⟩]
    simp

theorem store_int_int (m : ℤ) : AxisKind.store .int m = m := by
  unfold AxisKind.store
  simp

theorem sq_lt_norm3 {n : Vec} {i j : Fin 3} (hij : j ≠ i) (hj : n j ≠ 0) : |n i / norm3 n| < 1 := by
  have hn : n ≠ 0 := fun e => hj (by rw [e]; rfl)
  have h0 := norm3_ne_zero hn
  have hp : 0 < norm3 n := lt_of_le_of_ne (norm3_nonneg n) h0.symm
  rw [abs_div, abs_of_pos hp, div_lt_one hp]
  apply abs_lt_of_sq_lt_sq _ hp.le
  rw [norm3_sq]
  have hj2 : 0 < n j ^ 2 := by positivity
  have a := sq_nonneg (n 0)
  have b := sq_nonneg (n 1)
  have c := sq_nonneg (n 2)
  fin_cases i <;> fin_cases j <;> simp at hij hj2 ⊢ <;> nlinarith

theorem not_along {n : Vec} (h : ¬ AlongCoordinateAxis n) (i : Fin 3) : ∃ j, j ≠ i ∧ n j ≠ 0 := by
  by_contra hc
  push Not at hc
  exact h ⟨i, hc⟩

theorem along_store {n : Vec} (hn : n ≠ 0) (h : AlongCoordinateAxis n) (i : Fin 3) :
    AxisKind.store .int (n i / norm3 n) = n i / norm3 n := by
  have h0 := norm3_ne_zero hn
  obtain ⟨k, hk⟩ := h
  by_cases hik : i = k
  · subst hik
    have hnorm : norm3 n = |n i| := by
      rw [← Real.sqrt_sq_eq_abs]
      unfold norm3
      congr 1
      have h1 := hk 0
      have h2 := hk 1
      have h3 := hk 2
      fin_cases i <;> simp at h1 h2 h3 ⊢ <;> simp [h1, h2, h3]
    have hi : n i ≠ 0 := by
      intro e
      rw [e] at hnorm
      simp at hnorm
      exact h0 hnorm
    rw [hnorm]
    rcases lt_or_gt_of_ne hi with hlt | hgt
    · rw [abs_of_neg hlt, div_neg, div_self hi]
      simpa using store_int_int (-1)
    · rw [abs_of_pos hgt, div_self hi]
      simpa using store_int_int 1
  · rw [hk i hik, zero_div]
    simpa using store_int_int 0

theorem rodrigues_zero (c s : ℝ) : rodrigues 0 c s = c • (1 : Mat) := by
  ext i j
  fin_cases i <;> fin_cases j <;> simp [rodrigues]

theorem cos_smul_rotation {c : ℝ} : IsRotation (c • (1 : Mat)) ↔ c = 1 := by
  constructor
  · rintro ⟨h, -, h3⟩
    have h1 := congrFun (congrFun h 0) 0
    rw [Matrix.det_fin_three] at h3
    simp [Matrix.mul_apply, Fin.sum_univ_three] at h1 h3
    have : c * c * c = c := by rw [h1, one_mul]
    linarith
  · rintro rfl
    simp [IsRotation]

/-- **C38, integer arrays along a coordinate axis**: the rotation is the same as for a float array. -/
theorem C38_integer_coordinate_axis {m : Fin 3 → ℤ} (hm : intVec m ≠ 0) (h : AlongCoordinateAxis (intVec m)) (t : ℝ) :
    rotationMatrix3 .int (intVec m) t = rotationMatrix3 .float (intVec m) t := by
  unfold rotationMatrix3
  simp only [along_store hm h]
  rfl

/-- **C38, all other integer arrays**: the stored axis becomes zero and the result is `cos t` times the identity whatever the
axis, which is a rotation only if `cos t = 1`. -/
theorem C38_integer_axis {m : Fin 3 → ℤ} (h : ¬ AlongCoordinateAxis (intVec m)) (t : ℝ) :
    ∃ A, rotationMatrix3 .int (intVec m) t = .ok (A, 0) ∧ A = Real.cos t • (1 : Mat) ∧
      (IsRotation A ↔ Real.cos t = 1) := by
  obtain ⟨j, -, hj⟩ := not_along h 0
  have hn : intVec m ≠ 0 := fun e => hj (by rw [e]; rfl)
  have hz : (fun i => AxisKind.store .int (intVec m i / norm3 (intVec m))) = (0 : Vec) := by
    funext i
    obtain ⟨k, hki, hk⟩ := not_along h i
    exact store_int_zero (sq_lt_norm3 hki hk)
  refine ⟨_, ?_, rfl, cos_smul_rotation⟩
  unfold rotationMatrix3
  rw [if_neg (norm3_ne_zero hn)]
  simp only [hz, rodrigues_zero]

/-- **C38, integer arrays**: for which integer axes and angles `rotation_matrix3` returns a rotation. -/
theorem C38_integer_rotation_iff {m : Fin 3 → ℤ} (hm : intVec m ≠ 0) (t : ℝ) :
    ∃ A n', rotationMatrix3 .int (intVec m) t = .ok (A, n') ∧
      (IsRotation A ↔ AlongCoordinateAxis (intVec m) ∨ Real.cos t = 1) := by
  by_cases h : AlongCoordinateAxis (intVec m)
  · obtain ⟨A, n', h1, h2, -⟩ := C38_rotation_partial hm t
    exact ⟨A, n', by rw [C38_integer_coordinate_axis hm h, h1], by simp [h, h2]⟩
  · obtain ⟨A, h1, -, h2⟩ := C38_integer_axis h t
    exact ⟨A, 0, h1, by simp [h, h2]⟩

theorem store_int_pyInt (x : ℝ) : AxisKind.store .int x = (pyInt x : ℝ) := by
  unfold AxisKind.store pyInt
  simp only
  split <;> simp

theorem storeSymbInt_ok {m : Fin 3 → ℤ} (hm : intVec m ≠ 0) (i : Fin 3) :
    storeSymbInt m i = .ok (pyInt (intVec m i / norm3 (intVec m))) := by
  have hv : ∀ i, (SymE.num (m i : ℚ)).eval (fun _ => 0) = some (intVec m i) := by
    intro i
    simp [SymE.eval, intVec]
  have hN := normSymb_eval (n := fun i => SymE.num (m i)) hv
  unfold storeSymbInt
  rw [SymE.eval, hv, hN]
  simp [norm3_ne_zero hm]

theorem storeSymbInt_zero {m : Fin 3 → ℤ} (hm : intVec m = 0) (i : Fin 3) : storeSymbInt m i = .error .typeError := by
  have hv : ∀ i, (SymE.num (m i : ℚ)).eval (fun _ => 0) = some (intVec m i) := by
    intro i
    simp [SymE.eval, intVec]
  have hN := normSymb_eval (n := fun i => SymE.num (m i)) hv
  unfold storeSymbInt
  rw [SymE.eval, hv, hN, hm]
  simp [norm3]

/-- **C38, `rotation_matrix3symb` with an integer array** truncates in the same way: under all values of the symbols in the angle,
the values of the entries are the matrix `rotation_matrix3` calculates for the same array, and the passed array is changed in the
same way.  A zero axis raises a `TypeError`. -/
theorem C38_symbolic_integer {m : Fin 3 → ℤ} {t : SymE} {ν : Sym → ℝ} {τ : ℝ} (ht : t.eval ν = some τ) :
    (intVec m = 0 → rotationMatrix3symbInt m t = .error .typeError) ∧
    (intVec m ≠ 0 → ∃ E n' A, rotationMatrix3symbInt m t = .ok (E, n') ∧ (∀ i j, (E i j).eval ν = some (A i j)) ∧
      rotationMatrix3 .int (intVec m) τ = .ok (A, intVec n')) := by
  constructor
  · intro hm
    unfold rotationMatrix3symbInt
    rw [storeSymbInt_zero hm]
    rfl
  · intro hm
    have hs := storeSymbInt_ok hm
    generalize hk : (fun i => pyInt (intVec m i / norm3 (intVec m))) = k at hs
    have hk' : ∀ i, pyInt (intVec m i / norm3 (intVec m)) = k i := fun i => congrFun hk i
    simp only [hk'] at hs
    refine ⟨rodriguesSymb ![.num (k 0), .num (k 1), .num (k 2)] t, ![k 0, k 1, k 2],
      rodrigues (intVec k) (Real.cos τ) (Real.sin τ), ?_, ?_, ?_⟩
    · unfold rotationMatrix3symbInt
      rw [hs, hs, hs]
      rfl
    · intro i j
      fin_cases i <;> fin_cases j <;>
        simp [rodriguesSymb, SymE.oneMinus, SymE.eval, ht, rodrigues, intVec]
    · have h3 : (![k 0, k 1, k 2] : Fin 3 → ℤ) = k := by
        funext i
        fin_cases i <;> rfl
      have h4 : (fun i => AxisKind.store .int (intVec m i / norm3 (intVec m))) = intVec k := by
        funext i
        rw [store_int_pyInt, hk']
        rfl
      unfold rotationMatrix3
      rw [if_neg (norm3_ne_zero hm), h3]
      simp only [h4]

/-- The axis `(0, -2, 0)` is along a coordinate axis, `(1, 0, -1)` is not. -/
example : AlongCoordinateAxis (intVec ![0, -2, 0]) ∧ intVec ![0, -2, 0] ≠ 0 ∧
    ¬ AlongCoordinateAxis (intVec ![1, 0, -1]) ∧ intVec ![1, 0, -1] ≠ 0 := by
  refine ⟨⟨1, fun j hj => ?_⟩, fun e => ?_, ?_, fun e => ?_⟩
  · fin_cases j <;> simp [intVec] at hj ⊢
  · simpa [intVec] using congrFun e 1
  · rintro ⟨i, hi⟩
    have h0 := hi 0
    have h2 := hi 2
    fin_cases i <;> simp [intVec] at h0 h2
  · simpa [intVec] using congrFun e 0

end Shgpy
