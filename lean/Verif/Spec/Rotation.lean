import Verif.Model.Rotation
import Mathlib.LinearAlgebra.Matrix.Determinant.Basic
import Mathlib.LinearAlgebra.Matrix.Trace
import Mathlib.GroupTheory.Perm.Sign

/-!
# Specification vocabulary for rotations
-/

namespace Shgpy.Spec

/-- A proper rotation: orthogonal with determinant one. -/
def IsRotation (A : Mat) : Prop := A * A.transpose = 1 ∧ A.transpose * A = 1 ∧ A.det = 1

/-- The unit vector in the direction of `v`. -/
noncomputable def direction (v : Vec) : Vec := fun i => v i / Real.sqrt (v 0 ^ 2 + v 1 ^ 2 + v 2 ^ 2)

/-- Rounding with an error of at most `ε` that leaves integers alone. -/
structure Rounding (ε : ℝ) where
  run : ℝ → ℝ
  err : ∀ x, |run x - x| ≤ ε
  int : ∀ n : ℤ, run n = n

/-- The vector with the integer components `m`. -/
def intVec (m : Fin 3 → ℤ) : Vec := fun i => m i

/-- All components but one are zero. -/
def AlongCoordinateAxis (n : Vec) : Prop := ∃ i, ∀ j, j ≠ i → n j = 0

end Shgpy.Spec
