import Verif.Py.Basic
import Mathlib.Analysis.SpecialFunctions.Trigonometric.Inverse
import Mathlib.Data.Matrix.Basic
import Mathlib.LinearAlgebra.Matrix.Notation

/-!
# Model of the rotation matrices of `shgpy/core/utilities.py` (lines 155-178 and 208-289)

Numbers are exact reals; a division by a norm that is zero (which gives `nan` entries) is `Err.nonFinite`.
-/

namespace Shgpy

/-- A vector with three components. -/
abbrev Vec := Fin 3 → ℝ
/-- A 3x3 matrix. -/
abbrev Mat := Matrix (Fin 3) (Fin 3) ℝ

/-- `_norm`, utilities.py:231-232. -/
noncomputable def norm3 (v : Vec) : ℝ := Real.sqrt (v 0 ^ 2 + v 1 ^ 2 + v 2 ^ 2)

/-- Whether the axis is stored with a floating point or an integer dtype.  (A Python list is like `float`: the divided
numbers replace its elements.) -/
inductive AxisKind
  | float
  | int
  deriving DecidableEq

/-- Storing a number: an integer array truncates towards zero. -/
noncomputable def AxisKind.store : AxisKind → ℝ → ℝ
  | .float, x => x
  | .int, x => if 0 ≤ x then (⌊x⌋ : ℝ) else (⌈x⌉ : ℝ)

/-- The matrix of utilities.py:171-178 for the components of the axis, `c = np.cos(t)` and `s = np.sin(t)`. -/
def rodrigues (n : Vec) (c s : ℝ) : Mat :=
  !![c + n 0 ^ 2 * (1 - c), n 0 * n 1 * (1 - c) - n 2 * s, n 0 * n 2 * (1 - c) + n 1 * s;
     n 1 * n 0 * (1 - c) + n 2 * s, c + n 1 ^ 2 * (1 - c), n 1 * n 2 * (1 - c) - n 0 * s;
     n 2 * n 0 * (1 - c) - n 1 * s, n 2 * n 1 * (1 - c) + n 0 * s, c + n 2 ^ 2 * (1 - c)]

/-- `rotation_matrix3`, utilities.py:155-178: the matrix, and the passed axis afterwards. -/
noncomputable def rotationMatrix3 (k : AxisKind) (n : Vec) (t : ℝ) : Except Err (Mat × Vec) :=
  if norm3 n = 0 then .error .nonFinite
  else
    let n' : Vec := fun i => k.store (n i / norm3 n)
    .ok (rodrigues n' (Real.cos t) (Real.sin t), n')

/-- `_levi_civita`, utilities.py:208-219. -/
def leviCivita (i j k : ℤ) (first : ℤ := 0) : ℤ :=
  let idx := [i - first, j - first, k - first]
  let ans := 0
  let ans := if idx ∈ [[0, 1, 2], [1, 2, 0], [2, 0, 1]] then 1 else ans
  if idx ∈ [[1, 0, 2], [0, 2, 1], [2, 1, 0]] then -1 else ans

/-- One component of `_cross_product`, utilities.py:222-228: the two inner loops. -/
def crossComponent {K : Type} [Ring K] (v1 v2 : Fin 3 → K) (i : Fin 3) : K :=
  (List.finRange 3).foldl (fun (acc : K) (j : Fin 3) =>
    (List.finRange 3).foldl (fun (acc : K) (k : Fin 3) =>
      acc + (leviCivita i.val j.val k.val : K) * v1 j * v2 k) acc) 0

/-- `_cross_product`, utilities.py:222-228. -/
def crossProduct {K : Type} [Ring K] (v1 v2 : Fin 3 → K) : Fin 3 → K := fun i => crossComponent v1 v2 i

/-- `[np.dot(ans, v_initial)[i] - v_final[i] < accuracy for i in range(3)]`, utilities.py:278 and 281. -/
def precise (accuracy : ℝ) (ans : Mat) (v w : Vec) : Prop := ∀ i, ans.mulVec v i - w i < accuracy

open Classical in
/-- The second attempt of utilities.py:279-283, with the angle reversed. -/
noncomputable def retry (accuracy : ℝ) (v w axis : Vec) (angle : ℝ) : Except Err (Mat × Bool) := do
  let r ← rotationMatrix3 .float axis (-angle)
  return (r.1, decide (¬ precise accuracy r.1 v w))

open Classical in
/-- The branch of utilities.py:273-283 for vectors that are not parallel: the matrix and whether a warning is given. -/
noncomputable def rotateOnto (accuracy : ℝ) (v w axis : Vec) (angle : ℝ) : Except Err (Mat × Bool) := do
  let r ← rotationMatrix3 .float axis angle
  if norm3 r.2 = 0 then .error .nonFinite
  else if precise accuracy r.1 v w then .ok (r.1, false)
  else retry accuracy v w (fun i => r.2 i / norm3 r.2) angle

open Classical in
/-- The choice of utilities.py:264-283, for unit vectors. -/
noncomputable def chooseRotation (accuracy : ℝ) (v w : Vec) : Except Err (Mat × Bool) :=
  let cosTheta := v 0 * w 0 + v 1 * w 1 + v 2 * w 2
  let angle := Real.arccos cosTheta
  let axis := crossProduct v w
  if axis = 0 ∧ -v = w then .ok (-1, false)
  else if axis = 0 ∧ v = w then .ok (1, false)
  else rotateOnto accuracy v w axis angle

open Classical in
/-- `rotation_matrix_from_two_vectors`, utilities.py:239-289: the matrix and whether a warning is given.  `rnd` is
`round(x, ndigits)`. -/
noncomputable def rotationFromTwoVectors (rnd : ℝ → ℝ) (v w : Vec) (accuracy : ℝ) : Except Err (Mat × Bool) :=
  if norm3 v = 0 ∨ norm3 w = 0 then .error .nonFinite
  else do
    let r ← chooseRotation accuracy (fun i => v i / norm3 v) (fun i => w i / norm3 w)
    return (r.1.map rnd, r.2)

end Shgpy
