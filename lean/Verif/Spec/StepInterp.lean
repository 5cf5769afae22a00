import Verif.Spec.Unequal
import Verif.Model.StepInterp

/-!
# Specification vocabulary for the interpolations that return measured values (C142)
-/

namespace Shgpy.Spec

/-- The measured point `p` is the one that the interpolation of this kind should use at the angle `x`: the nearest; the last that is not behind
`x`; the first that is not before `x`. -/
def Chosen : StepKind → List (ℝ × ℝ) → ℝ → ℝ × ℝ → Prop
  | .nearest, pts, x, p => p ∈ pts ∧ ∀ q ∈ pts, |x - p.1| ≤ |x - q.1|
  | .previous, pts, x, p => p ∈ pts ∧ p.1 ≤ x ∧ ∀ q ∈ pts, q.1 ≤ x → q.1 ≤ p.1
  | .next, pts, x, p => p ∈ pts ∧ x ≤ p.1 ∧ ∀ q ∈ pts, x ≤ q.1 → p.1 ≤ q.1

/-- Every one of the equally spaced angles has a measured angle within `d`: in any direction; at or before it; at or behind it. -/
def Within : StepKind → ℝ → List (ℝ × ℝ) → Prop
  | .nearest, d, pts => ∀ j < pts.length, ∃ p ∈ pts, |gridAngle pts.length j - p.1| ≤ d
  | .previous, d, pts => ∀ j < pts.length, ∃ p ∈ pts, p.1 ≤ gridAngle pts.length j ∧ gridAngle pts.length j ≤ p.1 + d
  | .next, d, pts => ∀ j < pts.length, ∃ p ∈ pts, gridAngle pts.length j ≤ p.1 ∧ p.1 ≤ gridAngle pts.length j + d

/-- The sum of `|m| |c_m|`: no derivative of the pattern with the components `c m` is larger. -/
noncomputable def steepness (M : ℕ) (c : ℤ → ℂ) : ℝ := ∑ m ∈ Finset.Icc (-(M : ℤ)) M, |(m : ℝ)| * ‖c m‖

end Shgpy.Spec
