import Verif.Spec.Unequal
import Mathlib.Analysis.Calculus.ContDiff.Defs

/-!
# Specification vocabulary for cubic interpolation (C137)
-/

namespace Shgpy.Spec

/-- No two successive angles are nearer to each other than `h / ρ`. -/
def Spread (h ρ : ℝ) (pts : List (ℝ × ℝ)) : Prop := ∀ i p q, pts[i]? = some p → pts[i + 1]? = some q → h ≤ ρ * (q.1 - p.1)

/-- The sum of `m⁴ |c_m|`: no fourth derivative of the pattern with the components `c m` is larger. -/
noncomputable def fourth (M : ℕ) (c : ℤ → ℂ) : ℝ := ∑ m ∈ Finset.Icc (-(M : ℤ)) M, (m : ℝ) ^ 4 * ‖c m‖

/-- On `s` the function is a polynomial of degree three at most. -/
def CubicOn (s : Set ℝ) (f : ℝ → ℝ) : Prop := ∃ a b c d : ℝ, ∀ x ∈ s, f x = a + b * x + c * x ^ 2 + d * x ^ 3

/-- The cubic spline through the points, without knots at the second and the last but one: twice continuously differentiable, a polynomial
of degree three at most between two successive angles, up to the third angle, and from the last but two on. -/
structure IsSpline (pts : List (ℝ × ℝ)) (f : ℝ → ℝ) : Prop where
  through : ∀ p ∈ pts, f p.1 = p.2
  smooth : ContDiff ℝ 2 f
  cubic : ∀ i p q, pts[i]? = some p → pts[i + 1]? = some q → CubicOn (Set.Icc p.1 q.1) f
  left : ∀ p, pts[2]? = some p → CubicOn (Set.Iic p.1) f
  right : ∀ p, pts[pts.length - 3]? = some p → CubicOn (Set.Ici p.1) f

end Shgpy.Spec
