import Verif.Spec.LeastSquares

/-!
# Specification vocabulary for measurements at unequal angles (C135)
-/

namespace Shgpy.Spec

/-- The angles increase by at most `h`; the beginning of the turn is not farther from the first angle than the second angle is, and the
end of the turn is not farther from the last angle than the last but one is. -/
structure Covers (h : ℝ) (pts : List (ℝ × ℝ)) : Prop where
  two : 2 ≤ pts.length
  gap : ∀ i p q, pts[i]? = some p → pts[i + 1]? = some q → p.1 < q.1 ∧ q.1 - p.1 ≤ h ∧
    (i = 0 → p.1 ≤ q.1 - p.1) ∧ (i + 2 = pts.length → 2 * Real.pi - q.1 ≤ q.1 - p.1)

/-- The sum of `m² |c_m|`: no second derivative of the pattern with the components `c m` is larger. -/
noncomputable def curvature (M : ℕ) (c : ℤ → ℂ) : ℝ := ∑ m ∈ Finset.Icc (-(M : ℤ)) M, (m : ℝ) ^ 2 * ‖c m‖

/-- The points lie on the pattern with the components `c m`, up to the noise `δ`. -/
def MeasuredOn (M : ℕ) (c : ℤ → ℂ) (δ : ℝ) (pts : List (ℝ × ℝ)) : Prop := ∀ p ∈ pts, ‖(p.2 : ℂ) - pattern M c p.1‖ ≤ δ

end Shgpy.Spec
