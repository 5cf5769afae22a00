import Verif.Spec.Fit
import Verif.Spec.Fourier

/-!
# Specification vocabulary for fits in the space of angles
-/

namespace Shgpy.Spec

/-- The pattern with the Fourier components `c m`, `-M ≤ m ≤ M`, at the angle `x`. -/
noncomputable def pattern (M : ℕ) (c : ℤ → ℂ) (x : ℝ) : ℂ := ∑ m ∈ Finset.Icc (-(M : ℤ)) M, c m * harmonic m x

/-- The mean of `g` over `N` equally spaced angles. -/
noncomputable def gridMean (N : ℕ) (g : ℝ → ℝ) : ℝ := (∑ j ∈ Finset.range N, g (gridAngle N j)) / N

/-- The sum over the combinations `k` of the mean of `|y_k(x) - pattern_k(x)|²` over `N k` equally spaced angles `x`, when the
parameters have the values `r`. -/
noncomputable def squares (keys : List Key) (M : ℕ) (F : Key → ℤ → Valuation → ℂ) (N : Key → ℕ) (y : Key → ℝ → ℝ) (r : Sym → ℝ) : ℝ :=
  (keys.map (fun k => gridMean (N k) (fun x => ‖(y k x : ℂ) - pattern M (fun m => F k m (realVal r)) x‖ ^ 2))).sum

end Shgpy.Spec
