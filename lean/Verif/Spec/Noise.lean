import Verif.Spec.LeastSquares

/-!
# Specification vocabulary for fits of noisy values
-/

namespace Shgpy.Spec

/-- The sum over the combinations `k` of the mean of the square of the difference between the patterns for the parameters `r` and
`r'`, over `N k` equally spaced angles. -/
noncomputable def deviation (keys : List Key) (M : ℕ) (F : Key → ℤ → Valuation → ℂ) (N : Key → ℕ) (r r' : Sym → ℝ) : ℝ :=
  (keys.map (fun k => gridMean (N k) (fun x =>
    ‖pattern M (fun m => F k m (realVal r)) x - pattern M (fun m => F k m (realVal r')) x‖ ^ 2))).sum

end Shgpy.Spec
