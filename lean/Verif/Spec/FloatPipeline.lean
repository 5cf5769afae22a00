import Verif.Spec.FloatFourier
import Verif.Spec.FloatCost

/-!
# Specification vocabulary for fits in floating point arithmetic (C124)
-/

namespace Shgpy.Spec

/-- The error of a fit of `K` combinations with `2M + 1` components: twice the error of the components computed from `N` points per
combination with mean absolute values up to `b`, and the root of the error of two evaluations of the cost with `n` roundings and quantities
of size `B` altogether. -/
noncomputable def fitError (p q N : ℕ) (ω η b : ℝ) (K M n : ℕ) (B : ℝ) : ℝ :=
  2 * (fourierError p q N ω η * b * √(K * (2 * M + 1))) + √(roundingError p n * B)

end Shgpy.Spec
