import Verif.Model.FloatSynth
import Verif.Spec.LeastSquares

/-!
# Specification vocabulary for `fdat_to_dat` in floating point arithmetic (C120)
-/

namespace Shgpy.Spec

/-- What NumPy computes for `n` angles and frequencies up to `M` is accurate: the angles are increasing and within one turn, the computed
`cos(m x) + i sin(m x)` at the angle `j` is `e^{i m 2π j / n}` up to `η`, and the real part of a product of complex numbers has the error of
two roundings, relative to the absolute values of the factors. -/
structure AccurateSynth {p : ℕ} (E : FloatSynth p) (M n : ℕ) (η : ℝ) : Prop where
  len : (E.grid n).length = n
  increasing : (E.grid n).Pairwise (· < ·)
  turn : ∀ x ∈ E.grid n, 0 ≤ x ∧ x < E.turn
  trig : ∀ m : ℤ, -(M : ℤ) ≤ m → m ≤ M → ∀ j < n, ‖E.trig m ((E.grid n).getD j 0) - harmonic m (gridAngle n j)‖ ≤ η
  mul : ∀ z w : ℂ, |(E.mul z w - z * w).re| ≤ ((1 + 2⁻¹ ^ p) ^ 2 - 1) * (‖z‖ * ‖w‖)

/-- The error of the sum of `2M + 1` products with `p` digits. -/
noncomputable def synthesisError (p M : ℕ) (η : ℝ) : ℝ := (1 + 2⁻¹ ^ p) ^ (2 * M + 3) * (1 + η) - 1

end Shgpy.Spec
