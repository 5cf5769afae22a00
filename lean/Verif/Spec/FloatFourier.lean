import Verif.Model.FloatFourier
import Verif.Spec.LeastSquares

/-!
# Specification vocabulary for Fourier data in floating point arithmetic (C98)
-/

namespace Shgpy.Spec

/-- What NumPy computes for `N` points is accurate: the factor `1/2/np.pi*dx` is `1/N` up to the relative error `ω`, and
`np.exp(-1j*m*x)` at the computed angles is `e^{-i m 2π j / N}` up to the error `η`, for `|m| ≤ M`. -/
structure Accurate {p q : ℕ} (E : FloatFourier p q) (M N : ℕ) (ω η : ℝ) : Prop where
  len : (E.grid N).length = N
  weight : |E.weight ((E.grid N).getD 1 0) ((E.grid N).getD 0 0) * N - 1| ≤ ω
  exp : ∀ m : ℤ, -(M : ℤ) ≤ m → m ≤ M → ∀ j < N,
    ‖E.expm m ((E.grid N).getD j 0) - Complex.exp (-(Complex.I * (m * gridAngle N j)))‖ ≤ η

/-- The interpolation of the measured points gives `y k` at the computed angles. -/
def Interpolates {p q : ℕ} (E : FloatFourier p q) (interp : Interp) (dat : DataContainer ℝ) (y : Key → ℝ → ℝ) : Prop :=
  ∀ k pts, dat.getPc k sRadians = .ok pts → 2 ≤ pts.length ∧ ∃ f, interp pts = .ok f ∧
    ∀ j < pts.length, f ((E.grid pts.length).getD j 0) = y k (gridAngle pts.length j)

/-- The error of `N` products and sums with `p` digits, stored with `q` digits. -/
noncomputable def fourierError (p q N : ℕ) (ω η : ℝ) : ℝ :=
  (1 + 2⁻¹ ^ q) * (1 + 2⁻¹ ^ p) ^ (N + 2) * (1 + ω) * (1 + η) - 1

end Shgpy.Spec
