import Verif.Py.Basic
import Mathlib.Analysis.SpecialFunctions.Exp
import Mathlib.Analysis.Complex.Exponential
import Mathlib.Analysis.Real.Pi.Bounds
import Mathlib.Algebra.BigOperators.Intervals

/-!
# Specification vocabulary for Fourier data
-/

namespace Shgpy.Spec

/-- `z` is the component of frequency `m`, `-M ≤ m ≤ M`, of a Fourier array: its element number `m + M`. -/
def Component {α : Type} (v : List α) (M : ℕ) (m : ℤ) (z : α) : Prop :=
  (-(M : ℤ) ≤ m ∧ m ≤ M) ∧ v[(m + M).toNat]? = some z

/-- `e^{i m x}`. -/
noncomputable def harmonic (m : ℤ) (x : ℝ) : ℂ := Complex.exp (Complex.I * (m * x))

/-- The function represented by a Fourier array, `Σ_m c_m e^{i m x}`. -/
noncomputable def series (v : List ℂ) (M : ℕ) (x : ℝ) : ℂ :=
  ∑ i ∈ Finset.range (2 * M + 1), (v.getD i 0) * harmonic ((i : ℤ) - M) x

/-- The `j`-th of `N` equally spaced angles, `2π j / N`. -/
noncomputable def gridAngle (N j : ℕ) : ℝ := 2 * Real.pi * j / N

/-- `N` equally spaced points carrying the values of `f`. -/
noncomputable def sampled (N : ℕ) (f : ℝ → ℝ) : List (ℝ × ℝ) :=
  (List.range N).map (fun j => (gridAngle N j, f (gridAngle N j)))

/-- The discrete Fourier coefficient of frequency `m` of the values of `f` on `N` equally spaced points. -/
noncomputable def dft (N : ℕ) (f : ℝ → ℝ) (m : ℤ) : ℂ :=
  (1 / (N : ℂ)) * ∑ j ∈ Finset.range N, (f (gridAngle N j) : ℂ) * Complex.exp (-(Complex.I * (m * gridAngle N j)))

/-- The component of frequency `m` of a Fourier array, zero outside `[-M, M]`. -/
def coeff (v : List ℂ) (M : ℕ) (m : ℤ) : ℂ :=
  if -(M : ℤ) ≤ m ∧ m ≤ M then v.getD (m + M).toNat 0 else 0

/-- The component of frequency `m` of the real part of the represented function, `(c_m + conj c_{-m}) / 2`. -/
noncomputable def symmetrized (v : List ℂ) (M : ℕ) (m : ℤ) : ℂ :=
  (coeff v M m + (starRingEnd ℂ) (coeff v M (-m))) / 2

end Shgpy.Spec
