import Verif.Spec.LeastSquares
import Verif.Model.Convert

/-!
# Specification vocabulary for the linearity of the Fourier transform of data (C97)
-/

namespace Shgpy.Spec

/-- Interpolation as done by `scipy.interpolate.interp1d`, of every kind: whether it raises depends only on the angles, and the
interpolated value at `x` is a sum of the given values with weights that depend only on the angles and on `x` and add up to 1. -/
structure LinearInterp (interp : Interp) : Prop where
  raises : ∀ (pts qts : List (ℝ × ℝ)) (f : ℝ → ℝ), pts.map Prod.fst = qts.map Prod.fst → interp pts = .ok f → ∃ g, interp qts = .ok g
  weights : ∃ w : List ℝ → ℝ → ℕ → ℝ, ∀ (pts : List (ℝ × ℝ)) (f : ℝ → ℝ), interp pts = .ok f → ∀ x,
    f x = ∑ i ∈ Finset.range pts.length, w (pts.map Prod.fst) x i * (pts.getD i (0, 0)).2 ∧
    ∑ i ∈ Finset.range pts.length, w (pts.map Prod.fst) x i = 1

/-- The data can be transformed: interpolation succeeds and there are two points or more in every combination. -/
def Transformable (interp : Interp) (dat : DataContainer ℝ) : Prop :=
  ∀ k pts, dat.getPc k sRadians = .ok pts → 2 ≤ pts.length ∧ ∃ f, interp pts = .ok f

end Shgpy.Spec
