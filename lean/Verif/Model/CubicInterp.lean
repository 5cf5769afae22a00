import Verif.Model.LinearInterp

/-!
# The interpolation of kind 'cubic'
-/

namespace Shgpy

/-- The equations for the second derivatives `M i` at the angles `x i` of a piecewise cubic function through the points `(x i, y i)`,
`i < n`: the first derivatives agree at the inner angles (`inner`), and the third derivatives agree at the second and at the last but one
(`left`, `right`; "not a knot", SciPy's `_not_a_knot` in `make_interp_spline`). -/
structure MomentEq (n : ℕ) (x y M : ℕ → ℝ) : Prop where
  inner : ∀ i, i + 2 < n → (x (i + 1) - x i) * M i + 2 * ((x (i + 1) - x i) + (x (i + 2) - x (i + 1))) * M (i + 1) +
    (x (i + 2) - x (i + 1)) * M (i + 2) = 6 * ((y (i + 2) - y (i + 1)) / (x (i + 2) - x (i + 1)) - (y (i + 1) - y i) / (x (i + 1) - x i))
  left : (x 2 - x 1) * (M 1 - M 0) = (x 1 - x 0) * (M 2 - M 1)
  right : (x (n - 2) - x (n - 3)) * (M (n - 1) - M (n - 2)) = (x (n - 1) - x (n - 2)) * (M (n - 2) - M (n - 3))
  outside : ∀ i, n ≤ i → M i = 0

open Classical in
/-- The solution of the equations.  SciPy solves the equivalent equations for the coefficients of B-splines. -/
noncomputable def moments (n : ℕ) (x y : ℕ → ℝ) : ℕ → ℝ := if h : ∃ M, MomentEq n x y M then h.choose else fun _ => 0

/-- The cubic polynomial with the values `ya`, `yb` and the second derivatives `Ma`, `Mb` at `a` and `b`. -/
noncomputable def piece (a b ya yb Ma Mb x : ℝ) : ℝ :=
  Ma / (6 * (b - a)) * (b - x) ^ 3 + Mb / (6 * (b - a)) * (x - a) ^ 3 + (ya / (b - a) - Ma * (b - a) / 6) * (b - x) +
    (yb / (b - a) - Mb * (b - a) / 6) * (x - a)

open Classical in
/-- `interp1d(xdata, ydata, kind='cubic', fill_value='extrapolate')` in data_handler.py:1576, for angles in increasing order, which
`get_pc` returns: the twice continuously differentiable function through the points that is a cubic polynomial between successive angles,
and the same polynomial on both sides of the second and of the last but one angle; outside the angles the first and the last polynomial are
continued.  Fewer than four points and equal angles raise ValueError.  (SciPy sorts angles in another order; the model counts them as an
exception too.) -/
noncomputable def cubicInterp : Interp := fun pts =>
  if pts.length < 4 ∨ ¬ (pts.map Prod.fst).Pairwise (· < ·) then .error .valueError
  else .ok (fun x =>
    let j := interval pts x
    let M := moments pts.length (fun i => (pts.getD i (0, 0)).1) (fun i => (pts.getD i (0, 0)).2)
    piece (pts.getD (j - 1) (0, 0)).1 (pts.getD j (0, 0)).1 (pts.getD (j - 1) (0, 0)).2 (pts.getD j (0, 0)).2 (M (j - 1)) (M j) x)

end Shgpy
