import Verif.Model.Convert

/-!
# The interpolation of kind 'linear'
-/

namespace Shgpy

/-- `np.searchsorted(x, x_new)` clipped to `1 … len(x) - 1`: the number of the interval of the increasing angles that is used at `x`. -/
noncomputable def interval (pts : List (ℝ × ℝ)) (x : ℝ) : ℕ :=
  max 1 (min (pts.countP (fun p => decide (p.1 < x))) (pts.length - 1))

/-- `interp1d(xdata, ydata, kind='linear', fill_value='extrapolate')` in data_handler.py:1576, for angles in increasing order, which
`get_pc` returns: SciPy's `_call_linear`, the line through the ends of the interval, continued outside the angles.  With fewer than two
points `dat_to_fdat` raises in any case (data_handler.py:1579).  Two equal angles give values that are not numbers, which this model does
not have; they are counted as an exception. -/
noncomputable def linearInterp : Interp := fun pts =>
  if pts.length < 2 ∨ ¬ (pts.map Prod.fst).Nodup then .error .valueError
  else .ok (fun x =>
    let lo := pts.getD (interval pts x - 1) (0, 0)
    let hi := pts.getD (interval pts x) (0, 0)
    (hi.2 - lo.2) / (hi.1 - lo.1) * (x - lo.1) + lo.2)

end Shgpy
