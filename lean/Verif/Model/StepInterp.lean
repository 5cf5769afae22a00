import Verif.Model.Convert

/-!
# The interpolations of the kinds 'nearest', 'previous' and 'next'

`dat_to_fdat` hands `interp_kind` to SciPy's `interp1d`, data_handler.py:1546-1553, 1576.  SciPy's code is modelled, in real arithmetic, for
angles in increasing order, which is how containers hold them.
-/

namespace Shgpy

/-- The kinds of interpolation that return measured values, data_handler.py:1547-1552. -/
inductive StepKind where
  | nearest | previous | next

/-- The middles of successive angles: `x_bds` of SciPy's `interp1d` for the kind 'nearest', as called in data_handler.py:1576. -/
noncomputable def middles (xs : List ℝ) : List ℝ := List.zipWith (fun b a => b / 2 + a / 2) xs.tail xs

/-- The position of the value that is returned for `x`: `searchsorted` and `clip` in SciPy's `_call_nearest` and `_call_previousnext`, as called
in data_handler.py:1576-1578.  SciPy moves the angles by one floating point number for 'previous' and 'next', which turns `<` into `≤`. -/
noncomputable def StepKind.index : StepKind → List ℝ → ℝ → ℕ
  | .nearest, xs, x => min ((middles xs).countP (fun a => decide (a < x))) (xs.length - 1)
  | .previous, xs, x => max 1 (min (xs.countP (fun a => decide (a ≤ x))) xs.length) - 1
  | .next, xs, x => min (xs.countP (fun a => decide (a < x))) (xs.length - 1)

/-- SciPy's value for one of the equally spaced angles is not a number: for 'previous' when the first angle is behind the first of them, zero, and
for 'next' when the last angle is before the last of them, data_handler.py:1576-1578. -/
def StepKind.Undefined : StepKind → List ℝ → Prop
  | .nearest, _ => False
  | .previous, xs => 0 < xs.getD 0 0
  | .next, xs => xs.getD (xs.length - 1) 0 < 2 * Real.pi * ((xs.length - 1 : ℕ) : ℝ) / xs.length

open Classical in
/-- `interp1d(xdata, ydata, kind=…, fill_value='extrapolate')` in data_handler.py:1576.  Values that are not numbers are counted as an
exception, and so is an empty array. -/
noncomputable def stepInterp (kind : StepKind) : Interp := fun pts =>
  if pts = [] ∨ kind.Undefined (pts.map Prod.fst) then .error .valueError
  else .ok (fun x => (pts.getD (kind.index (pts.map Prod.fst) x) (0, 0)).2)

end Shgpy
