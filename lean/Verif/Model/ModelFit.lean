import Verif.Model.FFormFit
import Verif.Model.Pandas

/-!
# Model of a fit with a model function, `examples/fit_model_func_example.py`

The example assembles its own cost from a loaded model function and from the frame of the Fourier data.  The fit itself is made by
another package and is not modelled.
-/

namespace Shgpy

/-- `model`, examples/fit_model_func_example.py:61-67: the component of the model function, turned by `psi`.  `x` is the array of all
parameters, with `psi` among them. -/
noncomputable def turnedModel (f : List ℝ → Key → ℤ → Except Err ℂ) (x : List ℝ) (psi : ℝ) (pc : Key) (m : ℤ) : Except Err ℂ := do
  return (← f x pc m) * Complex.exp (-(Complex.I * m * psi))

/-- `cost_func`, examples/fit_model_func_example.py:71-76: the loop over the rows of the frame. -/
noncomputable def modelCost (f : List ℝ → Key → ℤ → Except Err ℂ) (rows : List ((Key × ℤ) × ℂ)) (x : List ℝ) (psi : ℝ) : Except Err ℝ :=
  rows.foldlM (fun total row => do
    let ans := (← turnedModel f x psi row.1.1 row.1.2) - row.2
    return total + (ans * (starRingEnd ℂ) ans).re) 0

end Shgpy
