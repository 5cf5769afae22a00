import Verif.Model.Pandas
import Verif.Model.FFormFit
import Verif.Model.Fformgen
import Verif.Model.FitExample

/-!
# The names that appear in the statements

The theorems name strings and symbols by constants of the model.  Here they are spelt out as in the documentation of the program.
-/

namespace Shgpy

/-- Units, combinations and kinds of index, data_handler.py. -/
theorem C74_names : sRadians = "radians".toList ∧ sDegrees = "degrees".toList ∧ kPP = "PP".toList ∧ kPS = "PS".toList ∧ kSP = "SP".toList ∧
    kSS = "SS".toList ∧ sMulti = "multi".toList ∧ sNone = "none".toList := by decide

/-- Options of SciPy's minimizers, fformfit.py. -/
theorem C60_names : sFun = "fun".toList ∧ sFunc = "func".toList ∧ sX0 = "x0".toList ∧ sBounds = "bounds".toList ∧ sNiter = "niter".toList ∧
    sStepsize = "stepsize".toList ∧ sMethod = "method".toList ∧ sArgs = "args".toList ∧ sJac = "jac".toList ∧
    sMinimizer = "minimizer_kwargs".toList := by decide

/-- Symbols, shg_symbols.py: `phi`, `psi` and `theta` are real. -/
theorem C52_names : phi = ⟨"phi".toList, 1⟩ ∧ psi = ⟨"psi".toList, 1⟩ ∧ thetaSym = ⟨"theta".toList, 1⟩ ∧ FxSym = ⟨"Fx".toList, 0⟩ ∧
    FySym = ⟨"Fy".toList, 0⟩ ∧ FzSym = ⟨"Fz".toList, 0⟩ := by decide

end Shgpy
