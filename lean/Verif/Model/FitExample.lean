import Verif.Model.Load
import Verif.Model.SaveFform
import Verif.Model.FormConvert
import Verif.Model.PartialFit

/-!
# Model of the scripts `examples/fit_fform_example.py` and `examples/fit_partial_fform_example.py`

The scripts load data and a Fourier formula, turn the formula by a parameter `psi`, fit, and make the fitted curve.  The figure is not
part of this model.  The functions of the package are modelled with real numbers; here the machine numbers come in at two places: what
the transform hands to the fit is rounded by `rnd`, and the numbers that the optimizer returns become sympy numbers.
-/

namespace Shgpy

/-- `shg_symbols.psi = sp.symbols('psi', real=True)`, shg_symbols.py:298; tag `1` stands for `real=True`. -/
def psi : Sym := ⟨['p', 's', 'i'], 1⟩

open Classical in
/-- The sympy number for a number of `ret.xdict`, examples/fit_fform_example.py:43: floats are rational, and for other real numbers
this is not meant to be used. -/
noncomputable def sympyFloat (x : ℝ) : Expr := if h : ∃ q : ℚ, (q : ℝ) = x then .num h.choose else .num 0

/-- `guess_dict`, examples/fit_fform_example.py:28-30. -/
noncomputable def unitGuess (l : List Sym) : Dict Sym ℝ := l.foldl (fun d fs => Dict.set d fs 1) []

/-- `bounds_dict`, examples/fit_fform_example.py:32-37. -/
noncomputable def boxBounds (l : List Sym) : Dict Sym (ℝ × ℝ) :=
  l.foldl (fun d fs => Dict.set d fs (if fs = psi then (-Real.pi, Real.pi) else (-2, 2))) []

/-- The common end of the two scripts, examples/fit_fform_example.py:28-41 and examples/fit_partial_fform_example.py:29-42: `ret`, and
`fit_dat` with the warnings of `fform_to_dat`. -/
noncomputable def fitAndDraw (S : Sympy) (C : Compiler) (opt : Optimizer LSCall) (d : Disk) (fform : FFormContainer)
    (fdat : FDataContainer) : Except Err (OptResult × DataContainer ℝ × List Key) := do
  let l ← fform.getFreeSymbols S
  let ret ← (leastSquaresFit S C opt fform fdat (unitGuess l) (some (boxBounds l)) false none none ⟨d, []⟩).1
  let fit ← fformToDat S fform (Dict.mapVals sympyFloat ret.xdict) 1000
  return (ret, fit)

/-- `fform.apply_phase_shift(S.psi)` as a statement, examples/fit_fform_example.py:26. -/
def shiftByPsi (S : Sympy) (fform : FFormContainer) : Except Err FFormContainer :=
  match FFormContainer.step S fform (.phaseShift (.sym psi)) with
  | (c, none) => .ok c
  | (_, some e) => .error e

/-- examples/fit_fform_example.py:12-41: `dat`, `ret` and `fit_dat`, for any file names and both units. -/
noncomputable def fitExample (S : Sympy) (C : Compiler) (R : Repr) (float : Key → Option ℝ) (csv : CsvFiles) (files : Files)
    (interp : Interp) (rnd : FDataContainer → FDataContainer) (opt : Optimizer LSCall) (d : Disk) (names : Dict Key Key) (units : Key)
    (fformName : Key) : Except Err (DataContainer ℝ × OptResult × DataContainer ℝ × List Key) := do
  let (dat, fdat) ← loadDataAndFourierTransform float csv interp names units none 16 false 1 false
  let fform ← loadFform S R files fformName
  let fform ← shiftByPsi S fform
  let (ret, fit) ← fitAndDraw S C opt d fform (rnd fdat)
  return (dat, ret, fit)

/-- examples/fit_partial_fform_example.py:12-42, for any selection `pcs` of combinations. -/
noncomputable def fitPartialExample (S : Sympy) (C : Compiler) (R : Repr) (float : Key → Option ℝ) (csv : CsvFiles) (files : Files)
    (interp : Interp) (rnd : FDataContainer → FDataContainer) (opt : Optimizer LSCall) (d : Disk) (names : Dict Key Key) (units : Key)
    (fformName : Key) (pcs : List Key) : Except Err (DataContainer ℝ × OptResult × DataContainer ℝ × List Key) := do
  let (dat, fdat) ← loadDataAndFourierTransform float csv interp names units none 16 false 1 false
  let fform ← loadFform S R files fformName
  let fform ← shiftByPsi S fform
  let fform ← partialFform S fform pcs 16
  let (ret, fit) ← fitAndDraw S C opt d fform (rnd fdat)
  return (dat, ret, fit)

end Shgpy
