import Verif.Model.CostExample
import Verif.Model.ModelFit

/-!
# Model of the scripts `examples/gen_model_func_example.py` and `examples/fit_model_func_example.py`

The first script makes a model function from a Fourier formula and saves it as a folder of shared libraries.  The second one, run in
another process, loads the folder, and minimizes with the package lmfit a cost that it assembles from the model function and from the
frame of the Fourier data.  The figure is not part of this model.  The two scripts name different files for the formula; here they read
the same one.
-/

namespace Shgpy

/-- examples/gen_model_func_example.py:12-21, for any file names: the files afterwards. -/
noncomputable def genModelExample (S : Sympy) (C : Compiler) (R : Repr) (files : Files) (d : Disk) (fformName folder : Key) :
    Except Err Disk := do
  let fform ← loadFform S R files fformName
  let (_, d) ← genModelFunc S C d fform folder 3
  return d

/-- `params`, examples/fit_model_func_example.py:41-56: the symbols of the formula as in `addParameters`, and then `psi`. -/
noncomputable def addModelParameters (valid : Key → Bool) (guess : ℕ → ℝ) (l : List Sym) : Except Err (Dict Key Parameter) := do
  let params ← addParameters valid guess l
  if valid psi.name then .ok (Dict.set params psi.name ⟨guess l.length, 0, 2 * Real.pi⟩) else .error .keyError

/-- `model`, examples/fit_model_func_example.py:61-67. -/
noncomputable def scriptModel (f : List ℝ → Key → ℤ → Except Err ℂ) (params : Dict Key Parameter) (pc : Key) (m : ℤ) : Except Err ℂ := do
  let p ← Dict.get params psi.name
  turnedModel f (params.map (fun p => p.2.value)) p.value pc m

/-- `cost_func`, examples/fit_model_func_example.py:71-76. -/
noncomputable def scriptCost (f : List ℝ → Key → ℤ → Except Err ℂ) (rows : List ((Key × ℤ) × ℂ)) (params : Dict Key Parameter) :
    Except Err ℝ :=
  rows.foldlM (fun total row => do
    let ans := (← scriptModel f params row.1.1 row.1.2) - row.2
    return total + (ans * (starRingEnd ℂ) ans).re) 0

/-- `lmfit.minimize`, examples/fit_model_func_example.py:87-95, for a function that may raise: here it raises for all values of the
parameters or for none, so that the first call shows it. -/
noncomputable def lmfitMinimizeRaising (opt : Optimizer DACall) (f : Dict Key Parameter → Except Err ℝ) (params : Dict Key Parameter) :
    Except Err (Dict Key Parameter) := do
  let _ ← f params
  lmfitMinimize opt (fun p => match f p with
    | .ok v => v
    | .error _ => 0) params

/-- `fit_iterable`, examples/fit_model_func_example.py:101-104. -/
noncomputable def fitIterable (f : List ℝ → Key → ℤ → Except Err ℂ) (params : Dict Key Parameter) : Except Err (List (RawKey × RawFVal)) :=
  [['P', 'P'], ['P', 'S'], ['S', 'P'], ['S', 'S']].mapM (fun pc => do
    let v ← (freqs 16).mapM (fun m => scriptModel f params pc m)
    return (.str pc, .arr1 .complex128 v))

/-- examples/fit_model_func_example.py:33-106: `dat`, `ret.params`, and `fit_dat` with the warnings of `fdat_to_dat`. -/
noncomputable def fitModelExample (S : Sympy) (R : Repr) (L : Listing) (float : Key → Option ℝ) (csv : CsvFiles) (files : Files)
    (interp : Interp) (valid : Key → Bool) (guess : ℕ → ℝ) (opt : Optimizer DACall) (d : Disk) (names : Dict Key Key) (units : Key)
    (fformName folder : Key) : Except Err (DataContainer ℝ × Dict Key Parameter × DataContainer ℝ × List Key) := do
  let fform ← loadFform S R files fformName
  let _ ← fform.getFreeSymbols S
  let (f, _) ← loadModelFunc L d fform folder
  let l ← fform.getFreeSymbols S
  let params ← addModelParameters valid guess l
  let dat ← loadData float csv names units false
  let fdat ← datToFdat interp dat 16
  let rows ← fdat.asPandas sMulti
  let ret ← lmfitMinimizeRaising opt (scriptCost f rows) params
  let iterable ← fitIterable f ret
  let fitFdat ← FDataContainer.init iterable 16
  let fit ← fdatToDat fitFdat 1000
  return (dat, ret, fit)

end Shgpy
