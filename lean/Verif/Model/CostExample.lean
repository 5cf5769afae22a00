import Verif.Model.FitExample

/-!
# Model of the scripts `examples/gen_cost_func_example.py` and `examples/fit_cost_func_example.py`

The first script makes a cost function from measured data and a Fourier formula and saves it as a shared library.  The second one, run in
another process, loads the library and minimizes the function with the package lmfit.  The figure is not part of this model, and both
scripts name the library in the same way here (one has a relative and the other an absolute path to it).
-/

namespace Shgpy

/-- examples/gen_cost_func_example.py:12-27, for any file names and both units: the files afterwards. -/
noncomputable def genCostExample (S : Sympy) (C : Compiler) (R : Repr) (float : Key → Option ℝ) (csv : CsvFiles) (files : Files)
    (interp : Interp) (rnd : FDataContainer → FDataContainer) (d : Disk) (names : Dict Key Key) (units : Key) (fformName costName : Key) :
    Except Err Disk := do
  let (_, fdat) ← loadDataAndFourierTransform float csv interp names units none 16 false 1 false
  let fform ← loadFform S R files fformName
  let fform ← shiftByPsi S fform
  let (_, d) ← genCostFunc S C d fform (rnd fdat) none true (some costName)
  return d

/-- A parameter of lmfit: its value and its bounds. -/
structure Parameter where
  value : ℝ
  min : ℝ
  max : ℝ

/-- `params`, examples/fit_cost_func_example.py:43-52: lmfit raises `KeyError` for names that are not `valid` identifiers; `guess i` is the
number that `np.random.uniform(-100, 100)` returns at its `i`-th call. -/
noncomputable def addParameters (valid : Key → Bool) (guess : ℕ → ℝ) (l : List Sym) : Except Err (Dict Key Parameter) :=
  l.zipIdx.foldlM (fun p s => if valid s.1.name then .ok (Dict.set p s.1.name ⟨guess s.2, -100, 100⟩) else .error .keyError) []

/-- lmfit gives the parameters, in the order in which they were added, the values of an array. -/
def setValues (params : Dict Key Parameter) (x : List ℝ) : Dict Key Parameter :=
  List.zipWith (fun p v => (p.1, { p.2 with value := v })) params x

/-- `cost_func`, examples/fit_cost_func_example.py:61-64. -/
def sanitized (f : CFunc) (params : Dict Key Parameter) : ℝ := f (params.map (fun p => p.2.value))

/-- `lmfit.minimize(cost_func, params, method='dual_annealing', ...)`, examples/fit_cost_func_example.py:75-80: `ret.params`.  lmfit calls
the optimizer with the values and the bounds of the parameters. -/
def lmfitMinimize (opt : Optimizer DACall) (f : Dict Key Parameter → ℝ) (params : Dict Key Parameter) :
    Except Err (Dict Key Parameter) := do
  let x ← opt ⟨fun x => f (setValues params x), some (params.map (fun p => (p.2.min, p.2.max))), params.map (fun p => p.2.value), 0⟩
  return setValues params x

/-- `subs_dict`, examples/fit_cost_func_example.py:83-85. -/
def substitutions (l : List Sym) (params : Dict Key Parameter) : Except Err (Dict Sym ℝ) :=
  l.foldlM (fun d s => do
    let p ← Dict.get params s.name
    return Dict.set d s p.value) []

/-- examples/fit_cost_func_example.py:36-90: `dat`, `subs_dict`, and `fit_dat` with the warnings of `fform_to_dat`. -/
noncomputable def fitCostExample (S : Sympy) (R : Repr) (float : Key → Option ℝ) (csv : CsvFiles) (files : Files) (interp : Interp)
    (valid : Key → Bool) (guess : ℕ → ℝ) (opt : Optimizer DACall) (d : Disk) (names : Dict Key Key) (units : Key)
    (fformName costName : Key) : Except Err (DataContainer ℝ × Dict Sym ℝ × DataContainer ℝ × List Key) := do
  let fform ← loadFform S R files fformName
  let fform ← shiftByPsi S fform
  let l ← fform.getFreeSymbols S
  let params ← addParameters valid guess l
  let (f, _) ← loadFunc d costName
  let dat ← loadData float csv names units false
  let _ ← datToFdat interp dat 16
  let ret ← lmfitMinimize opt (sanitized f) params
  let l ← fform.getFreeSymbols S
  let subs ← substitutions l ret
  let fit ← fformToDat S fform (Dict.mapVals sympyFloat subs) 1000
  return (dat, subs, fit)

end Shgpy
