import Verif.Model.FFormFit

/-!
# Functions loaded with `multiprocessing=True` (fformfit.py:280-327, 467-487)

Such a function loads its library at every call, so its value depends on the disk and on the libraries of the process at the
time of the call.
-/

namespace Shgpy

/-- A call of the function `load_func(name, multiprocessing=True)`, fformfit.py:474-487.  (`load_func` itself does nothing but
return the function.) -/
def lazyCall (name : Key) (d : Disk) (x : List ℝ) : Except Err (ℝ × Disk) := do
  let (f, d) ← d.dlopen name (Dict.get? d.files name)
  return (f x, d)

/-- The files of one component, fformfit.py:322-326: their names are found when the model is loaded. -/
def lazyPart (L : Listing) (content : Dict Key Content) (key : Key × ℤ × Part) : List Key :=
  ((L.order content).filter (fun p => globMatch (partName key.1 key.2.1 key.2.2 ++ ['*', '.', 's', 'o']) p.1)).map Prod.fst

/-- `_load_func_dict` with `multiprocessing=True`, fformfit.py:312-327. -/
def lazyDict (L : Listing) (d : Disk) (fform : FFormContainer) (folder : Key) : Dict (Key × ℤ × Part) (List Key) :=
  (funcKeys fform).foldl (fun acc key => Dict.set acc key (lazyPart L ((Dict.get? d.folders folder).getD []) key)) []

/-- Calling the functions of one component one after the other. -/
def lazyValues (folder : Key) (names : List Key) (x : List ℝ) (d : Disk) : Except Err (List ℝ × Disk) :=
  names.foldlM (fun acc name => do
    let (f, d) ← acc.2.dlopen (folder ++ '/' :: name) (Dict.get? ((Dict.get? acc.2.folders folder).getD []) name)
    return (acc.1 ++ [f x], d)) ([], d)

/-- A call of the inner function `model_func` of `load_model_func(…, multiprocessing=True)`, fformfit.py:298-307. -/
noncomputable def lazyModelCall (fd : Dict (Key × ℤ × Part) (List Key)) (folder : Key) (d : Disk) (x : List ℝ) (pc : Key) (m : ℤ) :
    Except Err (ℂ × Disk) := do
  let re ← Dict.get fd (pc, m, .real)
  let (rs, d) ← lazyValues folder re x d
  let im ← Dict.get fd (pc, m, .imag)
  let (is, d) ← lazyValues folder im x d
  return ((rs.map (fun v : ℝ => ((v : ℝ) : ℂ))).sum + (is.map (fun v : ℝ => Complex.I * ((v : ℝ) : ℂ))).sum, d)

end Shgpy
