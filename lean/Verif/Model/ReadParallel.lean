import Verif.Model.FitCrash

/-!
# Loading functions while another process writes

`Verif.Model.FFormFit` has the functions that load saved libraries, on a disk that does not change.  Here the disk may be a different
one at every operation of the process that loads: `v t` is the disk at its operation number `t`.  What the process itself has loaded
is kept apart (`Disk.loaded` of the argument `d`, whose files are not used).
-/

namespace Shgpy

/-- Loading the files that `glob` has found, fformfit.py:322-326, one operation for each: a file that has been removed since cannot be
loaded. -/
def loadFilesDuring (v : ℕ → Disk) (folder : Key) : List Key → ℕ → Disk → Except Err (List CFunc × ℕ × Disk)
  | [], t, d => .ok ([], t, d)
  | name :: r, t, d => do
      let (f, d) ← d.dlopen (folder ++ '/' :: name) (Dict.get? ((Dict.get? (v t).folders folder).getD []) name)
      let (fs, t, d) ← loadFilesDuring v folder r (t + 1) d
      return (f :: fs, t, d)

/-- The files of one component, fformfit.py:322-326: `Path.glob` reads the folder in one operation, before the first file is loaded. -/
def loadPartDuring (L : Listing) (v : ℕ → Disk) (folder : Key) (key : Key × ℤ × Part) (t : ℕ) (d : Disk) :
    Except Err (List CFunc × ℕ × Disk) :=
  loadFilesDuring v folder
    (((L.order ((Dict.get? (v t).folders folder).getD [])).filter
      (fun p => globMatch (partName key.1 key.2.1 key.2.2 ++ ['*', '.', 's', 'o']) p.1)).map Prod.fst) (t + 1) d

/-- `_load_func_dict`, fformfit.py:312-327. -/
def loadFuncDictDuring (L : Listing) (v : ℕ → Disk) (d : Disk) (fform : FFormContainer) (folder : Key) :
    Except Err (FuncDict × ℕ × Disk) :=
  (funcKeys fform).foldlM (fun acc key => do
    let (fs, t, d) ← loadPartDuring L v folder key acc.2.1 acc.2.2
    return (Dict.set acc.1 key fs, t, d)) ([], 0, d)

/-- `load_model_func`, fformfit.py:280-309. -/
noncomputable def loadModelFuncDuring (L : Listing) (v : ℕ → Disk) (d : Disk) (fform : FFormContainer) (folder : Key) :
    Except Err ((List ℝ → Key → ℤ → Except Err ℂ) × Disk) := do
  let (fd, _, d) ← loadFuncDictDuring L v d fform folder
  return (modelFunc fd, d)

/-- `load_func`, fformfit.py:467-469, at operation `t`. -/
def loadFuncDuring (v : ℕ → Disk) (t : ℕ) (d : Disk) (name : Key) : Except Err (CFunc × Disk) :=
  d.dlopen name (Dict.get? (v t).files name)

/-- The loop of `_load_energy_and_denergy_func`, fformfit.py:615-627: for each number one operation looks whether the file exists and
the next one loads it.  `none`: the loop has not ended after `fuel` rounds. -/
def loadGradsDuring (v : ℕ → Disk) (pre : Key) : ℕ → ℕ → ℕ → Disk → Option (Except Err (List CFunc × Disk))
  | 0, _, _, _ => none
  | fuel + 1, i, t, d =>
      match Dict.get? (v t).files (gradName pre i) with
      | none => some (.ok ([], d))
      | some _ =>
          match loadFuncDuring v (t + 1) d (gradName pre i) with
          | .error e => some (.error e)
          | .ok (f, d) => (loadGradsDuring v pre fuel (i + 1) (t + 2) d).map (fun r => r.map (fun q => (f :: q.1, q.2)))

/-- `_load_energy_and_denergy_func`, fformfit.py:606-630. -/
def loadEnergyAndDenergyDuring (v : ℕ → Disk) (fuel : ℕ) (d : Disk) (name pre : Key) : Option (Except Err (CGrad × Disk)) :=
  match loadFuncDuring v 0 d name with
  | .error e => some (.error e)
  | .ok (f, d) =>
      (loadGradsDuring v pre fuel 0 1 d).map (fun r => r.map (fun q => (fun x => (f x, q.1.map (fun g => g x)), q.2)))

end Shgpy
