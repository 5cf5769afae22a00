import Verif.Model.FFormFit

/-!
# The order in which `shgpy/fformfit.py` writes files

The module `Verif.Model.FFormFit` says what the disk is after a call.  Here the same calls are modelled as sequences of single
steps on the disk, so that a call can be interrupted between two steps (a crash, a signal, an exception).
-/

namespace Shgpy

/-- Remove an entry of a dictionary. -/
def Dict.erase {κ : Type} [DecidableEq κ] {α : Type} (d : Dict κ α) (k : κ) : Dict κ α := d.filter (fun p => p.1 ≠ k)

/-- One step on the disk.  `shutil.copy` is two steps: the new file exists before it has its content.  A file that is not
complete cannot be loaded (`Content` is `none`); how much of it is there is not modelled. -/
inductive Step
  /-- `Path(name).unlink()`, fformfit.py:375, 446. -/
  | unlink (name : Key)
  /-- `shutil.copy(so_path, name)`, fformfit.py:376, 447. -/
  | write (name : Key) (c : Content)
  /-- Removing one file of a folder, in `shutil.rmtree`, fformfit.py:166 (and 36-41). -/
  | unlinkIn (folder name : Key)
  /-- Removing the folder at the end of `shutil.rmtree`, fformfit.py:166. -/
  | rmdir (folder : Key)
  /-- `Path.mkdir(Path(save_folder))`, fformfit.py:167. -/
  | mkdir (folder : Key)
  /-- `shutil.copy(so_path, Path(save_folder))`, fformfit.py:224-225. -/
  | writeIn (folder name : Key) (c : Content)

/-- The effect of a step. -/
def Disk.step (d : Disk) : Step → Disk
  | .unlink name => { d with files := Dict.erase d.files name }
  | .write name c => { d with files := Dict.set d.files name c }
  | .unlinkIn folder name =>
      { d with folders := Dict.set d.folders folder (Dict.erase ((Dict.get? d.folders folder).getD []) name) }
  | .rmdir folder => { d with folders := Dict.erase d.folders folder }
  | .mkdir folder => { d with folders := Dict.set d.folders folder [] }
  | .writeIn folder name c => { d with folders := Dict.set d.folders folder (Dict.set ((Dict.get? d.folders folder).getD []) name c) }

/-- The disk after some steps. -/
def Disk.after (d : Disk) (steps : List Step) : Disk := steps.foldl Disk.step d

/-- A new process on the same disk: it has loaded nothing. -/
def Disk.restart (d : Disk) : Disk := { d with loaded := [] }

/-- What a call does to the disk, step by step, and what it returns or raises. -/
structure Trace (α : Type) where
  steps : List Step
  result : Except Err α

/-- `if Path(save_filename).exists(): Path(save_filename).unlink()`, fformfit.py:374-375, 445-446. -/
def unlinkSteps (d : Disk) : Option Key → List Step
  | none => []
  | some name => if (Dict.get? d.files name).isSome then [.unlink name] else []

/-- Saving a compiled function, fformfit.py:373-376, 444-447. -/
def saveSteps (d : Disk) (f : CFunc) : Option Key → List Step
  | none => []
  | some name => unlinkSteps d (some name) ++ [.write name none, .write name (some f)]

section
variable (S : Sympy) (C : Compiler)

/-- `_make_energy_func_chunked`, fformfit.py:385-453.  For an empty list the compiler fails; the old file is unlinked before
`shutil.copy` finds that there is nothing to copy. -/
def chunkedTrace (d : Disk) (l : List Expr) (save : Option Key) : Trace CFunc :=
  match l with
  | [] => ⟨unlinkSteps d save, .error (if save.isSome then .fileNotFoundError else .osError)⟩
  | e :: r =>
      let f : CFunc := fun x => r.foldl (fun acc e => acc + C.run e x) (C.run e x)
      ⟨saveSteps d f save, .ok f⟩

/-- `_make_energy_func_wrapper`, fformfit.py:504-534, and `gen_cost_func`, fformfit.py:537-568. -/
noncomputable def costTrace (d : Disk) (fform : FFormContainer) (fdat : FDataContainer) (arguments : Option (List Sym))
    (chunk : Bool) (save : Option Key) : Trace CFunc :=
  if chunk then
    match energyExprList S fform fdat arguments with
    | .error e => ⟨[], .error e⟩
    | .ok l => chunkedTrace C d l save
  else
    match energyExpr S fform fdat arguments with
    | .error e => ⟨[], .error e⟩
    | .ok e => ⟨saveSteps d (C.run e) save, .ok (C.run e)⟩

/-- `_make_denergy_func_auto`, fformfit.py:571-580. -/
def denergySteps (save : Option Key) : List Expr → ℕ → Disk → List Step
  | [], _, _ => []
  | e :: r, i, d =>
      let s := saveSteps d (C.run e) (save.map (fun p => gradName p i))
      s ++ denergySteps save r (i + 1) (d.after s)

/-- `_make_energy_and_denergy_func_wrapper`, fformfit.py:583-603: both expressions are made before the first file is
written. -/
noncomputable def gradTrace (d : Disk) (fform : FFormContainer) (fdat : FDataContainer) (symbols : List Sym)
    (chunk : Bool) (save gradSave : Option Key) : Trace CGrad :=
  if chunk then ⟨[], .error .notImplementedError⟩ else
  match energyExpr S fform fdat (some symbols) with
  | .error e => ⟨[], .error e⟩
  | .ok e =>
      match denergyExpr S symbols.length e with
      | .error e => ⟨[], .error e⟩
      | .ok de =>
          let s := saveSteps d (C.run e) save
          ⟨s ++ denergySteps C gradSave de 0 (d.after s), .ok (fun x => (C.run e x, (de.map C.run).map (fun g => g x)))⟩

/-- `shutil.rmtree(save_folder)` for a folder of files, fformfit.py:36-41, 165-166; files are removed in the order of the
directory. -/
def rmtreeSteps (L : Listing) (d : Disk) (folder : Key) : List Step :=
  match Dict.get? d.folders folder with
  | none => []
  | some content => (L.order content).map (fun p => .unlinkIn folder p.1) ++ [.rmdir folder]

/-- Copying the libraries of one component, fformfit.py:185-230. -/
def copySteps (folder : Key) (fs : List (Key × CFunc)) : List Step :=
  fs.flatMap (fun p => [.writeIn folder p.1 none, .writeIn folder p.1 (some p.2)])

/-- The loops of `_fixed_autowrap_model`, fformfit.py:172-230: when a component raises, the files of the components before it
are already written. -/
def modelLoop (fform : FFormContainer) (symbols : Option (List Sym)) (folder : Key) (numPer : ℤ) :
    List (Key × ℤ × Part) → Trace (List ((Key × ℤ × Part) × List (Key × CFunc)))
  | [] => ⟨[], .ok []⟩
  | key :: r =>
      match modelFuncs S C fform symbols numPer key with
      | .error e => ⟨[], .error e⟩
      | .ok fs =>
          let t := modelLoop fform symbols folder numPer r
          ⟨copySteps folder fs ++ t.steps, t.result.map (fun l => (key, fs) :: l)⟩

/-- `_fixed_autowrap_model`, fformfit.py:153-232, and `gen_model_func`, fformfit.py:235-277: the folder is removed and made
again before anything else. -/
noncomputable def modelTrace (L : Listing) (d : Disk) (fform : FFormContainer) (folder : Key) (numPer : ℤ) :
    Trace (List ℝ → Key → ℤ → Except Err ℂ) :=
  let t := modelLoop S C fform none folder numPer (funcKeys fform)
  ⟨rmtreeSteps L d folder ++ [.mkdir folder] ++ t.steps,
    t.result.map (fun l => modelFunc (Dict.ofPairs (l.map (fun p => (p.1, p.2.map Prod.snd)))))⟩

end

end Shgpy
