import Verif.Model.FitCrash

/-!
# Several processes that generate model functions at the same time

`Verif.Model.FitCrash` has the steps of one call of `gen_model_func`.  Here any number of processes make such calls on a common file
system and are interleaved in any way.  Compiling and the temporary folders (`tempfile.mkdtemp` makes one of its own for every
process) touch nothing that the processes share and are left out.
-/

namespace Shgpy

/-- What is found under a path: a folder of files, or a file. -/
inductive Node
  | dir (content : Dict Key Content)
  | file (content : Content)

/-- Where a process is in fformfit.py:164-220. -/
inductive MStage
  /-- Before `Path(save_folder).exists()`, line 165, and the listing of the folder by `shutil.rmtree`, line 166 (one step). -/
  | check
  /-- `shutil.rmtree` has still to remove these files, line 166. -/
  | remove (todo : List Key)
  /-- Before the `rmdir` of `shutil.rmtree`, line 166. -/
  | rmdir
  /-- Before `Path.mkdir(Path(save_folder))`, line 167. -/
  | mkdir
  /-- In the loops, lines 172-227: these writes of `shutil.copy` (line 220) are still to be made. -/
  | copy (todo : List (Key × Content))

/-- A process: the folder, the libraries that it copies there in this order, where it is, and whether an exception has ended it. -/
structure MProc where
  folder : Key
  libs : List (Key × CFunc)
  stage : MStage
  failed : Bool

/-- A process at the start. -/
def MProc.start (folder : Key) (libs : List (Key × CFunc)) : MProc := ⟨folder, libs, .check, false⟩

/-- `shutil.copy`, line 220: the new file exists before it has its content (as in `copySteps` of `Verif.Model.FitCrash`). -/
def copyWrites (libs : List (Key × CFunc)) : List (Key × Content) := libs.flatMap (fun p => [(p.1, none), (p.1, some p.2)])

/-- One write of `shutil.copy(so_path, Path(save_folder))`, fformfit.py:220.  In a folder a file is opened or completed; a file that
was removed in between is completed where nobody sees it.  Without a folder, `shutil.copy` takes the path for the name of the new
file.  Which of two files of the same name an open file is, is not modelled: the later one gets the content. -/
def putLib : Option Node → Key → Content → Option Node
  | some (.dir d), name, none => some (.dir (Dict.set d name none))
  | some (.dir d), name, some f => some (.dir (if name ∈ Dict.keys d then Dict.set d name (some f) else d))
  | some (.file _), _, c => some (.file c)
  | none, _, none => some (.file none)
  | none, _, some _ => none

/-- Where a process goes on after `Path(save_folder).exists()`, fformfit.py:165: `shutil.rmtree` lists the folder, in any order;
without a folder nothing is removed (`shutil.rmtree` of a file only warns, fformfit.py:36-41). -/
def listFolder (L : Listing) : Option Node → MStage
  | some (.dir c) => .remove ((L.order c).map Prod.fst)
  | _ => .mkdir

/-- `os.unlink` of a file in the folder, in `shutil.rmtree`, fformfit.py:166: a warning when it is not there. -/
def removeFile : Option Node → Key → Option Node
  | some (.dir c), name => some (.dir (Dict.erase c name))
  | n, _ => n

/-- `os.rmdir` of the folder, in `shutil.rmtree`, fformfit.py:166: a warning when it is not empty or not there. -/
def removeFolder : Option Node → Option Node
  | some (.dir []) => none
  | n => n

/-- One step of a process, fformfit.py:164-220, on what its path has.  `Path.mkdir` raises `FileExistsError` when the path exists. -/
def MProc.step (L : Listing) (n : Option Node) (p : MProc) : Option Node × MProc :=
  if p.failed then (n, p) else
  match p.stage with
  | .check => (n, { p with stage := listFolder L n })
  | .remove [] => (n, { p with stage := .rmdir })
  | .remove (name :: r) => (removeFile n name, { p with stage := .remove r })
  | .rmdir => (removeFolder n, { p with stage := .mkdir })
  | .mkdir =>
      if n.isSome then (n, { p with failed := true })
      else (some (.dir []), { p with stage := .copy (copyWrites p.libs) })
  | .copy [] => (n, p)
  | .copy ((name, c) :: r) => (putLib n name c, { p with stage := .copy r })

/-- The paths of the file system and the processes. -/
abbrev MState := (Key → Option Node) × List MProc

/-- One step of process number `i`. -/
def stepM (L : Listing) (s : MState) (i : ℕ) : MState :=
  match s.2[i]? with
  | none => s
  | some p => (Function.update s.1 p.folder (p.step L (s.1 p.folder)).1, s.2.set i (p.step L (s.1 p.folder)).2)

/-- All steps of a schedule: the numbers of the processes in the order in which they make a step. -/
def runM (L : Listing) (s : MState) (schedule : List ℕ) : MState := schedule.foldl (stepM L) s

/-- The file that a step of a call completes. -/
def Step.lib : Step → Option (Key × CFunc)
  | .writeIn _ name (some f) => some (name, f)
  | _ => none

/-- The libraries that a call copies to its folder, in this order: the completed writes in the steps of the call
(`Verif.Model.FitCrash`). -/
def Trace.libs {α : Type} (t : Trace α) : List (Key × CFunc) := t.steps.filterMap Step.lib

end Shgpy
