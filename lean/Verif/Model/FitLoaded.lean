import Verif.Model.FitParallel

/-!
# Processes that use saved functions while others save

The operating system maps the file of a loaded library into memory: the process keeps the inode, whatever happens to the name, and
sees what is written into this inode.
-/

namespace Shgpy

/-- The file system, the processes that save, and the inodes of the libraries that other processes have loaded. -/
structure FitSystem where
  fs : FS
  procs : List Proc
  loaded : Dict ℕ ℕ

/-- What happens next: a step of the saving process number `i`, or process `r` loads the library of this name with
`ctypes.PyDLL`, fformfit.py:490-493. -/
inductive FitEvent
  | save (i : ℕ)
  | load (r : ℕ) (name : Key)

/-- The effect of an event.  Loading a name that is not there raises `OSError` and changes nothing. -/
def FitSystem.step (s : FitSystem) : FitEvent → FitSystem
  | .save i => let t := stepProc (s.fs, s.procs) i; { s with fs := t.1, procs := t.2 }
  | .load r name =>
      match Dict.get? s.fs.names name with
      | some k => { s with loaded := Dict.set s.loaded r k }
      | none => s

/-- The effect of events one after the other. -/
def FitSystem.run (s : FitSystem) (events : List FitEvent) : FitSystem := events.foldl FitSystem.step s

/-- The bytes of the library that process `r` runs when it calls its function, fformfit.py:495-501. -/
def FitSystem.code (s : FitSystem) (r : ℕ) : Option (List ℕ) := (Dict.get? s.loaded r).map s.fs.content

/-- The system in which processes with these files to save are started. -/
def FitSystem.start (fs : FS) (jobs : List (List (Key × List ℕ))) : FitSystem := ⟨fs, jobs.map Proc.start, []⟩

end Shgpy
