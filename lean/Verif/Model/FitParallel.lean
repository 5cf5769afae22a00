import Verif.Model.FitCrash

/-!
# Several processes that save functions at the same time

`Verif.Model.FitCrash` has the steps of one call.  Here any number of processes save compiled functions on a common file system
with directory entries and inodes, and are interleaved in any way.  Files are lists of bytes; a file is written byte by byte, so
that every division of `shutil.copy` into larger pieces is one of the interleavings.
-/

namespace Shgpy

/-- A file system: names of files and their inodes, the bytes of each inode, the next inode number. -/
structure FS where
  names : Dict Key ℕ
  content : ℕ → List ℕ
  next : ℕ

/-- What is read from a file: `none` when there is no file of this name. -/
def FS.read (fs : FS) (name : Key) : Option (List ℕ) := (Dict.get? fs.names name).map fs.content

/-- Where a process is in fformfit.py:373-376 (and 444-447). -/
inductive Stage
  /-- Before `Path(save_filename).exists()`, line 374. -/
  | check
  /-- Before `Path(save_filename).unlink()`, line 375. -/
  | unlink
  /-- Before `shutil.copy` opens the new file for writing, line 376. -/
  | openW
  /-- `shutil.copy` has opened the inode and has written so many bytes, line 376. -/
  | copy (inode written : ℕ)
  deriving DecidableEq

/-- A process: the files it has still to save (name, bytes of the library), where it is with the first of them, and whether an
exception has ended it. -/
structure Proc where
  jobs : List (Key × List ℕ)
  stage : Stage
  failed : Bool

/-- A process at the start. -/
def Proc.start (jobs : List (Key × List ℕ)) : Proc := ⟨jobs, .check, false⟩

/-- Write one byte at a position of a file; a gap is filled with zeros, as `write(2)` does. -/
def writeAt (l : List ℕ) (off b : ℕ) : List ℕ :=
  if off < l.length then l.set off b else l ++ List.replicate (off - l.length) 0 ++ [b]

/-- One step of a process, fformfit.py:373-376, 444-447.  `unlink` of a file that is not there raises `FileNotFoundError`; opening
for writing empties a file that is there. -/
def Proc.step (fs : FS) (p : Proc) : FS × Proc :=
  if p.failed then (fs, p) else
  match p.jobs with
  | [] => (fs, p)
  | (name, bytes) :: rest =>
      match p.stage with
      | .check => (fs, { p with stage := if (Dict.get? fs.names name).isSome then .unlink else .openW })
      | .unlink =>
          if (Dict.get? fs.names name).isSome then ({ fs with names := Dict.erase fs.names name }, { p with stage := .openW })
          else (fs, { p with failed := true })
      | .openW =>
          match Dict.get? fs.names name with
          | some i => ({ fs with content := Function.update fs.content i [] }, { p with stage := .copy i 0 })
          | none =>
              ({ names := Dict.set fs.names name fs.next, content := Function.update fs.content fs.next [], next := fs.next + 1 },
                { p with stage := .copy fs.next 0 })
      | .copy i n =>
          match bytes[n]? with
          | some b => ({ fs with content := Function.update fs.content i (writeAt (fs.content i) n b) }, { p with stage := .copy i (n + 1) })
          | none => (fs, { p with jobs := rest, stage := .check })

/-- One step of process number `i`. -/
def stepProc (s : FS × List Proc) (i : ℕ) : FS × List Proc :=
  match s.2[i]? with
  | none => s
  | some p => let (fs, p') := p.step s.1; (fs, s.2.set i p')

/-- All steps of a schedule: the numbers of the processes in the order in which they make a step. -/
def runProcs (s : FS × List Proc) (schedule : List ℕ) : FS × List Proc := schedule.foldl stepProc s

/-- The file that a step completes, with the bytes of the library. -/
def Step.job (lib : CFunc → List ℕ) : Step → Option (Key × List ℕ)
  | .write name (some f) => some (name, lib f)
  | _ => none

/-- The files that a call saves, with the bytes of the libraries: the completed writes in the steps of the call
(`Verif.Model.FitCrash`). -/
def Trace.jobs {α : Type} (lib : CFunc → List ℕ) (t : Trace α) : List (Key × List ℕ) := t.steps.filterMap (Step.job lib)

end Shgpy
