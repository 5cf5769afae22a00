import Verif.Model.FitParallel

/-!
# Specification vocabulary for processes that run at the same time
-/

namespace Shgpy.Spec

/-- No two names are links to the same inode, and inode numbers are handed out in order. -/
def SoundFS (fs : FS) : Prop :=
  (∀ n n' i, Dict.get? fs.names n = some i → Dict.get? fs.names n' = some i → n = n') ∧
  ∀ n i, Dict.get? fs.names n = some i → i < fs.next

/-- No file is to be saved twice, by one process or by two. -/
def Separate (jobs : List (List (Key × List ℕ))) : Prop := (jobs.flatMap (fun js => js.map Prod.fst)).Nodup

/-- A bound for the number of steps that a process needs for its files: the bytes of each, and four more. -/
def stepsNeeded (js : List (Key × List ℕ)) : ℕ := (js.map (fun j => j.2.length + 4)).sum

/-- What a file can be while it is saved: as before, not there, or the beginning of the new content. -/
def InProgress (old new : Option (List ℕ)) (bytes : List ℕ) : Prop :=
  new = old ∨ new = none ∨ ∃ n, new = some (bytes.take n)

end Shgpy.Spec
