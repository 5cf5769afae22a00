import Verif.Model.FitLoaded

/-!
# Specification vocabulary for functions in use (C96)
-/

namespace Shgpy.Spec

/-- No file is saved by two processes; one process may save the same file again and again. -/
def OwnFiles (jobs : List (List (Key × List ℕ))) : Prop :=
  ∀ (i j : ℕ) (js ks : List (Key × List ℕ)), jobs[i]? = some js → jobs[j]? = some ks → i ≠ j → ∀ a ∈ js, ∀ b ∈ ks, a.1 ≠ b.1

/-- The library that process `r` has loaded is complete: nobody has bytes left to write into its inode. -/
def CompleteFor (s : FitSystem) (r : ℕ) : Prop :=
  ∃ k, Dict.get? s.loaded r = some k ∧
    ∀ p ∈ s.procs, ∀ name bytes rest n, p.jobs = (name, bytes) :: rest → p.stage = .copy k n → bytes.length ≤ n

/-- Process `r` does not load again. -/
def NotReloaded (r : ℕ) (events : List FitEvent) : Prop := ∀ name, FitEvent.load r name ∉ events

end Shgpy.Spec
