import Verif.Spec.Fit

/-!
# Specification vocabulary for the files of fits
-/

namespace Shgpy.Spec

/-- The folders are the same, and so are all files except perhaps those in `names`. -/
def OnlyFiles (names : Key → Prop) (d d' : Disk) : Prop :=
  (∀ p, ¬ names p → Dict.get? d'.files p = Dict.get? d.files p) ∧ ∀ p, Dict.get? d'.folders p = Dict.get? d.folders p

/-- The files are the same, and so are all folders except perhaps the folder `name`. -/
def OnlyFolder (name : Key) (d d' : Disk) : Prop :=
  (∀ p, Dict.get? d'.files p = Dict.get? d.files p) ∧ ∀ p, p ≠ name → Dict.get? d'.folders p = Dict.get? d.folders p

/-- The files that a fit without gradient may write. -/
def CostFile (save load : Option Key) (p : Key) : Prop := load = none ∧ save = some p

/-- The files that a fit of `n` parameters with gradient may write. -/
def GradFile (n : ℕ) (save gradSave load gradLoad : Option Key) (p : Key) : Prop :=
  (load = none ∨ gradLoad = none) ∧ (save = some p ∨ ∃ pre i, gradSave = some pre ∧ i < n ∧ p = gradName pre i)

end Shgpy.Spec
