import Verif.Model.FitCrash
import Verif.Spec.Files

/-!
# Specification vocabulary for interrupted calls
-/

namespace Shgpy.Spec

/-- The disks that a call can leave behind when it is interrupted between two of its steps (or not at all). -/
def Interrupted {α : Type} (d : Disk) (t : Trace α) (d' : Disk) : Prop := ∃ n, d' = d.after (t.steps.take n)

/-- A new process loads the function `f` from the file `name`. -/
def Loads (d : Disk) (name : Key) (f : CFunc) : Prop := ∃ d', loadFunc d.restart name = .ok (f, d')

/-- Two disks with the same files and folders. -/
def SameFiles (d d' : Disk) : Prop :=
  (∀ p, Dict.get? d'.files p = Dict.get? d.files p) ∧ ∀ p, Dict.get? d'.folders p = Dict.get? d.folders p

/-- The complete library with the given name in a folder. -/
def InFolder (d : Disk) (folder name : Key) (f : CFunc) : Prop :=
  ∃ content, Dict.get? d.folders folder = some content ∧ Dict.get? content name = some (some f)

end Shgpy.Spec
