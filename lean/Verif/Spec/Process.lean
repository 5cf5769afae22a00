import Verif.Spec.Fit

/-!
# Specification vocabulary: what may happen while a process runs
-/

namespace Shgpy.Spec

/-- The disk `d'` can follow the disk `d` in the same process: the process, or anybody else, writes and removes files and
folders at will, and the process loads libraries, in any order. -/
inductive Later (d : Disk) : Disk → Prop
  | now : Later d d
  | files {d' : Disk} (files : Dict Key Content) : Later d d' → Later d { d' with files := files }
  | folders {d' : Disk} (folders : Dict Key (Dict Key Content)) : Later d d' → Later d { d' with folders := folders }
  | loads {d' d'' : Disk} {path : Key} {content : Option Content} {f : CFunc} :
      Later d d' → d'.dlopen path content = .ok (f, d'') → Later d d''

end Shgpy.Spec
