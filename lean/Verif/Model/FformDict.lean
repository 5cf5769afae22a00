import Verif.Model.FformRound

/-!
# Model of `_save_fform_dict` and `_load_fform_dict` (fformgen.py:119-135)
-/

namespace Shgpy

/-- `_save_fform_dict`, fformgen.py:119-125: the file system afterwards. -/
def saveFformDict (R : Repr) (fs : Files) (save : Key) (d : Dict Key (List PyObj)) : Files :=
  fun n => if n = save then some (d.mapVals (fun v => v.map R.srepr)) else fs n

/-- `_load_fform_dict`, fformgen.py:128-135. -/
def loadFformDict (R : Repr) (fs : Files) (name : Key) : Except Err (Dict Key (List Expr)) :=
  match fs name with
  | none => .error .fileNotFoundError
  | some d => Dict.mapValsM (fun v => v.mapM R.parse) d

end Shgpy
