import Verif.Model.Form

/-!
# Model of `save_fform` and `load_fform` (data_handler.py:1633-1670)

`pickle` is taken to store a dictionary of string arrays and to return it; a file is its unpickled content, and opening
a file for writing cannot fail.
-/

namespace Shgpy

/-- `sp.srepr` and `sp.sympify` on strings: sympy promises that parsing `srepr(e)` gives `e` back.  Nothing is assumed
here of strings made from native numbers. -/
structure Repr where
  srepr : PyObj → Key
  parse : Key → Except Err Expr
  round_trip : ∀ e, parse (srepr (.sy e)) = .ok e

/-- The files holding pickled dictionaries of string arrays, by name. -/
abbrev Files := Key → Option (Dict Key (List Key))

/-- `save_fform`, data_handler.py:1655-1670: the file system afterwards. -/
def saveFform (R : Repr) (fs : Files) (c : FFormContainer) (name : Key) : Files :=
  let d : Dict Key (List Key) := c.fform.mapVals (fun v => v.objs.map R.srepr)
  fun n => if n = name then some d else fs n

/-- `load_fform`, data_handler.py:1633-1653.  The container is built with the default `M = 16` (line 1653). -/
def loadFform (S : Sympy) (R : Repr) (fs : Files) (name : Key) : Except Err FFormContainer :=
  match fs name with
  | none => .error .fileNotFoundError
  | some d => do
      let d' ← Dict.mapValsM (fun v => v.mapM R.parse) d
      FFormContainer.init S (d'.map (fun kv => (.str kv.1, .objArr (kv.2.map .sy)))) 16

end Shgpy
