import Verif.Model.Fformgen
import Verif.Model.SaveFform

/-!
# Writing the files of Fourier formulas, step by step

`Verif.Model.Fformgen` and `Verif.Model.SaveFform` have the files before and after a call.  Here a file is written in two steps:
`open(name, 'wb')` creates it, or empties the one that is there, and when all has been written it has its content.  In between, however
many bytes have been written, it is `cut`, and reading it raises.  Which exception that is depends on the number of bytes (`EOFError`,
`UnpicklingError`, `ValueError`, ...): it is a parameter `bad`.  What the system does with written data when it crashes itself is not
modelled.
-/

namespace Shgpy

/-- A file that is being written, or has its content. -/
inductive Saved (α : Type)
  | cut
  | whole (a : α)

/-- The files by name. -/
abbrev Store (α : Type) := Key → Option (Saved α)

/-- A step of a process. -/
inductive WStep (α : Type)
  | create (name : Key)
  | fill (name : Key) (a : α)

variable {α : Type}

/-- The files after a step. -/
def Store.step (s : Store α) : WStep α → Store α
  | .create name => fun n => if n = name then some .cut else s n
  | .fill name a => fun n => if n = name then some (.whole a) else s n

/-- The files after several steps. -/
def Store.after (s : Store α) (l : List (WStep α)) : Store α := l.foldl Store.step s

/-- `np.save(name, a)` (fformgen.py:385-388, 628-631), or `with open(name, 'wb') as fh: pickle.dump(a, fh)` (fformgen.py:124-125,
data_handler.py:1669-1670). -/
def fileSteps (name : Key) (a : α) : List (WStep α) := [.create name, .fill name a]

/-- `np.load` (fformgen.py:115-116), or `with open(name, 'rb') as fh: pickle.load(fh)` (data_handler.py:1646-1647). -/
def Store.load (s : Store α) (bad : Err) (name : Key) : Except Err α :=
  match s name with
  | none => .error .fileNotFoundError
  | some .cut => .error bad
  | some (.whole a) => .ok a

section
variable (S : Sympy)

/-- Lines 329-388 (and 572-631) of fformgen.py: the four files, one after the other. -/
def saveUncontractedSteps (pre : Key) (c s : Expr) (t : List FTensor × List FTensor) : List (WStep (List FTensor)) :=
  fileSteps (pre ++ ['_', 'p', 'p'] ++ ['.', 'n', 'p', 'y']) (substTerms S c (.num 0) s t.1) ++
  fileSteps (pre ++ ['_', 'p', 's'] ++ ['.', 'n', 'p', 'y']) (substTerms S c (.num 0) s t.2) ++
  fileSteps (pre ++ ['_', 's', 'p'] ++ ['.', 'n', 'p', 'y']) (substTerms S (.num 0) (.num (-1)) (.num 0) t.1) ++
  fileSteps (pre ++ ['_', 's', 's'] ++ ['.', 'n', 'p', 'y']) (substTerms S (.num 0) (.num (-1)) (.num 0) t.2)

/-- `generate_uncontracted_fourier_transforms`, fformgen.py:138-388: everything is computed before the first file is written. -/
def uncontractedSteps (aoi : ℚ) (pre : Key) (M : ℕ) : Except Err (List (WStep (List FTensor))) := do
  let kout := substituteIntoArray S [(thetaSym, .num aoi)] (koutSym S)
  let kin := substituteIntoArray S [(thetaSym, .num aoi)] (kinSym S)
  let t ← uncontractedBoth S M kout kin
  return saveUncontractedSteps S pre (.cos (.num aoi)) (.sin (.num aoi)) t

/-- `generate_uncontracted_fourier_transforms_symb`, fformgen.py:391-631. -/
def uncontractedSymbSteps (pre : Key) (M : ℕ) : Except Err (List (WStep (List FTensor))) := do
  let t ← uncontractedBoth S M (koutSym S) (kinSym S)
  return saveUncontractedSteps S pre (S.cos (.sym thetaSym)) (S.sin (.sym thetaSym)) t

/-- The dictionary of `generate_contracted_fourier_transforms`, fformgen.py:685-757 (with `ndigits=None`).  The four files are loaded one
after the other; `v t` are the files when number `t` is loaded. -/
def contractedDuring (v : ℕ → Store (List FTensor)) (bad : Err) (pre : Key) (chiD chiQ : Nd Expr) (M : ℕ) :
    Except Err (Dict Key (List Expr)) := do
  assertRealParams chiD
  assertRealParams chiQ
  let terms ← (List.zip (List.range 4) lowerPc).mapM (fun tpc => do
    let a ← (v tpc.1).load bad (pre ++ ['_'] ++ tpc.2.2 ++ ['.', 'n', 'p', 'y'])
    return (tpc.2.1, a))
  terms.mapM (fun pc => do
    let v ← contractAll S M pc.2 chiD chiQ
    return (pc.1, v))

/-- `generate_contracted_fourier_transforms`, fformgen.py:640-759: the steps with which its file is written.  The file is opened after
everything else has been done. -/
def contractedSteps (R : Repr) (v : ℕ → Store (List FTensor)) (bad : Err) (save pre : Key) (chiD chiQ : Nd Expr) (M : ℕ) :
    Except Err (List (WStep (Dict Key (List Key)))) := do
  let d ← contractedDuring S v bad pre chiD chiQ M
  return fileSteps save (d.mapVals (fun v => v.map (fun e => R.srepr (.sy e))))

/-- `save_fform`, data_handler.py:1655-1670. -/
def saveFformSteps (R : Repr) (c : FFormContainer) (name : Key) : List (WStep (Dict Key (List Key))) :=
  fileSteps name (c.fform.mapVals (fun v => v.objs.map R.srepr))

/-- `load_fform`, data_handler.py:1633-1653. -/
def loadFformFile (R : Repr) (s : Store (Dict Key (List Key))) (bad : Err) (name : Key) : Except Err FFormContainer := do
  let d ← s.load bad name
  let d' ← Dict.mapValsM (fun v => v.mapM R.parse) d
  FFormContainer.init S (d'.map (fun kv => (.str kv.1, .objArr (kv.2.map .sy)))) 16

end

end Shgpy
