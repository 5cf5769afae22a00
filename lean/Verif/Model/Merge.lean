import Verif.Model.Form
import Verif.Model.FData

/-!
# Model of `merge_containers` (data_handler.py:1341-1399)

`mapping` is a total function into dictionary keys (a mapping that raises is not modelled).  `np.copy` of a formula makes
a zero-dimensional object array, which sympify is taken to unwrap to the formula.  Duplicate warnings of the
`DataContainer` constructor are dropped.
-/

namespace Shgpy

/-- An instance of one of the four container classes. -/
inductive AnyC
  | data (c : DataContainer ℝ)
  | fdata (c : FDataContainer)
  | form (c : FormContainer)
  | fform (c : FFormContainer)

/-- The four classes. -/
inductive Kind
  | data
  | fdata
  | form
  | fform
  deriving DecidableEq

/-- A value yielded by `get_items`. -/
inductive MVal
  | arr2 (pts : List (ℝ × ℝ))
  | arr1 (v : List ℂ)
  | expr (e : Expr)
  | farr (a : FArr)

/-- `type(container)`. -/
def AnyC.kind : AnyC → Kind
  | .data _ => .data
  | .fdata _ => .fdata
  | .form _ => .form
  | .fform _ => .fform

/-- Lines 1384-1387: `container.get_items('radians')` if the first container is a `DataContainer`, otherwise
`container.get_items()`.  A wrong number of arguments raises `TypeError`. -/
noncomputable def AnyC.items (typeD : Bool) : AnyC → Except Err (List (Key × MVal))
  | .data c => if typeD then do
      let d ← c.getItems sRadians
      return d.map (fun kv => (kv.1, .arr2 kv.2))
    else .error .typeError
  | .fdata c => if typeD then .error .typeError else .ok (c.getItems.map (fun kv => (kv.1, .arr1 kv.2)))
  | .form c => if typeD then .error .typeError else .ok (c.getItems.map (fun kv => (kv.1, .expr kv.2)))
  | .fform c => if typeD then .error .typeError else .ok (c.getItems.map (fun kv => (kv.1, .farr kv.2)))

/-- The inner loop over the items of the `i`-th container, lines 1388-1393; `odd` says whether its type differs from
`new_type`. -/
def mergeItems (mapping : Key → ℕ → RawKey) (i : ℕ) (odd : Bool) :
    List (Key × MVal) → Dict RawKey MVal → Except Err (Dict RawKey MVal)
  | [], d => .ok d
  | (k, v) :: r, d =>
      let d := Dict.set d (mapping k i) v
      if odd then .error .typeError else mergeItems mapping i odd r d

/-- The outer loop, lines 1383-1393. -/
noncomputable def mergeLoop (kind : Kind) (mapping : Key → ℕ → RawKey) :
    ℕ → List AnyC → Dict RawKey MVal → Except Err (Dict RawKey MVal)
  | _, [], d => .ok d
  | i, c :: cs, d => do
      let items ← c.items (decide (kind = .data))
      let d ← mergeItems mapping i (decide (c.kind ≠ kind)) items d
      mergeLoop kind mapping (i + 1) cs d

/-- A copied value handed to the `DataContainer` constructor. -/
def MVal.toData : MVal → RawVal ℝ
  | .arr2 pts => .arr2 .float [pts.map Prod.fst, pts.map Prod.snd]
  | _ => .other
/-- A copied value handed to the `fDataContainer` constructor. -/
def MVal.toFData : MVal → RawFVal
  | .arr1 v => .arr1 .complex128 v
  | _ => .other
/-- A copied value handed to the `FormContainer` constructor. -/
def MVal.toForm : MVal → PyObj
  | .expr e => .sy e
  | _ => .native 0 0
/-- A copied value handed to the `fFormContainer` constructor. -/
def MVal.toFForm : MVal → RawFF
  | .farr a => a.toRaw
  | _ => .other

/-- The constructor call, lines 1395-1398, with the default `M = 16` for the Fourier containers. -/
noncomputable def mergeBuild (S : Sympy) (d : Dict RawKey MVal) : Kind → Except Err AnyC
  | .data => do
      let (c, _) ← DataContainer.init (d.map (fun kv => (kv.1, kv.2.toData))) sRadians false
      return .data c
  | .fdata => do
      let c ← FDataContainer.init (d.map (fun kv => (kv.1, kv.2.toFData))) 16
      return .fdata c
  | .form => do
      let c ← FormContainer.init S (d.map (fun kv => (kv.1, kv.2.toForm)))
      return .form c
  | .fform => do
      let c ← FFormContainer.init S (d.map (fun kv => (kv.1, kv.2.toFForm))) 16
      return .fform c

/-- `merge_containers`, data_handler.py:1341-1399; `containers[0]` raises on an empty list. -/
noncomputable def mergeContainers (S : Sympy) (cs : List AnyC) (mapping : Key → ℕ → RawKey) : Except Err AnyC :=
  match cs with
  | [] => .error .indexError
  | c₀ :: _ => do
      let d ← mergeLoop c₀.kind mapping 0 cs []
      mergeBuild S d c₀.kind

end Shgpy
