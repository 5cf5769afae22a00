import Verif.Model.DataContainer
import Verif.Model.FData
import Verif.Model.Form

/-!
# Iterables that can be read only once

The constructors of the four containers call `dict(iterable)` two or three times, and `subs` hands its argument to sympy once for
every expression.  A dictionary, a list or a tuple yields the same items every time; an iterator (`zip(...)`, a generator) yields
them the first time and nothing afterwards.
-/

namespace Shgpy

/-- An object that can be iterated over: a collection, or an iterator with the items that are left. -/
inductive Iter (α : Type)
  | collection (items : List α)
  | iterator (items : List α)

namespace Iter

/-- The items when the object is read for the `n`-th time (from 0). -/
def read {α : Type} : Iter α → ℕ → List α
  | .collection l, _ => l
  | .iterator l, 0 => l
  | .iterator _, _ + 1 => []

end Iter

/-- `False in [type(k) == str for k in d.keys()]`, data_handler.py:81 (and 460, 720, 975). -/
def badKey {α : Type} (d : Dict RawKey α) : Bool :=
  d.keys.any (fun k => match k with | .str _ => false | .other _ => true)

section
variable {K : Type} [Field K] [LinearOrder K] [FloorRing K] [HasPi K]

/-- `DataContainer.__init__`, data_handler.py:48-65 with 79-86: `dict(iterable)` is evaluated for the names (line 81), for the
values (line 82) and for the content (line 54).  The content consists of checked values or is empty; `checkIterable` is used for it
only to take the checked values apart. -/
def DataContainer.initFrom (it : Iter (RawKey × RawVal K)) (units : Key) (normalToOblique : Bool) :
    Except Err (DataContainer K × List Key) := do
  checkAngleUnits units
  if badKey (Dict.ofPairs (it.read 0)) || (Dict.ofPairs (it.read 1)).values.any (fun v => (checkVal v).isNone) then
    throw .valueError
  let d ← checkIterable (Dict.ofPairs (it.read 2))
  let d := if units = sDegrees then toRadians d else d
  let d ← if normalToOblique then coerceOblique d else .ok d
  let w := duplicateWarnings d
  let d := removeDuplicates d
  let d ← d.mapValsM modulate
  let d := d.mapVals (fun v => sortPts v.pts)
  return (⟨d, 1, 0, some 0, normalToOblique, units⟩, w)

end

/-- `fDataContainer.__init__`, data_handler.py:442-447 with 456-465 (readings in lines 460, 461 and 445). -/
def FDataContainer.initFrom (it : Iter (RawKey × RawFVal)) (M : ℕ) : Except Err FDataContainer := do
  if badKey (Dict.ofPairs (it.read 0)) || (Dict.ofPairs (it.read 1)).values.any (fun v => (checkFVal M v).isNone) then
    throw .valueError
  let d ← checkFIterable M (Dict.ofPairs (it.read 2))
  return ⟨d, M, 1, .num 0⟩

/-- `fFormContainer.__init__`, data_handler.py:699-703 with 710-727 (readings in lines 720, 721 and 713). -/
def FFormContainer.initFrom (S : Sympy) (it : Iter (RawKey × RawFF)) (M : ℕ) : Except Err FFormContainer := do
  if badKey (Dict.ofPairs (it.read 0)) || (Dict.ofPairs (it.read 1)).values.any (fun v => (checkFFVal M v).isNone) then
    throw .valueError
  let d ← checkFFIterable M (Dict.ofPairs (it.read 2))
  return ⟨d.mapVals (fformArray S), M⟩

/-- `FormContainer.__init__`, data_handler.py:915-918 with 925-929 and 971-979 (readings in lines 975 and 927). -/
def FormContainer.initFrom (S : Sympy) (it : Iter (RawKey × PyObj)) : Except Err FormContainer := do
  if badKey (Dict.ofPairs (it.read 0)) then throw .valueError
  let d ← checkFormIterable (Dict.ofPairs (it.read 1))
  return ⟨d.mapVals (PyObj.sympify S)⟩

/-- The inner loop of `fFormContainer.subs`, data_handler.py:758-759, for the combination number `i`: sympy reads the argument once
for every element. -/
def FFormContainer.subsArrFrom (S : Sympy) (M : ℕ) (it : Iter (Sym × Expr)) (i : ℕ) (a : FArr) : Except Err (List Expr) :=
  fillFreqs M (.num 0) (2 * M + 1) (fun m => do
    let o ← pyGet a.objs (n2i m M)
    o.subs S (it.read (i * (2 * M + 1) + (m + M).toNat)))

/-- `fFormContainer.subs`, data_handler.py:746-760. -/
def FFormContainer.subsFrom (S : Sympy) (c : FFormContainer) (it : Iter (Sym × Expr)) : Except Err FFormContainer := do
  let d ← c.getItems.zipIdx.foldlM (fun (d : Dict Key FArr) p => do
    let v ← (do
      let a ← Dict.get c.fform p.1.1
      let v ← subsArrFrom S c.M it p.2 a
      return FArr.obj v)
    return Dict.set d p.1.1 v) []
  return { c with fform := d }

/-- `FormContainer.subs`, data_handler.py:941-953. -/
def FormContainer.subsFrom (S : Sympy) (c : FormContainer) (it : Iter (Sym × Expr)) : Except Err FormContainer := do
  let d ← c.getItems.zipIdx.foldlM (fun (d : Dict Key Expr) p => do
    let v ← (do
      let e ← Dict.get c.form p.1.1
      return S.subs (it.read p.2) e)
    return Dict.set d p.1.1 v) []
  return { c with form := d }

end Shgpy
