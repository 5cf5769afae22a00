import Verif.Model.FData
import Verif.Model.Form

/-!
# Model of the methods `as_pandas` (data_handler.py:325-372, 474-520, 790-836, 998-1038)

A data frame is the list of its rows, index included; the row numbers of `index='none'` are left out.  `repr` of a container
is the `repr` of the frame, so it fails when `as_pandas` does.
-/

namespace Shgpy

/-- `'multi'`. -/
def sMulti : Key := ['m', 'u', 'l', 't', 'i']
/-- `'none'`. -/
def sNone : Key := ['n', 'o', 'n', 'e']

/-- `pd.MultiIndex.from_product((a1, a2))`. -/
def indexProduct {α β : Type} (a1 : List α) (a2 : List β) : List (α × β) := a1.flatMap (fun a => a2.map (fun b => (a, b)))

/-- `np.array(rows).flatten()`: rows of different lengths raise `ValueError` (numpy 1.24 and later). -/
def flattenRows {α : Type} (rows : List (List α)) : Except Err (List α) :=
  match rows with
  | [] => .ok []
  | r :: rs => if rs.all (fun r' => r'.length = r.length) then .ok (r :: rs).flatten else .error .valueError

/-- `pd.DataFrame(values, index=index)`: the lengths must agree. -/
def dataFrame {α β : Type} (values : List β) (index : List α) : Except Err (List (α × β)) :=
  if values.length = index.length then .ok (index.zip values) else .error .valueError

section
variable {K : Type} [Field K] [LinearOrder K] [IsStrictOrderedRing K] [FloorRing K] [HasPi K]

/-- `DataContainer.as_pandas`, data_handler.py:325-372.  A row is a combination, an angle and a value.  For an `index` other
than `'multi'` and `'none'` the variable `df` is never assigned. -/
def DataContainer.asPandas (c : DataContainer K) (units index : Key) : Except Err (List ((Key × K) × K)) := do
  let a1 := c.getKeys
  let vs ← c.getValues units
  let v0 ← pyGet vs 0
  let a2 := v0.map Prod.fst
  if index = sMulti then
    let rows ← a1.mapM (fun k => do
      let v ← c.getPc k units
      return v.map Prod.snd)
    let raw ← flattenRows rows
    dataFrame raw (indexProduct a1 a2)
  else if index = sNone then
    let frames ← a1.mapM (fun k => do
      let v ← c.getPc k units
      return v.map (fun p => ((k, p.1), p.2)))
    return frames.flatten
  else .error .unboundLocalError

end

/-- `fDataContainer.as_pandas`, data_handler.py:474-520.  A row is a combination, a frequency and a component. -/
def FDataContainer.asPandas (c : FDataContainer) (index : Key) : Except Err (List ((Key × ℤ) × ℂ)) := do
  if index = sMulti then
    let rows ← c.getKeys.mapM (fun k => c.getPc k)
    let raw ← flattenRows rows
    dataFrame raw (indexProduct c.getKeys (freqs c.getM))
  else if index = sNone then
    let frames ← c.getKeys.mapM (fun k => do
      let v ← c.getPc k
      return (freqs c.getM).zip v |>.map (fun p => ((k, p.1), p.2)))
    return frames.flatten
  else .error .unboundLocalError

/-- `fFormContainer.as_pandas`, data_handler.py:790-836. -/
def FFormContainer.asPandas (c : FFormContainer) (index : Key) : Except Err (List ((Key × ℤ) × PyObj)) := do
  if index = sMulti then
    let rows ← c.getKeys.mapM (fun k => do
      let v ← c.getPc k
      return v.objs)
    let raw ← flattenRows rows
    dataFrame raw (indexProduct c.getKeys (freqs c.getM))
  else if index = sNone then
    let frames ← c.getKeys.mapM (fun k => do
      let v ← c.getPc k
      return (freqs c.getM).zip v.objs |>.map (fun p => ((k, p.1), p.2)))
    return frames.flatten
  else .error .unboundLocalError

/-- `FormContainer.as_pandas`, data_handler.py:998-1038.  A row is a combination and a formula. -/
def FormContainer.asPandas (c : FormContainer) (index : Key) : Except Err (List (Key × Expr)) := do
  if index = sMulti then
    let rows ← c.getKeys.mapM (fun k => c.getPc k)
    dataFrame rows c.getKeys
  else if index = sNone then
    c.getKeys.mapM (fun k => do
      let e ← c.getPc k
      return (k, e))
  else .error .unboundLocalError

end Shgpy
