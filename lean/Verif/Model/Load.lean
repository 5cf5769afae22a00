import Verif.Model.Convert
import Verif.Model.DataArith

/-!
# Model of the loading functions (data_handler.py:1402-1424, 1491-1536, 1584-1630)

A file is the list of its rows as split by `csv.reader`, each a list of strings.  `float` on strings is a parameter
(`nan` and `inf` are not modelled).  Duplicate warnings are dropped.
-/

namespace Shgpy

/-- The csv files, by name. -/
abbrev CsvFiles := Key → Option (List (List Key))

/-- One row of `read_csv`, data_handler.py:1421-1422. -/
def readRow (float : Key → Option ℝ) (row : List Key) : Except Err (ℝ × ℝ) := do
  let a ← pyGet row 0
  match float a with
  | none => .error .valueError
  | some x =>
    let b ← pyGet row 1
    match float b with
    | none => .error .valueError
    | some y => .ok (x, y)

/-- `read_csv`, data_handler.py:1402-1424. -/
def readCsv (float : Key → Option ℝ) (fs : CsvFiles) (name : Key) : Except Err (RawVal ℝ) :=
  match fs name with
  | none => .error .fileNotFoundError
  | some rows => do
      let pts ← rows.mapM (readRow float)
      return .arr2 .float [pts.map Prod.fst, pts.map Prod.snd]

/-- `load_data`, data_handler.py:1519-1536. -/
noncomputable def loadData (float : Key → Option ℝ) (fs : CsvFiles) (names : Dict Key Key) (units : Key) (n2o : Bool) :
    Except Err (DataContainer ℝ) := do
  let d ← Dict.mapValsM (readCsv float fs) names
  let (c, _) ← DataContainer.init (d.map (fun kv => (.str kv.1, kv.2))) units n2o
  return c

/-- `load_data_and_dark_subtract`, data_handler.py:1491-1516. -/
noncomputable def loadDataAndDarkSubtract (float : Key → Option ℝ) (fs : CsvFiles) (names : Dict Key Key) (units : Key)
    (dark : Dict Key Key) (darkUnits : Key) (n2o : Bool) : Except Err (DataContainer ℝ) :=
  if setEq names.keys dark.keys = false then .error .valueError
  else do
    let dat1 ← loadData float fs names units n2o
    let dat2 ← loadData float fs dark darkUnits n2o
    let (c, _) ← datSubtract dat1 dat2
    return c

/-- `dat.subtract_min()` and `dat.scale_data(s)` as statements: the container afterwards, or the exception. -/
noncomputable def callMethod (c : DataContainer ℝ) (op : DataContainer.Op ℝ) : Except Err (DataContainer ℝ) :=
  match DataContainer.step c op with
  | (c', none) => .ok c'
  | (_, some e) => .error e

/-- Lines 1619-1622: the container before the optional subtraction of the minimum. -/
noncomputable def loadMaybeDark (float : Key → Option ℝ) (fs : CsvFiles) (names : Dict Key Key) (units : Key)
    (n2o : Bool) : Option (Dict Key Key × Key) → Except Err (DataContainer ℝ)
  | some (darkNames, darkUnits) => loadDataAndDarkSubtract float fs names units darkNames darkUnits n2o
  | none => loadData float fs names units n2o

/-- Lines 1623-1624. -/
noncomputable def maybeSubtractMin (minSubtract : Bool) (dat : DataContainer ℝ) : Except Err (DataContainer ℝ) :=
  if minSubtract then callMethod dat .subtractMin else .ok dat

/-- Lines 1626-1629, for `scale != 1`.  `fDataContainer` has no method `scale_data`. -/
noncomputable def scaleBoth (dat : DataContainer ℝ) (scale : ℝ) : Except Err (DataContainer ℝ × FDataContainer) := do
  let _ ← callMethod dat (.scale scale)
  .error .attributeError

/-- `load_data_and_fourier_transform`, data_handler.py:1584-1630. -/
noncomputable def loadDataAndFourierTransform (float : Key → Option ℝ) (fs : CsvFiles) (interp : Interp)
    (names : Dict Key Key) (units : Key) (dark : Option (Dict Key Key × Key)) (M : ℕ) (minSubtract : Bool) (scale : ℝ)
    (n2o : Bool) : Except Err (DataContainer ℝ × FDataContainer) := do
  let dat ← loadMaybeDark float fs names units n2o dark
  let dat ← maybeSubtractMin minSubtract dat
  let fdat ← datToFdat interp dat M
  if scale ≠ 1 then scaleBoth dat scale else .ok (dat, fdat)

end Shgpy
