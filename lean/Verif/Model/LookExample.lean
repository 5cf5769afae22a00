import Verif.Model.Load
import Verif.Model.SaveFform
import Verif.Model.FormConvert
import Verif.Model.Pandas
import Verif.Model.Plotter

/-!
# Model of the scripts that show data and formulas

`examples/data_plot_example.py`, `examples/pandas_example.py` and `examples/look_at_fformula_example.py`.  Logging, the style of the
curves and the pauses are not part of this model.
-/

namespace Shgpy

/-- A call of a method as a statement: an exception ends the script. -/
noncomputable def dataStatement (c : DataContainer ℝ) (op : DataContainer.Op ℝ) : Except Err (DataContainer ℝ) :=
  match DataContainer.step c op with
  | (c, none) => .ok c
  | (_, some e) => .error e

/-- examples/data_plot_example.py:10-67: the three figures, for any file names, units, style `p` and combinations. -/
noncomputable def plotExample {P : Type} (float : Key → Option ℝ) (csv : CsvFiles) (names : Dict Key Key) (units : Key) (p : P)
    (pcs : List Key) : Except Err (Plot ℝ P × Plot ℝ P × Plot ℝ P) := do
  let dat ← loadData float csv names units false
  let fig1 ← easyPlot [dat] [p] pcs true none false none none
  let dat ← dataStatement dat (.scale 100)
  let dat ← dataStatement dat (.phaseShift (Real.pi / 2) sRadians)
  let fig2 ← easyPlot [dat] [p] pcs true none false none none
  let fig3 ← easyPolarPlot [dat] [p] pcs true none false
  return (fig1, fig2, fig3)

/-- The frames of `examples/pandas_example.py`. -/
structure Frames where
  dat : List ((Key × ℝ) × ℝ)
  fdat : List ((Key × ℤ) × ℂ)
  fform : List ((Key × ℤ) × PyObj)
  form : List (Key × Expr)

/-- examples/pandas_example.py:9-26, for any file names and units. -/
noncomputable def pandasExample (S : Sympy) (R : Repr) (float : Key → Option ℝ) (csv : CsvFiles) (files : Files) (interp : Interp)
    (names : Dict Key Key) (units fformName : Key) : Except Err Frames := do
  let dat ← loadData float csv names units false
  let datDf ← dat.asPandas sDegrees sNone
  let fdat ← datToFdat interp dat 16
  let fdatDf ← fdat.asPandas sMulti
  let fform ← loadFform S R files fformName
  let fformDf ← fform.asPandas sNone
  let form ← fformToForm S fform
  let formDf ← form.asPandas sMulti
  return ⟨datDf, fdatDf, fformDf, formDf⟩

/-- examples/look_at_fformula_example.py:4-13: what is printed, for any file name; `ex` is `sp.simplify(sp.expand(v))`. -/
def lookExample (S : Sympy) (R : Repr) (ex : Rewriting) (files : Files) (fformName : Key) : Except Err (List (Key × List (ℤ × Expr))) := do
  let fform ← loadFform S R files fformName
  fform.getKeys.mapM (fun pc => do
    let v ← fform.getPc pc
    return (pc, v.objs.zipIdx.map (fun p => ((p.2 : ℤ) - 16, ex.run (p.1.sympify S)))))

end Shgpy
