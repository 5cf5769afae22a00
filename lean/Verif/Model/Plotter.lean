import Verif.Model.DataContainer

/-!
# Model of `shgpy/plotter.py`

The figure is a value: what `matplotlib` is asked to draw.  `P` is the type of the `matplotlib` parameter
dictionaries, which are handed on unread.
-/

namespace Shgpy

section
variable {K P : Type} [Field K] [LinearOrder K] [IsStrictOrderedRing K] [FloorRing K] [HasPi K]

/-- One `Axes` object: the `plot` calls in order, the title, whether `legend` was called, the axis labels and the radial
tick.  Other cosmetics (spines, tick labels, colours, `rmin`) are constants and left out. -/
structure Cell (K P : Type) where
  curves : List (List (K × K) × P) := []
  title : Option Key := none
  legend : Bool := false
  xlabel : Option Key := none
  ylabel : Option Key := none
  rtick : Option (Option K) := none

/-- The outcome of a plotting call: the grid of `Axes` by rows, the file written, if any, and whether the figure was
shown. -/
structure Plot (K P : Type) where
  grid : List (List (Cell K P))
  saved : Option Key
  shown : Bool

/-- The two inner loops, plotter.py:43-45 and 88-90: `zip` stops at the shorter list. -/
def drawCurves (pc : Key) (dats : List (DataContainer K)) (params : List P) :
    Except Err (List (List (K × K) × P)) :=
  (dats.zip params).mapM (fun dp => do
    let v ← dp.1.getPc pc sRadians
    return (v, dp.2))

/-- One round of the outer loops, plotter.py:42-48 and 87-93. -/
def drawCell (dats : List (DataContainer K)) (params : List P) (showLegend : Bool) (pc : Key) (c : Cell K P) :
    Except Err (Cell K P) := do
  let cs ← drawCurves pc dats params
  return { c with curves := c.curves ++ cs, title := some pc, legend := c.legend || showLegend }

/-- The outer loop over `zip(pcs_to_include, axs.flatten())`, plotter.py:42 and 87: cells without partner stay as they
are. -/
def drawCells (dats : List (DataContainer K)) (params : List P) (showLegend : Bool) :
    List Key → List (Cell K P) → Except Err (List (Cell K P))
  | pc :: pcs, c :: cs => do
      let c' ← drawCell dats params showLegend pc c
      let r ← drawCells dats params showLegend pcs cs
      return c' :: r
  | [], cs => return cs
  | _ :: _, [] => return []

/-- `[a, b, c, d][n-1]`, plotter.py:33-34: index `-1` is the last element. -/
def gridEntry (l : List ℕ) (n : ℕ) : Except Err ℕ :=
  match (if n = 0 then l.getLast? else l[n - 1]?) with
  | some m => .ok m
  | none => .error .indexError

/-- `plt.subplots(nrows, ncols, squeeze=False)` flattened and cut into rows again: the array of `Axes` is a row-major
`nrows` by `ncols` array. -/
def toRows (ncols : ℕ) : ℕ → List (Cell K P) → List (List (Cell K P))
  | 0, _ => []
  | n + 1, l => l.take ncols :: toRows ncols n (l.drop ncols)

/-- `plt.setp(axs[-1,:], xlabel=xlabel)` unless `xlabel is None`, plotter.py:49-50. -/
def setXlabel (xlabel : Option Key) (rows : List (List (Cell K P))) : List (List (Cell K P)) :=
  match xlabel with
  | none => rows
  | some x => match rows.getLast? with
    | none => rows
    | some r => rows.dropLast ++ [r.map (fun c => { c with xlabel := some x })]

/-- `plt.setp(axs[:,0], ylabel=ylabel)` unless `ylabel is None`, plotter.py:51-52. -/
def setYlabel (ylabel : Option Key) (rows : List (List (Cell K P))) : List (List (Cell K P)) :=
  match ylabel with
  | none => rows
  | some y => rows.map (fun r => match r with | [] => [] | c :: cs => { c with ylabel := some y } :: cs)

/-- `easy_plot`, plotter.py:5-56.  `matplotlib` itself is assumed to accept its arguments. -/
def easyPlot (dats : List (DataContainer K)) (params : List P) (pcs : List Key) (showPlot : Bool)
    (filename : Option Key) (showLegend : Bool) (xlabel ylabel : Option Key) : Except Err (Plot K P) := do
  let n := pcs.length
  if n > 4 then throw .valueError
  let nrows ← gridEntry [1, 1, 1, 2] n
  let ncols ← gridEntry [1, 2, 3, 2] n
  let cells ← drawCells dats params showLegend pcs (List.replicate (nrows * ncols) {})
  let rows := toRows ncols nrows cells
  return { grid := setYlabel ylabel (setXlabel xlabel rows), saved := filename, shown := showPlot }

/-- `max` of two values where `none` is `-inf`. -/
def optMax : Option K → Option K → Option K
  | none, b => b
  | some a, none => some a
  | some a, some b => if a < b then some b else some a

/-- `max([dat.get_maxval()[1] for dat in list_of_dats])`, plotter.py:99; `none` is `-inf`, the maximum of a container
without combinations, which the constructor of `DataContainer` allows. -/
def maxOfDats (dats : List (DataContainer K)) : Except Err (Option K) := do
  let ms ← dats.mapM (fun d => do
    let m ← d.getMaxval
    return m.map Prod.snd)
  match ms with
  | [] => throw .valueError
  | m :: r => return r.foldl optMax m

/-- The second loop of `easy_polar_plot`, plotter.py:94-102. -/
def decorate (dats : List (DataContainer K)) : List Key → List (Cell K P) → Except Err (List (Cell K P))
  | pc :: pcs, c :: cs => do
      let m ← maxOfDats dats
      let r ← decorate dats pcs cs
      return { c with title := some pc, rtick := some m } :: r
  | [], cs => return cs
  | _ :: _, [] => return []

/-- `easy_polar_plot`, plotter.py:59-106.  `plt.subplots(1, n)` raises `ValueError` for `n = 0`; for `n = 1` it returns a
single `Axes` object, which has no method `flatten` (`AttributeError`). -/
def easyPolarPlot (dats : List (DataContainer K)) (params : List P) (pcs : List Key) (showPlot : Bool)
    (filename : Option Key) (showLegend : Bool) : Except Err (Plot K P) := do
  let n := pcs.length
  if n = 0 then throw .valueError
  if n = 1 then throw .attributeError
  let cells ← drawCells dats params showLegend pcs (List.replicate n {})
  let cells ← decorate dats pcs cells
  return { grid := [cells], saved := filename, shown := showPlot }

end
end Shgpy
