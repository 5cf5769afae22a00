import Verif.Model.FData

/-!
# Model of `fdat_to_dat` and `dat_to_fdat` (data_handler.py:1132-1161, 1539-1581)

Numbers are exact reals and complex numbers.  `scipy.interpolate.interp1d` is a parameter: a function that from the
points either raises or returns an interpolating function.
-/

namespace Shgpy

/-- `np.linspace(0, 2*np.pi, n, endpoint=False)`. -/
noncomputable def linspace2pi (n : ℕ) : List ℝ := (List.range n).map (fun j : ℕ => (j : ℝ) * (2 * Real.pi / n))

/-- One pass of the loop over `m` in `fdat_to_dat`, data_handler.py:1157-1158. -/
noncomputable def addHarmonic (M : ℕ) (v : List ℂ) (xdata : List ℝ) (ydata : List ℂ) (m : ℤ) :
    Except Err (List ℂ) := do
  let z ← pyGet v (n2i m M)
  return List.zipWith (· + ·) ydata
    (xdata.map (fun x => z * ((Real.cos (m * x) : ℂ) + Complex.I * (Real.sin (m * x) : ℂ))))

/-- The body of the loop over the items in `fdat_to_dat`, data_handler.py:1156-1159. -/
noncomputable def invFourier (M N : ℕ) (v : List ℂ) : Except Err (RawVal ℝ) := do
  let xdata := linspace2pi N
  let ydata ← (freqs M).foldlM (addHarmonic M v xdata) (List.replicate N 0)
  return .arr2 .float [xdata, ydata.map Complex.re]

/-- `fdat_to_dat`, data_handler.py:1132-1161.  The second component of the result lists the combinations for which the
constructor warns about duplicates. -/
noncomputable def fdatToDat (fdat : FDataContainer) (N : ℕ) : Except Err (DataContainer ℝ × List Key) := do
  let iterable ← fdat.getItems.foldlM (fun (it : Dict Key (RawVal ℝ)) kv => do
    let a ← invFourier fdat.getM N kv.2
    return Dict.set it kv.1 a) []
  DataContainer.init (iterable.map (fun kv => (.str kv.1, kv.2))) sRadians false

/-- `interp1d(xdata, ydata, kind=interp_kind, fill_value='extrapolate')`: may raise, otherwise a function. -/
abbrev Interp := List (ℝ × ℝ) → Except Err (ℝ → ℝ)

/-- The body of the inner loop of `dat_to_fdat`, data_handler.py:1575-1580: the component of frequency `m`. -/
noncomputable def fourierSum (interp : Interp) (pts : List (ℝ × ℝ)) (m : ℤ) : Except Err ℂ := do
  let f ← interp pts
  let ix := linspace2pi pts.length
  let iy := ix.map f
  let x1 ← pyGet ix 1
  let x0 ← pyGet ix 0
  let dx := x1 - x0
  let terms ← (List.range ix.length).mapM (fun i : ℕ => do
    let y ← pyGet iy i
    let x ← pyGet ix i
    return (1 / 2 / Real.pi * dx * y : ℝ) * Complex.exp (-1 * Complex.I * m * x))
  return terms.sum

/-- `dat_to_fdat`, data_handler.py:1539-1581.  (`get_pc` is called anew for every frequency, with the same result.) -/
noncomputable def datToFdat (interp : Interp) (dat : DataContainer ℝ) (M : ℕ) : Except Err FDataContainer := do
  let ans : Dict Key (List ℂ) := Dict.ofPairs (dat.getKeys.map (fun k => (k, List.replicate (2 * M + 1) 0)))
  let ans ← dat.getKeys.foldlM (fun ans k => do
    let v ← fillFreqs M 0 (2 * M + 1) (fun m => do
      let pts ← dat.getPc k sRadians
      fourierSum interp pts m)
    return Dict.set ans k v) ans
  FDataContainer.init (ans.map (fun kv => (.str kv.1, .arr1 .complex64 kv.2))) M

end Shgpy
