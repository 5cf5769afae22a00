import Verif.Model.Convert
import Verif.Model.FloatAngle

/-!
# Model of `dat_to_fdat` with floating point numbers (data_handler.py:1539-1581)

`Verif.Model.Convert` computes with exact numbers.  Here the products and sums are rounded to the `p` digits of the numbers that
Python computes with (53), and the components to the `q` digits of the array that they are stored in (`complex64`: 24).  Overflow,
underflow, infinities and NaN are not modelled.
-/

namespace Shgpy

/-- Rounding of a complex number: both parts are rounded. -/
noncomputable def FloatArith.rndC {p : ℕ} (A : FloatArith p) (z : ℂ) : ℂ := ⟨A.rnd z.re, A.rnd z.im⟩

/-- The arithmetic of `dat_to_fdat`: the numbers that are computed with, the numbers that are stored, and what the functions of NumPy
return. -/
structure FloatFourier (p q : ℕ) where
  /-- `float64` -/
  work : FloatArith p
  /-- the parts of `complex64`, data_handler.py:1572 -/
  store : FloatArith q
  /-- `np.linspace(0, 2*np.pi, n, endpoint=False)`, data_handler.py:1577 -/
  grid : ℕ → List ℝ
  /-- `1/2/np.pi*dx` with `dx = interp_xdata[1] - interp_xdata[0]`, data_handler.py:1579-1580 -/
  weight : ℝ → ℝ → ℝ
  /-- `np.exp(-1j*m*x)`, data_handler.py:1580 -/
  expm : ℤ → ℝ → ℂ

/-- The body of the inner loop of `dat_to_fdat`, data_handler.py:1575-1580.  Python's `sum` adds from left to right, and the product is
evaluated from left to right. -/
noncomputable def fourierSumFloat {p q : ℕ} (E : FloatFourier p q) (interp : Interp) (pts : List (ℝ × ℝ)) (m : ℤ) : Except Err ℂ := do
  let f ← interp pts
  let ix := E.grid pts.length
  let iy := ix.map f
  let x1 ← pyGet ix 1
  let x0 ← pyGet ix 0
  let w := E.weight x1 x0
  let terms ← (List.range ix.length).mapM (fun i : ℕ => do
    let y ← pyGet iy i
    let x ← pyGet ix i
    return E.work.rndC ((E.work.rnd (w * y) : ℂ) * E.expm m x))
  return E.store.rndC (terms.foldl (fun s t => E.work.rndC (s + t)) 0)

/-- `dat_to_fdat`, data_handler.py:1572-1581, with a given computation of the components. -/
noncomputable def datToFdatWith (component : List (ℝ × ℝ) → ℤ → Except Err ℂ) (dat : DataContainer ℝ) (M : ℕ) :
    Except Err FDataContainer := do
  let ans : Dict Key (List ℂ) := Dict.ofPairs (dat.getKeys.map (fun k => (k, List.replicate (2 * M + 1) 0)))
  let ans ← dat.getKeys.foldlM (fun ans k => do
    let v ← fillFreqs M 0 (2 * M + 1) (fun m => do
      let pts ← dat.getPc k sRadians
      component pts m)
    return Dict.set ans k v) ans
  FDataContainer.init (ans.map (fun kv => (.str kv.1, .arr1 .complex64 kv.2))) M

/-- `dat_to_fdat`, data_handler.py:1539-1581, in floating point arithmetic. -/
noncomputable def datToFdatFloat {p q : ℕ} (E : FloatFourier p q) (interp : Interp) (dat : DataContainer ℝ) (M : ℕ) :
    Except Err FDataContainer :=
  datToFdatWith (fourierSumFloat E interp) dat M

end Shgpy
