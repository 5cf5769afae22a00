import Verif.Model.FloatFourier

/-!
# Model of `fdat_to_dat` with floating point numbers (data_handler.py:1132-1161)

`Verif.Model.Convert` computes with exact numbers.  Here the sums and products are rounded.  Overflow, underflow, infinities and NaN are
not modelled.
-/

namespace Shgpy

/-- The body of the loop over the items in `fdat_to_dat`, data_handler.py:1157-1160, with a given grid, addition, multiplication and
`np.cos(m * x) + 1j*np.sin(m * x)`.  The result is the list of points (the two rows of the array). -/
noncomputable def invFourierWith (grid : List ℝ) (add mul : ℂ → ℂ → ℂ) (trig : ℤ → ℝ → ℂ) (M : ℕ) (v : List ℂ) :
    Except Err (List (ℝ × ℝ)) := do
  let ydata ← (freqs M).foldlM (fun ydata m => do
    let z ← pyGet v (n2i m M)
    return List.zipWith add ydata (grid.map (fun x => mul z (trig m x)))) (List.replicate grid.length 0)
  return grid.zip (ydata.map Complex.re)

/-- `fdat_to_dat`, data_handler.py:1153-1161, with a given arithmetic.  What the constructor of line 1161 makes of the arrays is
`arrayWith` (`Verif.Model.FloatAngle`), with `mod` for `x % (2*np.pi)`. -/
noncomputable def fdatToDatWith (grid : List ℝ) (add mul : ℂ → ℂ → ℂ) (trig : ℤ → ℝ → ℂ) (mod : ℝ → ℝ) (fdat : FDataContainer) :
    Except Err (DataContainer ℝ) := do
  let iterable ← fdat.getItems.foldlM (fun (it : Dict Key (List (ℝ × ℝ))) kv => do
    let a ← invFourierWith grid add mul trig fdat.getM kv.2
    return Dict.set it kv.1 a) []
  let data ← Dict.mapValsM (arrayWith mod) iterable
  return ⟨data, 1, 0, some 0, false, sRadians⟩

/-- The arithmetic of `fdat_to_dat`. -/
structure FloatSynth (p : ℕ) where
  /-- `float64` -/
  work : FloatArith p
  /-- `2*np.pi`, data_handler.py:133 -/
  turn : ℝ
  /-- `np.linspace(0, 2*np.pi, n, endpoint=False)`, data_handler.py:1155 -/
  grid : ℕ → List ℝ
  /-- `np.cos`, data_handler.py:1159 -/
  cos : ℝ → ℝ
  /-- `np.sin`, data_handler.py:1159 -/
  sin : ℝ → ℝ
  /-- the product of two complex numbers, data_handler.py:1159 -/
  mul : ℂ → ℂ → ℂ

/-- `np.cos(m * x) + 1j*np.sin(m * x)`, data_handler.py:1159.  The product with `1j` and the sum are exact. -/
noncomputable def FloatSynth.trig {p : ℕ} (E : FloatSynth p) (m : ℤ) (x : ℝ) : ℂ :=
  ⟨E.cos (E.work.rnd (m * x)), E.sin (E.work.rnd (m * x))⟩

/-- `fdat_to_dat`, data_handler.py:1132-1161, in floating point arithmetic. -/
noncomputable def fdatToDatFloat {p : ℕ} (E : FloatSynth p) (fdat : FDataContainer) (n : ℕ) : Except Err (DataContainer ℝ) :=
  fdatToDatWith (E.grid n) (fun s t => E.work.rndC (s + t)) E.mul E.trig (fun x => npMod E.work x E.turn) fdat

/-- The product of two complex numbers when all products and sums are rounded. -/
noncomputable def FloatArith.mulC {p : ℕ} (A : FloatArith p) (z w : ℂ) : ℂ :=
  ⟨A.rnd (A.rnd (z.re * w.re) - A.rnd (z.im * w.im)), A.rnd (A.rnd (z.re * w.im) + A.rnd (z.im * w.re))⟩

/-- The product of two complex numbers with fused multiplication and addition (processors with FMA). -/
noncomputable def FloatArith.mulFused {p : ℕ} (A : FloatArith p) (z w : ℂ) : ℂ :=
  ⟨A.rnd (z.re * w.re - A.rnd (z.im * w.im)), A.rnd (z.re * w.im + A.rnd (z.im * w.re))⟩

end Shgpy
