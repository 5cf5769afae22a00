import Verif.Model.DataContainer
import Mathlib.Algebra.Order.Floor.Ring
import Mathlib.Algebra.Order.Archimedean.Real.Basic

/-!
# Model of the handling of angles with floating point numbers

The other models compute with exact numbers.  Here the additions and the remainder of `shgpy/core/data_handler.py` are those of
floating point numbers with `p` binary digits (`p = 53` for `float64`).  Overflow, underflow, infinities and NaN are not modelled.
-/

namespace Shgpy

/-- A floating point number with `p` binary digits: `m * 2^e` with `|m| < 2^p`.  The exponent is not limited. -/
def IsFloat (p : ℕ) (x : ℝ) : Prop := ∃ m e : ℤ, |m| < 2 ^ p ∧ x = m * (2 : ℝ) ^ e

/-- Arithmetic with `p` binary digits: the result of an operation is a floating point number that is nearest to the exact result.
What happens for ties is not fixed. -/
structure FloatArith (p : ℕ) where
  rnd : ℝ → ℝ
  float : ∀ x, IsFloat p (rnd x)
  nearest : ∀ x y, IsFloat p y → |rnd x - x| ≤ |y - x|

/-- `fmod(x, b)` of the C library, which is exact. -/
noncomputable def fmod (x b : ℝ) : ℝ := if 0 ≤ x then x - b * ⌊x / b⌋ else x - b * ⌈x / b⌉

/-- The remainder `x % b` of NumPy for `b > 0` (`npy_divmod`): `fmod(x, b)`, to which `b` is added if it is negative. -/
noncomputable def npMod {p : ℕ} (A : FloatArith p) (x b : ℝ) : ℝ := if fmod x b < 0 then A.rnd (fmod x b + b) else fmod x b

/-- The inner loop of `_remove_duplicates`, data_handler.py:90-95, with `mod` for `x % (2*np.pi)`. -/
noncomputable def dedupWith (mod : ℝ → ℝ) (kept : List (ℝ × ℝ)) : List (ℝ × ℝ) → List (ℝ × ℝ)
  | [] => kept
  | q :: r => open Classical in
      if mod q.1 ∈ kept.map Prod.fst then dedupWith mod kept r else dedupWith mod (kept ++ [q]) r

/-- What `DataContainer.__init__` makes of one array of floats, in radians and without coercion, data_handler.py:63-65: lines 88-99,
130-135 and 126-128. -/
noncomputable def arrayWith (mod : ℝ → ℝ) (pts : List (ℝ × ℝ)) : Except Err (List (ℝ × ℝ)) :=
  if dedupWith mod [] pts = [] then .error .valueError
  else .ok (sortPts ((dedupWith mod [] pts).map (fun q => (mod q.1, q.2))))

/-- What `phase_shift_data`, data_handler.py:261-263, makes of one array, for an angle in radians: `(v[0]+angle) % (2*np.pi)`,
sorted. -/
noncomputable def shiftWith (add : ℝ → ℝ → ℝ) (mod : ℝ → ℝ) (angle : ℝ) (pts : List (ℝ × ℝ)) : List (ℝ × ℝ) :=
  sortPts (pts.map (fun q => (mod (add q.1 angle), q.2)))

end Shgpy
