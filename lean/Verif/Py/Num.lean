import Mathlib.Algebra.Order.Floor.Ring
import Mathlib.Algebra.Order.Floor.Semiring
import Mathlib.Algebra.Order.Archimedean.Basic
import Mathlib.Analysis.Real.Pi.Bounds
import Mathlib.Data.Rat.Floor
import Mathlib.Tactic.NormNum
import Mathlib.Tactic.Linarith

/-!
# Numbers

Numpy floats are modelled by exact elements of an ordered field with floor, together with the constant
`np.pi`.  Both `ℝ` with the true `π` and `ℚ` with the exact value of the float64 `np.pi` are instances.
-/

namespace Shgpy

/-- The constant `np.pi`. -/
class HasPi (K : Type) [Field K] [LinearOrder K] where
  pi : K
  pi_pos : 0 < pi

noncomputable instance : HasPi ℝ := ⟨Real.pi, Real.pi_pos⟩

/-- `np.pi` as the exact rational value of the float64 constant. -/
instance : HasPi ℚ := ⟨884279719003555 / 281474976710656, by norm_num⟩

section
variable {K : Type} [Field K] [LinearOrder K] [FloorRing K] [HasPi K]

/-- `2*np.pi`. -/
def twoPi : K := 2 * HasPi.pi

/-- numpy's `x % (2*np.pi)`: the representative with the sign of the divisor. -/
def pmod (x : K) : K := x - twoPi * (⌊x / twoPi⌋ : ℤ)

/-- `np.deg2rad`. -/
def deg2rad (x : K) : K := x * (HasPi.pi / 180)

/-- `np.rad2deg`. -/
def rad2deg (x : K) : K := x * (180 / HasPi.pi)

end
end Shgpy
