import Verif.Spec.DataInput
import Mathlib.Data.Real.Basic
import Verif.Spec.Fourier

/-!
# Specification vocabulary for raw data that `dat_to_fdat` accepts
-/

namespace Shgpy.Spec

/-- The arrays given to the constructor are those of the data: whole numbers that are given in radians would be truncated. -/
def Untruncated (iter : List (RawKey × RawVal ℝ)) (units : Key) : Prop :=
  ∀ k v, (RawKey.str k, v) ∈ Dict.ofPairs iter → ∃ dt xs ys, IsXY v dt xs ys ∧ (dt = .float ∨ units = sDegrees)

end Shgpy.Spec
