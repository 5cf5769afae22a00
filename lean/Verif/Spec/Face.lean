import Verif.Spec.Orientation
import Verif.Spec.Rotation

/-!
# Specification vocabulary for crystals cut along a plane (C106)
-/

namespace Shgpy.Spec
open PG

/-- The scalar product. -/
def scalar3 (a b : Vec) : ℝ := a 0 * b 0 + a 1 * b 1 + a 2 * b 2

/-- The vector product. -/
def vector3 (a b : Vec) : Vec := ![a 1 * b 2 - a 2 * b 1, a 2 * b 0 - a 0 * b 2, a 0 * b 1 - a 1 * b 0]

/-- The direction of the surface normal, `np.array([0, 0, 1])`. -/
def normal : Vec := ![0, 0, 1]

/-- The rotation about the vector `v` by the angle `α` (counterclockwise, seen from the tip of `v`): `v` is left alone, and vectors
perpendicular to it turn by `α`. -/
def RotatesAbout (B : SymOp) (v : Vec) (α : ℝ) : Prop :=
  B.mulVec v = v ∧ ∀ w, scalar3 v w = 0 → B.mulVec w = fun i => Real.cos α * w i + Real.sin α * vector3 (direction v) w i

/-- The reflection at the plane perpendicular to `u`. -/
def ReflectsAlong (B : SymOp) (u : Vec) : Prop := B.mulVec u = -u ∧ ∀ w, scalar3 u w = 0 → B.mulVec w = w

end Shgpy.Spec
