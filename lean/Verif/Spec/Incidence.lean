import Verif.Spec.Intensity

/-!
# Specification vocabulary: the mirror image of a crystal in its surface
-/

namespace Shgpy.Spec

/-- The sign that a component gets by the reflection at the plane `z = 0`. -/
def signZ (i : Fin 3) : ℂ := if i = 2 then -1 else 1

/-- The mirror image of the crystal in its surface.  The magnetic dipole is an axial vector, so its susceptibility gets one sign
more. -/
noncomputable def Crystal.mirroredZ (X : Crystal) : Crystal :=
  ⟨fun i j k => signZ i * signZ j * signZ k * X.eee i j k, fun i j k => -(signZ i * signZ j * signZ k * X.mee i j k),
    fun i j k l => signZ i * signZ j * signZ k * signZ l * X.qee i j k l⟩

end Shgpy.Spec
