import Verif.Spec.Face

/-!
# Specification vocabulary for small errors (C107)
-/

namespace Shgpy.Spec

/-- The length of a list of three, 27 or 81 numbers: the root of the sum of the squared absolute values. -/
noncomputable def size1 (v : CVec) : ℝ := √(∑ i, ‖v i‖ ^ 2)
noncomputable def size3 (t : T3) : ℝ := √(∑ i, ∑ j, ∑ k, ‖t i j k‖ ^ 2)
noncomputable def size4 (t : T4) : ℝ := √(∑ i, ∑ j, ∑ k, ∑ l, ‖t i j k l‖ ^ 2)

/-- The size of the susceptibilities of a crystal. -/
noncomputable def Crystal.size (X : Crystal) : ℝ := size3 X.eee + size3 X.mee + size4 X.qee

/-- The differences of the susceptibilities of two crystals. -/
noncomputable def Crystal.minus (X Y : Crystal) : Crystal := ⟨X.eee - Y.eee, X.mee - Y.mee, X.qee - Y.qee⟩

end Shgpy.Spec
