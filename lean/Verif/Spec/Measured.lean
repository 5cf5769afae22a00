import Verif.Spec.Cubic
import Verif.Spec.Angle

/-!
# Specification vocabulary for measurements in files (C141)
-/

namespace Shgpy.Spec

/-- A scan of one turn that is fine enough for the frequencies up to `M`: more than `2M` angles, and at least four, within one turn, whose
distances are between `h / ρ` and `h`, and which reach the ends of the turn. -/
structure Scan (M : ℕ) (h ρ : ℝ) (pts : List (ℝ × ℝ)) : Prop where
  many : 2 * M < pts.length
  four : 4 ≤ pts.length
  turn : ∀ p ∈ pts, InTurn p.1
  covers : Covers h pts
  spread : Spread h ρ pts

/-- The values lowered by `μ`. -/
def lowered (μ : ℝ) (pts : List (ℝ × ℝ)) : List (ℝ × ℝ) := pts.map (fun p => (p.1, p.2 - μ))

/-- The values of the first list minus those of the second. -/
def difference (pts dark : List (ℝ × ℝ)) : List (ℝ × ℝ) := List.zipWith (fun p q => (p.1, p.2 - q.2)) pts dark

end Shgpy.Spec
