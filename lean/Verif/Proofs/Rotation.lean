import Verif.Spec.Rotation
import Verif.Proofs.FormConvert

/-!
# Lemmas on rotation matrices
-/

namespace Shgpy
open Spec

set_option linter.unusedSectionVars false
set_option linter.unusedSimpArgs false

theorem rodrigues_rotation {n : Vec} {c s : ℝ} (hn : n 0 ^ 2 + n 1 ^ 2 + n 2 ^ 2 = 1) (hc : c ^ 2 + s ^ 2 = 1) :
    IsRotation (rodrigues n c s) := by
  generalize hx : n 0 = x at hn
  generalize hy : n 1 = y at hn
  generalize hz : n 2 = z at hn
  refine ⟨?_, ?_, ?_⟩
  · ext i j
    fin_cases i <;> fin_cases j <;>
      simp [rodrigues, Matrix.mul_apply, Fin.sum_univ_three, hx, hy, hz] <;> grind
  · ext i j
    fin_cases i <;> fin_cases j <;>
      simp [rodrigues, Matrix.mul_apply, Fin.sum_univ_three, hx, hy, hz] <;> grind
  · rw [Matrix.det_fin_three]
    simp [rodrigues, hx, hy, hz]
    grind

theorem crossProduct_eq {K : Type} [Ring K] (v w : Fin 3 → K) :
    crossProduct v w = ![v 1 * w 2 - v 2 * w 1, v 2 * w 0 - v 0 * w 2, v 0 * w 1 - v 1 * w 0] := by
  have hf : List.finRange 3 = [0, 1, 2] := rfl
  funext i
  fin_cases i <;>
    simp [crossProduct, crossComponent, hf, leviCivita] <;> abel

end Shgpy
