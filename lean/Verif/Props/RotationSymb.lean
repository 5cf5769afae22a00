import Verif.Model.RotationSymb
import Verif.Props.Rotation

/-!
# Property C38 for `rotation_matrix3symb`
-/

set_option linter.unusedSectionVars false
set_option linter.unusedSimpArgs false

namespace Shgpy
open Spec

/-- The values of the components of an axis. -/
theorem normSymb_eval {ν : Sym → ℝ} {n : Fin 3 → SymE} {v : Vec} (hv : ∀ i, (n i).eval ν = some (v i)) :
    (normSymb n).eval ν = some (norm3 v) := by
  have h : ¬ (v 0 ^ 2 + v 1 ^ 2 + v 2 ^ 2 < 0) := by
    have : 0 ≤ v 0 ^ 2 + v 1 ^ 2 + v 2 ^ 2 := by positivity
    linarith
  simp [normSymb, SymE.eval, hv, h, norm3]

/-- **C38** for symbolic axes and angles.  Under all values of the symbols for which the axis is not zero, the entries have
values, the matrix of these values is the proper rotation about the axis by the value of the angle, the same as that of
`rotation_matrix3`, and the passed axis has become the unit vector of its direction. -/
theorem C38_symbolic {n : Fin 3 → SymE} {t : SymE} {ν : Sym → ℝ} {v : Vec} {τ : ℝ}
    (hn : ∀ i, (n i).eval ν = some (v i)) (ht : t.eval ν = some τ) (hv : v ≠ 0) :
    ∃ (A : Mat) (n' : Vec), (∀ i j, ((rotationMatrix3symb n t).1 i j).eval ν = some (A i j)) ∧
      (∀ i, ((rotationMatrix3symb n t).2 i).eval ν = some (n' i)) ∧
      rotationMatrix3 .float v τ = .ok (A, n') ∧ IsRotation A ∧ A.mulVec v = v ∧ A.trace = 1 + 2 * Real.cos τ ∧
      n' = direction v := by
  obtain ⟨A, n', h1, h2, h3, h4, h5, _⟩ := C38_rotation_partial hv τ
  have h1' := h1
  rw [rotationMatrix3_float hv τ] at h1'
  simp only [Except.ok.injEq, Prod.mk.injEq] at h1'
  have hm := normSymb_eval hn
  have hz := norm3_ne_zero hv
  have hd : ∀ i, ((n i).div (normSymb n)).eval ν = some (direction v i) := by
    intro i
    simp [SymE.eval, hn, hm, hz, direction_eq]
  refine ⟨A, n', ?_, ?_, h1, h2, h3, h4, h5⟩
  · intro i j
    rw [← h1'.1]
    fin_cases i <;> fin_cases j <;>
      simp [rotationMatrix3symb, rodriguesSymb, SymE.oneMinus, SymE.eval.eq_3, SymE.eval.eq_4, SymE.eval.eq_5, SymE.eval.eq_7, SymE.eval.eq_9,
        SymE.eval.eq_10, SymE.eval.eq_2, hd, ht, rodrigues]
  · intro i
    rw [← h1'.2]
    exact hd i

/-- A zero axis: no entry and no component of the axis has a value. -/
theorem C38_symbolic_zero_axis {n : Fin 3 → SymE} {t : SymE} {ν : Sym → ℝ} (hn : ∀ i, (n i).eval ν = some 0) :
    (∀ i j, ((rotationMatrix3symb n t).1 i j).eval ν = none) ∧ ∀ i, ((rotationMatrix3symb n t).2 i).eval ν = none := by
  have hm := normSymb_eval (v := 0) hn
  have h0 : norm3 0 = 0 := by simp [norm3]
  have hd : ∀ i, ((n i).div (normSymb n)).eval ν = none := by
    intro i
    simp [SymE.eval, hn, hm, h0]
  refine ⟨?_, hd⟩
  intro i j
  fin_cases i <;> fin_cases j <;>
    simp [rotationMatrix3symb, rodriguesSymb, SymE.oneMinus, SymE.eval.eq_3, SymE.eval.eq_4, SymE.eval.eq_5, SymE.eval.eq_7, SymE.eval.eq_9,
        SymE.eval.eq_10, SymE.eval.eq_2, hd]

/-- The call of fformgen.py:175: the axis `[0, 0, 1]` and the symbol `phi`, here at `phi = π/2`. -/
example : ∃ (n : Fin 3 → SymE) (ν : Sym → ℝ) (s : Sym), (∀ i, (n i).eval ν = some ((![0, 0, 1] : Vec) i)) ∧
    (SymE.sym s).eval ν = some (Real.pi / 2) ∧ (![0, 0, 1] : Vec) ≠ 0 := by
  refine ⟨![.num 0, .num 0, .num 1], fun _ => Real.pi / 2, ⟨['p', 'h', 'i'], 1⟩, ?_, rfl, ?_⟩
  · intro i
    fin_cases i <;> simp [SymE.eval]
  · intro h
    have := congrFun h 2
    simp at this

end Shgpy
