import Verif.Props.FData
import Verif.Props.DataOps

/-!
# The recorded phase shift in both units (C06, C17)
-/

namespace Shgpy

open Spec

/-- **C06.** `get_phase_shift` answers in the unit it is asked for, in upper or lower case: the answer, taken as an angle in this unit, is
the answer in radians.  Any other unit is a `ValueError`. -/
theorem C06_units {K : Type} [Field K] [LinearOrder K] [IsStrictOrderedRing K] [FloorRing K] [HasPi K] (c : DataContainer K) (u : Key) :
    (lower u = sRadians ∨ lower u = sDegrees → ∃ x, c.getPhaseShift u = .ok x ∧ c.getPhaseShift sRadians = .ok (rad (lower u) x)) ∧
    (¬ (lower u = sRadians ∨ lower u = sDegrees) → c.getPhaseShift u = .error .valueError) := by
  have hr : c.getPhaseShift sRadians = .ok c.phaseShift := rfl
  constructor
  · intro h
    refine ⟨if lower u = sRadians then c.phaseShift else rad2deg c.phaseShift, ?_, ?_⟩
    · unfold DataContainer.getPhaseShift
      rw [checkAngleUnits_ok.2 h]
      dsimp only [bind, Except.bind]
      split <;> rfl
    · rw [hr]
      rcases h with h | h
      · simp [h, rad, show ¬ (sRadians = sDegrees) by decide]
      · simp only [h, rad, if_true, show ¬ (sDegrees = sRadians) by decide, if_false, rad2deg]
        have := (HasPi.pi_pos (K := K)).ne'
        congr 1
        field_simp
  · intro h
    unfold DataContainer.getPhaseShift
    rw [checkAngleUnits_error.2 ⟨h, rfl⟩]
    rfl

/-- **C17.** The same for Fourier data, after any history. -/
theorem C17_units {c : FDataContainer} (hc : c.Reachable) (u : Key) :
    (lower u = sRadians ∨ lower u = sDegrees →
      ∃ x, c.getPhaseShift u = .ok (.num x) ∧ c.getPhaseShift sRadians = .ok (.num (rad (lower u) x))) ∧
    (¬ (lower u = sRadians ∨ lower u = sDegrees) → c.getPhaseShift u = .error .valueError) := by
  obtain ⟨iter, M, c₀, ops, h0, rfl⟩ := hc
  obtain ⟨_, _, a, ha, _⟩ := C17_history_closed_form h0 ops
  generalize FDataContainer.run c₀ ops = c at ha ⊢
  have hr : c.getPhaseShift sRadians = .ok c.phaseShift := rfl
  have hp : c.phaseShift = .num a := Except.ok.inj (hr.symm.trans ha)
  constructor
  · intro h
    refine ⟨if lower u = sDegrees then rad2deg a else a, ?_, ?_⟩
    · unfold FDataContainer.getPhaseShift
      rw [checkAngleUnits_ok.2 h, hp]
      dsimp only [bind, Except.bind]
      split <;> rfl
    · rw [ha]
      rcases h with h | h
      · simp [h, rad, show ¬ (sRadians = sDegrees) by decide]
      · simp only [h, rad, if_true, rad2deg]
        have : (HasPi.pi : ℝ) ≠ 0 := Real.pi_ne_zero
        congr 2
        field_simp
  · intro h
    unfold FDataContainer.getPhaseShift
    rw [checkAngleUnits_error.2 ⟨h, rfl⟩]
    rfl

/-- A container with a phase shift of 90 degrees, which is π / 2, meets the hypotheses of `C17_units`. -/
example : ∃ c₀ : FDataContainer, FDataContainer.init [(.str kPP, .arr1 .complex128 [1, 2, 3])] 1 = .ok c₀ ∧
    (FDataContainer.run c₀ [.phaseShift 90 sDegrees]).Reachable ∧
    (FDataContainer.run c₀ [.phaseShift 90 sDegrees]).getPhaseShift sRadians = .ok (.num (Real.pi / 2)) := by
  refine ⟨⟨[(kPP, [1, 2, 3])], 1, 1, .num 0⟩, rfl, ⟨[(.str kPP, .arr1 .complex128 [1, 2, 3])], 1, _, _, rfl, rfl⟩, ?_⟩
  have hc : FDataContainer.Reachable ⟨[(kPP, [1, 2, 3])], 1, 1, .num 0⟩ :=
    ⟨[(.str kPP, .arr1 .complex128 [1, 2, 3])], 1, _, [], rfl, rfl⟩
  have := (C17_recorded hc).2.2 90 sDegrees 0 (Or.inr (by decide)) rfl
  refine this.trans ?_
  have e : lower sDegrees = sDegrees := by decide
  have e2 : (HasPi.pi : ℝ) = Real.pi := rfl
  rw [e]
  simp only [rad, if_true, e2]
  congr 2
  ring

end Shgpy
