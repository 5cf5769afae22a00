import Verif.Props.MergeFit
import Verif.Props.FourierTransform

/-!
# Fitting the orientation of the sample (C95)
-/

set_option linter.unusedSectionVars false

namespace Shgpy
open Spec

variable (S : Sympy) (C : Compiler)

theorem shifted_reachable {c : FFormContainer} (hc : c.Reachable S) (a : Expr) :
    (FFormContainer.step S c (.phaseShift a)).1.Reachable S := by
  obtain ⟨iter, M, c₀, ops, h₀, rfl⟩ := hc
  exact ⟨iter, M, c₀, ops ++ [.phaseShift a], h₀, by simp [FFormContainer.run]⟩

/-- The components of phase shifted Fourier data. -/
theorem dRepresents_shifted {c : FDataContainer} (hc : c.Reachable) (a : ℝ) {u : Key} (hu : lower u = sRadians ∨ lower u = sDegrees)
    {k : Key} {m : ℤ} {z : ℂ} (hz : DRepresents c k m z) :
    DRepresents (FDataContainer.step c (.phaseShift a u)).1 k m (z * Complex.exp (Complex.I * (m * rad (lower u) a))) := by
  have hg := hc.good
  obtain ⟨p, hp⟩ := hg.num
  obtain ⟨v, h1, h2, h3⟩ := hz
  have hang : rad (lower u) a = FDataContainer.angle a u := by
    rcases hu with hu | hu <;> simp [rad, FDataContainer.angle, hu, sRadians, sDegrees, deg2rad]
  rw [FDataContainer.step_phaseShift hg.wf hg.len, if_pos hu, hp]
  refine ⟨mulComp c.M (fun m => harmonic m (FDataContainer.angle a u)) v, ?_, h2, ?_⟩
  · show Dict.get _ k = _
    rw [Dict.get_ok_iff, Dict.get?_mapVals, Dict.get_ok_iff.1 h1]
    rfl
  · have hM : c.getM = c.M := rfl
    show (mulComp c.M _ v)[(m + (c.M : ℤ)).toNat]? = _
    rw [hM] at h2 h3
    rw [getElem?_mulComp (by omega), List.getD_eq_getElem?_getD, h3]
    have : (((m + (c.M : ℤ)).toNat : ℕ) : ℤ) - c.M = m := by omega
    rw [this, hang]
    rfl

/-- C95.  The formula is phase shifted by an expression `a`, for example a new parameter.  The cost of the shifted formula, for
parameters `r` for which `a` has the value `α`, is the misfit between the formula that was not shifted and the data shifted back by
`α`. -/
theorem C95_orientation (d : Disk) {fform : FFormContainer} (hc : fform.Reachable S) {fdat : FDataContainer} (hd : fdat.Reachable)
    (a : Expr) {arguments : Option (List Sym)} {l : List Sym}
    (hl : ArgumentOrder S (FFormContainer.step S fform (.phaseShift a)).1 arguments l) (hM : fdat.getM = fform.getM)
    {F : Key → ℤ → Valuation → ℂ} {D : Key → ℤ → ℂ} (hF : FormulaIs fform F) (hD : DataIs fform fdat D) (chunk : Bool)
    (hne : chunk = true → fform.getKeys ≠ []) (save : Option Key) :
    (FFormContainer.step S fform (.phaseShift a)).2 = none ∧
    ∃ f d', genCostFunc S C d (FFormContainer.step S fform (.phaseShift a)).1 fdat arguments chunk save = .ok (f, d') ∧
      ∀ (r : Sym → ℝ) (α : ℝ), a.eval (realVal r) = α → ∃ D',
        (∀ k ∈ fform.getKeys, ∀ m : ℤ, -(fform.getM : ℤ) ≤ m → m ≤ fform.getM →
          DRepresents (FDataContainer.step fdat (.phaseShift (-α) sRadians)).1 k m (D' k m)) ∧
        f (l.map r) = misfit fform.getKeys fform.getM F D' r := by
  obtain ⟨s1, s2, s3⟩ := C32_fform_step S hc (.phaseShift a)
  obtain ⟨s4, s5⟩ : (FFormContainer.step S fform (.phaseShift a)).2 = none ∧ ∀ k m f, FRepresents fform k m f →
      FRepresents (FFormContainer.step S fform (.phaseShift a)).1 k m (fformEffect (.phaseShift a) m f) := by
    rcases s3 with h | ⟨_, _, pairs, h⟩
    · exact h
    · cases h
  refine ⟨s4, ?_⟩
  generalize hc' : (FFormContainer.step S fform (.phaseShift a)).1 = c' at *
  have hr' : c'.Reachable S := hc' ▸ shifted_reachable S hc a
  obtain ⟨f, d', g1, g2⟩ := C57_cost S C d hr' hl (F := fun k m => fformEffect (.phaseShift a) m (F k m)) (D := D) (by rw [hM, s2])
    (by
      intro k hk m h1 h2
      rw [s1] at hk
      rw [s2] at h1 h2
      exact s5 k m _ (hF k hk m h1 h2))
    (by
      intro k hk m h1 h2
      rw [s1] at hk
      rw [s2] at h1 h2
      exact hD k hk m h1 h2) chunk (by rw [s1]; exact hne) save
  refine ⟨f, d', g1, fun r α hα => ⟨fun k m => D k m * Complex.exp (Complex.I * (m * ((-α : ℝ) : ℂ))), ?_, ?_⟩⟩
  · intro k hk m h1 h2
    have := dRepresents_shifted hd (-α) (u := sRadians) (Or.inl rfl) (hD k hk m h1 h2).1
    have e : rad (lower sRadians) (-α) = -α := by
      have : lower sRadians = sRadians := rfl
      rw [this]; simp [rad, sRadians, sDegrees]
    rwa [e] at this
  · rw [g2, s1, s2]
    unfold misfit
    congr 1
    refine List.map_congr_left (fun k _ => Finset.sum_congr rfl (fun m _ => ?_))
    simp only [fformEffect, hα]
    have hunit : ‖Complex.exp (Complex.I * (m * (α : ℂ)))‖ = 1 := by
      rw [show Complex.I * (m * (α : ℂ)) = ((m * α : ℝ) : ℂ) * Complex.I by push_cast; ring]
      exact Complex.norm_exp_ofReal_mul_I _
    have hinv : Complex.exp (Complex.I * (m * ((-α : ℝ) : ℂ))) * Complex.exp (Complex.I * (m * (α : ℂ))) = 1 := by
      rw [← Complex.exp_add]
      rw [show Complex.I * (m * ((-α : ℝ) : ℂ)) + Complex.I * (m * (α : ℂ)) = 0 by push_cast; ring, Complex.exp_zero]
    have : F k m (realVal r) * Complex.exp (Complex.I * (m * (α : ℂ))) - D k m =
        (F k m (realVal r) - D k m * Complex.exp (Complex.I * (m * ((-α : ℝ) : ℂ)))) * Complex.exp (Complex.I * (m * (α : ℂ))) := by
      rw [sub_mul, mul_assoc (D k m), hinv, mul_one]
    rw [this, norm_mul, hunit, mul_one]

open FitCases in
/-- The hypotheses of `C95_orientation` are met with a new parameter as the angle. -/
example (d : Disk) : ∃ l f d', (FFormContainer.step Sympy.plain formula (.phaseShift (.sym ⟨['p'], 1⟩))).1.getFreeSymbols Sympy.plain = .ok l ∧
    genCostFunc Sympy.plain compiler d (FFormContainer.step Sympy.plain formula (.phaseShift (.sym ⟨['p'], 1⟩))).1 data none false none =
      .ok (f, d') := by
  have hr := shifted_reachable Sympy.plain formula_reachable (.sym ⟨['p'], 1⟩)
  obtain ⟨l, hl, _⟩ := (C31_fform_free_symbols Sympy.plain hr).1 (by
    rw [FFormContainer.symbolic_iff hr.good]
    intro it hit
    have e : (FFormContainer.step Sympy.plain formula (.phaseShift (.sym ⟨['p'], 1⟩))).1 =
        ({ formula with fform := formula.fform.mapVals (FFormContainer.shiftF Sympy.plain formula.M (.sym ⟨['p'], 1⟩)) }) := by
      rw [FFormContainer.step_shift Sympy.plain formula_reachable.good]
    rw [e] at hit
    simp only [formula, Dict.mapVals, List.map_cons, List.map_nil, List.mem_singleton] at hit
    subst hit; rfl)
  obtain ⟨_, f, d', h, _⟩ := C95_orientation Sympy.plain compiler d formula_reachable data_reachable (.sym ⟨['p'], 1⟩)
    (arguments := none) (Or.inr ⟨rfl, hl⟩) rfl formulaIs dataIs false (by simp) none
  exact ⟨l, f, d', hl, h⟩

end Shgpy
