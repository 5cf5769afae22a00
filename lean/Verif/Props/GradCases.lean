import Verif.Props.FFormFitCases

/-!
# C70, costs that do not depend on the parameters

The gradient is right or `IndexError` is raised, and the exception occurs only for a misfit that has the same value everywhere.
-/

namespace Shgpy
open Spec

variable (S : Sympy) (C : Compiler)

/-- C70.  For every formula in real symbols and all data the cost with its gradient is right, or there is an `IndexError` and the misfit does
not depend on the parameters. -/
theorem C70_gradient_or_constant (d : Disk) {fform : FFormContainer} (hc : fform.Reachable S) (hreal : RealSymbols fform)
    {fdat : FDataContainer} {l : List Sym} (hl : Lists fform l) (hM : fdat.getM = fform.getM)
    {F : Key → ℤ → Valuation → ℂ} {D : Key → ℤ → ℂ} (hF : FormulaIs fform F) (hD : DataIs fform fdat D)
    (save gradSave : Option Key) :
    (∃ f d', energyAndDenergy S C d fform fdat l false save gradSave = .ok (f, d') ∧ IsMisfitGrad fform F D l f) ∨
    (energyAndDenergy S C d fform fdat l false save gradSave = .error .indexError ∧
      ∀ r₁ r₂ : Sym → ℝ, misfit fform.getKeys fform.getM F D r₁ = misfit fform.getKeys fform.getM F D r₂) := by
  by_cases hne : ∃ r₁ r₂ : Sym → ℝ, misfit fform.getKeys fform.getM F D r₁ ≠ misfit fform.getKeys fform.getM F D r₂
  · obtain ⟨r₁, r₂, hne⟩ := hne
    exact .inl (C70_gradient S C d hc hreal hl hM hF hD hne save gradSave)
  · push Not at hne
    obtain ⟨e, h1, h2⟩ := energyExpr_ok S hc.good (arguments := some l) (Or.inl ⟨rfl, hl⟩) hF (reads_of_dataIs hD hM)
    by_cases he : e.free = []
    · right
      refine ⟨?_, hne⟩
      unfold energyAndDenergy
      simp only [Bool.false_eq_true, if_false]
      rw [h1]
      show (denergyExpr S l.length e >>= _) = _
      unfold denergyExpr
      rw [if_pos he]
      rfl
    · left
      have h4 : denergyExpr S l.length e = .ok ((List.range l.length).map (fun i => S.norm (e.diff (xsElem i)))) := by
        unfold denergyExpr
        rw [if_neg he]
      have h5 : ∃ d', energyAndDenergy S C d fform fdat l false save gradSave =
          .ok (fun x => (C.run e x, (List.range l.length).map (fun i => C.run (S.norm (e.diff (xsElem i))) x)), d') := by
        unfold energyAndDenergy
        simp only [Bool.false_eq_true, if_false]
        rw [h1]
        refine ⟨(denergyFuncs C gradSave ((List.range l.length).map (fun i => S.norm (e.diff (xsElem i)))) 0
            (d.save (C.run e) save)).2, ?_⟩
        show (denergyExpr S l.length e >>= _) = _
        rw [h4]
        show Except.ok _ = _
        simp only [fixedAutowrap, denergyFuncs_fst, List.map_map]
        rfl
      obtain ⟨d', h5⟩ := h5
      refine ⟨_, d', h5, fun r => ⟨h2.run C r, by simp, fun i s hs => ?_⟩⟩
      have hi : i < l.length := (List.getElem?_eq_some_iff.1 hs).1
      refine ⟨C.run (S.norm (e.diff (xsElem i))) (l.map r), ?_, h2.hasDerivAt hl.1 S C r hs⟩
      simp [List.getElem?_map, List.getElem?_range hi]

/-- C70.  Without parameters there is always an `IndexError`. -/
theorem C70_no_parameters (d : Disk) {fform : FFormContainer} (hc : fform.Reachable S) {fdat : FDataContainer}
    (hl : Lists fform []) (hM : fdat.getM = fform.getM) {F : Key → ℤ → Valuation → ℂ} {D : Key → ℤ → ℂ} (hF : FormulaIs fform F)
    (hD : DataIs fform fdat D) (save gradSave : Option Key) :
    energyAndDenergy S C d fform fdat [] false save gradSave = .error .indexError := by
  obtain ⟨e, h1, h2⟩ := energyExpr_ok S hc.good (arguments := some []) (Or.inl ⟨rfl, hl⟩) hF (reads_of_dataIs hD hM)
  have he : e.free = [] := by
    rw [List.eq_nil_iff_forall_not_mem]
    intro s hs
    obtain ⟨j, hj, -⟩ := h2.free s hs
    simp at hj
  unfold energyAndDenergy
  simp only [Bool.false_eq_true, if_false]
  rw [h1]
  show (denergyExpr S _ e >>= _) = _
  unfold denergyExpr
  rw [if_pos he]
  rfl

/-- The hypotheses of `C70_gradient_or_constant` are met. -/
example (d : Disk) (save gradSave : Option Key) :=
  C70_gradient_or_constant Sympy.plain FitCases.compiler d FitCases.formula_reachable FitCases.real_symbols
    (getFreeSymbols_lists FitCases.formula_reachable.good FitCases.free_symbols).2 rfl FitCases.formulaIs FitCases.dataIs save gradSave

/-- A formula without symbols. -/
def constantFormula : FFormContainer := ⟨[(kPP, .obj [.num 1])], 0⟩

/-- Data for it. -/
noncomputable def constantData : FDataContainer := { FitCases.data with fdata := [(kPP, [1])], M := 0 }

/-- The hypotheses of `C70_no_parameters` are met. -/
example : constantFormula.Reachable Sympy.plain ∧ Lists constantFormula [] ∧ FormulaIs constantFormula (fun _ _ _ => 1) ∧
    DataIs constantFormula constantData (fun _ _ => 1) ∧ constantData.getM = constantFormula.getM := by
  refine ⟨⟨[(.str kPP, .objArr [.sy (.num 1)])], 0, constantFormula, [], rfl, rfl⟩, ⟨List.nodup_nil, ?_⟩, ?_, ?_, rfl⟩
  · rintro s ⟨k, a, m, e, ha, ⟨hm, he⟩, hs⟩
    have := Dict.mem_of_get? (Dict.get_ok_iff.1 ha)
    simp only [constantFormula, List.mem_singleton, Prod.mk.injEq] at this
    obtain ⟨rfl, rfl⟩ := this
    have h2 := List.mem_of_getElem? he
    simp only [FArr.objs, List.map_cons, List.map_nil, List.mem_cons, List.not_mem_nil, or_false, PyObj.sy.injEq] at h2
    subst h2
    simp [Expr.free] at hs
  · intro k hk m h1 h2
    simp only [constantFormula, FFormContainer.getKeys, Dict.keys, List.map_cons, List.map_nil, List.mem_singleton] at hk
    subst hk
    have : m = 0 := by
      simp only [constantFormula, FFormContainer.getM] at h1 h2
      omega
    subst this
    exact ⟨_, _, rfl, ⟨⟨by decide, by decide⟩, rfl⟩, fun σ => by simp [objValue, Expr.eval]⟩
  · intro k hk m h1 h2
    simp only [constantFormula, FFormContainer.getKeys, Dict.keys, List.map_cons, List.map_nil, List.mem_singleton] at hk
    subst hk
    have : m = 0 := by
      simp only [constantFormula, FFormContainer.getM] at h1 h2
      omega
    subst this
    exact ⟨⟨_, rfl, ⟨by decide, by decide⟩, by simp [constantData, FDataContainer.getM]⟩, 1, 0, by simp⟩

end Shgpy
