import Verif.Spec.CostExample
import Verif.Spec.Fit
import Verif.Model.ModelExample

/-!
# Specification vocabulary for the scripts that save and load a model function (C118)
-/

namespace Shgpy.Spec

/-- A later process that has the folder of an earlier one, and has not loaded a library from it. -/
def LaterFolder (folder : Key) (d d' : Disk) : Prop :=
  Dict.get? d'.folders folder = Dict.get? d.folders folder ∧ ∀ name, folder ++ '/' :: name ∉ Dict.keys d'.loaded

/-- The sum over the combinations `k` of the mean of `|y_k(x) - pattern_k(x - ψ)|²` over `N k` equally spaced angles `x`. -/
noncomputable def turnedBackSquares (keys : List Key) (F : Key → ℤ → Valuation → ℂ) (N : Key → ℕ) (y : Key → ℝ → ℝ) (r : Sym → ℝ)
    (ψ : ℝ) : ℝ :=
  (keys.map (fun k => gridMean (N k) (fun x => ‖(y k x : ℂ) - pattern 16 (fun m => F k m (realVal r)) (x - ψ)‖ ^ 2))).sum

/-- The parameters `params` and the curve `fit` are the best for the values `y`, up to `η`, among all parameters between `-100` and `100`
and all angles: the reported parameters have these bounds (and `psi` is between `0` and `2π`), the curves are those of the formula for
these parameters, turned by `-psi`, and the root mean square deviation, taken beyond the part `R` that no parameters can remove, is not
smaller by more than `η` for any other parameters and any other angle. -/
def BestModel (η : ℝ) (fform : FFormContainer) (keys : List Key) (F : Key → ℤ → Valuation → ℂ) (N : Key → ℕ) (y : Key → ℝ → ℝ)
    (params : Dict Key Parameter) (fit : DataContainer ℝ) : Prop :=
  ∃ r ψ, InHundred r ∧ 0 ≤ ψ ∧ ψ ≤ 2 * Real.pi ∧
    (∃ p, Dict.get params ['p', 's', 'i'] = .ok p ∧ p.value = ψ) ∧
    (∀ s, FOccurs fform s → ∃ p, Dict.get params s.name = .ok p ∧ p.value = r s) ∧
    fit.getKeys = [combo .P .P, combo .P .S, combo .S .P, combo .S .S] ∧
    (∀ p q, fit.getPc (combo p q) sRadians =
      .ok (sampled 1000 (fun x => (pattern 16 (fun m => F (combo p q) m (realVal r)) (x - ψ)).re))) ∧
    ∃ R, 0 ≤ R ∧ ∀ r' ψ', R ≤ turnedBackSquares keys F N y r' ψ' ∧ (InHundred r' →
      √(turnedBackSquares keys F N y r ψ - R) ≤ √(turnedBackSquares keys F N y r' ψ' - R) + η)

end Shgpy.Spec
