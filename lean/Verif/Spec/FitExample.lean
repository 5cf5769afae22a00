import Verif.Spec.FitCurve
import Verif.Model.FitExample

/-!
# Specification vocabulary for the example scripts (C113)
-/

namespace Shgpy.Spec

/-- The sum over the combinations `k` of the mean of `|y_k(x) - pattern_k(x + ψ)|²` over `N k` equally spaced angles `x`: the deviation
of the pattern, turned by `ψ = r psi`, from the values, when the parameters have the values `r`. -/
noncomputable def turnedSquares (keys : List Key) (M : ℕ) (F : Key → ℤ → Valuation → ℂ) (N : Key → ℕ) (y : Key → ℝ → ℝ)
    (r : Sym → ℝ) : ℝ :=
  (keys.map (fun k => gridMean (N k) (fun x => ‖(y k x : ℂ) - pattern M (fun m => F k m (realVal r)) (x + r psi)‖ ^ 2))).sum

/-- `psi` is between `-π` and `π`, all other parameters between `-2` and `2`. -/
def InBox (r : Sym → ℝ) : Prop := |r psi| ≤ Real.pi ∧ ∀ s, s ≠ psi → |r s| ≤ 2

/-- `rnd` changes the components of Fourier data by at most `δ` and makes them machine numbers. -/
def RoundsTo (δ : ℝ) (rnd : FDataContainer → FDataContainer) : Prop :=
  ∀ c, (rnd c).getM = c.getM ∧ ∀ k m z, DRepresents c k m z →
    ∃ z', DRepresents (rnd c) k m z' ∧ MachineNumber z' ∧ ‖z' - z‖ ≤ δ

/-- The optimizer returns rational numbers, as floats are. -/
def ReturnsFloats (opt : Optimizer LSCall) : Prop := ∀ call x, opt call = .ok x → ∀ a ∈ x, ∃ q : ℚ, (q : ℝ) = a

/-- The optimizer returns a point whenever there are rational numbers that are allowed and as good as any allowed point, up to `ε`. -/
def FindsFloats (ε : ℝ) (opt : Optimizer LSCall) : Prop :=
  ∀ call : LSCall,
    let allowed := fun y : List ℝ => y.length = call.x0.length ∧ ∀ b, call.bounds = some b → Between (b.1.zip b.2) y
    (∃ x, allowed x ∧ (∀ a ∈ x, ∃ q : ℚ, (q : ℝ) = a) ∧ ∀ y, allowed y → |call.func x| ≤ |call.func y| + ε) → ∃ x, opt call = .ok x

/-- What the scripts promise for a formula with the components `F` and the combinations `keys`, interpolated values `y` at `N k`
angles, and parameters that are allowed when `box` holds: the parameters `xdict` that are reported are allowed and determine the turned
pattern, the curve is that of the formula with these parameters, turned by `psi`, and no allowed parameters are better by more than `η`:
the root mean square deviation, taken beyond the part `R` that no parameters can remove, is not smaller by more than `η`. -/
def BestCurveIn (box : (Sym → ℝ) → Prop) (η : ℝ) (keys : List Key) (F : Key → ℤ → Valuation → ℂ) (N : Key → ℕ) (y : Key → ℝ → ℝ)
    (xdict : Dict Sym ℝ) (fit : DataContainer ℝ) : Prop :=
  ∃ r, box r ∧ (∀ s a, Dict.get xdict s = .ok a → r s = a) ∧
    (∀ r', (∀ s a, Dict.get xdict s = .ok a → r' s = a) → ∀ k ∈ keys, ∀ x : ℝ,
      pattern 16 (fun m => F k m (realVal r')) (x + r' psi) = pattern 16 (fun m => F k m (realVal r)) (x + r psi)) ∧
    fit.getKeys = keys ∧
    (∀ k ∈ keys, fit.getPc k sRadians = .ok (sampled 1000 (fun x => (pattern 16 (fun m => F k m (realVal r)) (x + r psi)).re))) ∧
    ∃ R, 0 ≤ R ∧ ∀ r', R ≤ turnedSquares keys 16 F N y r' ∧ (box r' →
      √(turnedSquares keys 16 F N y r - R) ≤ √(turnedSquares keys 16 F N y r' - R) + η)

/-- `BestCurveIn` for the bounds of the scripts that use `least_squares_fit_with_bounds`. -/
def BestCurve (η : ℝ) (keys : List Key) (F : Key → ℤ → Valuation → ℂ) (N : Key → ℕ) (y : Key → ℝ → ℝ) (ret : OptResult)
    (fit : DataContainer ℝ) : Prop :=
  BestCurveIn InBox η keys F N y ret.xdict fit

end Shgpy.Spec
