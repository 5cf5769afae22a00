import Verif.Spec.GenExample
import Verif.Model.CftExample

/-!
# Specification vocabulary for the scripts that use `fformgen` (C117)
-/

namespace Shgpy.Spec
open PG

/-- The crystal with this quadrupole tensor and no other sources. -/
def quadrupoleCrystal (T : Tens 4) : Crystal := ⟨0, 0, fun i j k l => T ![i, j, k, l]⟩

/-- The four patterns of the formula with the components `F` differ by at most `η` from the intensities of the crystal at the angle of
incidence `θ`, turned by half a turn. -/
def PatternsNear (η : ℝ) (F : Key → ℤ → Valuation → ℂ) (r : Sym → ℝ) (X : Crystal) (θ : ℝ) : Prop :=
  ∀ p q x, ‖formulaPatterns F r p q x - (intensity X θ (x + Real.pi) p q : ℂ)‖ ≤ η

/-- The deviation of the patterns of the crystal, turned by `ψ` about the normal, from the values `y` at `N k` equally spaced angles: the
sum of the four mean squares. -/
noncomputable def radiatedSquares (X : Crystal) (θ ψ : ℝ) (N : Key → ℕ) (y : Key → ℝ → ℝ) : ℝ :=
  ([(Pol.P, Pol.P), (Pol.P, Pol.S), (Pol.S, Pol.P), (Pol.S, Pol.S)].map (fun k =>
    gridMean (N (combo k.1 k.2)) (fun x => |y (combo k.1 k.2) x - intensity X θ (x + ψ) k.1 k.2| ^ 2))).sum

/-- The curves of the data differ by at most `η` from the intensities of the crystal, turned by `ψ` about the normal, at 1000 angles. -/
def CurvesNear (η : ℝ) (fit : DataContainer ℝ) (X : Crystal) (θ ψ : ℝ) : Prop :=
  ∀ p q, ∃ f : ℝ → ℝ, fit.getPc (combo p q) sRadians = .ok (sampled 1000 f) ∧ ∀ x, |f x - intensity X θ (x + ψ) p q| ≤ η

end Shgpy.Spec
