import Verif.Spec.Plot
import Verif.Spec.Angle
import Verif.Spec.Frame
import Verif.Spec.Fit
import Verif.Spec.Fourier
import Verif.Model.LookExample

/-!
# Specification vocabulary for the scripts that show data and formulas (C119)
-/

namespace Shgpy.Spec

/-- The figure is shown, not saved, and has, in order, one plot for each combination, with the combination as its title, no legend, and one
curve in the style `p`, of which `content` holds. -/
def Draws {P : Type} (content : Key → List (ℝ × ℝ) → Prop) (p : P) (pcs : List Key) (fig : Plot ℝ P) : Prop :=
  fig.shown = true ∧ fig.saved = none ∧
  List.Forall₂ (fun pc c => c.title = some pc ∧ c.legend = false ∧ ∃ pts, c.curves = [(pts, p)] ∧ content pc pts) pcs fig.grid.flatten

/-- The points are those of the combination `pc` in `dat`, in radians. -/
def Measured (dat : DataContainer ℝ) (pc : Key) (pts : List (ℝ × ℝ)) : Prop := dat.getPc pc sRadians = .ok pts

/-- The points are those of the combination `pc` in `dat`, with values a hundred times as large at angles a quarter of a turn larger,
ordered by angle, and with angles from `0` to below a full turn. -/
def ScaledAndTurned (dat : DataContainer ℝ) (pc : Key) (pts : List (ℝ × ℝ)) : Prop :=
  NormalForm pts ∧ ∃ pts₀, dat.getPc pc sRadians = .ok pts₀ ∧ Matched (Moved (Real.pi / 2) 100) pts₀ pts

/-- The rows of a frame of Fourier formulas: every row belongs to one of the combinations, and the rows of a combination are, in order, one
for each of the orders `-16, …, 16`, with an expression for the component `F k m`. -/
def TabulatesFormula (keys : List Key) (F : Key → ℤ → Valuation → ℂ) (rows : List ((Key × ℤ) × PyObj)) : Prop :=
  (∀ r ∈ rows, r.1.1 ∈ keys) ∧
  ∀ k ∈ keys, List.Forall₂ (fun m r => r.1.2 = m ∧ ∀ σ, objValue σ r.2 = F k m σ) (orders 16) (rows.filter (fun r => r.1.1 = k))

end Shgpy.Spec
