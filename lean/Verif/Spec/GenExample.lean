import Verif.Spec.Lowered
import Verif.Spec.Orientation
import Verif.Spec.FitExample
import Verif.Model.GenExample

/-!
# Specification vocabulary for the scripts that generate formulas (C115)
-/

namespace Shgpy.Spec
open PG

/-- The susceptibility tensors that a crystal with the operations `G` can have: real, unchanged by the operations, and unchanged when the
last two indices are exchanged. -/
def realTensors (n : ℕ) (G : Set SymOp) : Set (Tens n) := {T | InvariantUnder G T ∧ SymmetricTensor T ∧ ∀ i, (T i).im = 0}

/-- The matrix with real entries. -/
def realMatrix (R : Fin 3 → Fin 3 → ℚ) : SymOp := Matrix.of (fun i j => (R i j : ℝ))

/-- The crystal with this dipole tensor and no other sources. -/
def dipoleCrystal (T : Tens 3) : Crystal := ⟨fun i j k => T ![i, j, k], 0, 0⟩

/-- The four patterns of a formula with the components `F`, for the values `r` of the parameters. -/
noncomputable def formulaPatterns (F : Key → ℤ → Valuation → ℂ) (r : Sym → ℝ) : Pol → Pol → ℝ → ℂ :=
  fun p q x => pattern 16 (fun m => F (combo p q) m (realVal r)) x

/-- The four patterns of the intensity that a crystal radiates at the angle of incidence `θ`. -/
noncomputable def crystalPatterns (X : Crystal) (θ : ℝ) : Pol → Pol → ℝ → ℂ := fun p q x => (intensity X θ x p q : ℂ)

/-- The number printed by `srepr` is read as the same number. -/
def ReadsNumbers (Rp : Repr) : Prop :=
  ∀ re im, ∃ e, Rp.parse (Rp.srepr (.native re im)) = .ok e ∧ ∀ σ, e.eval σ = (re : ℂ) + (im : ℂ) * Complex.I

/-- `sp.expand(sp.expand_trig(...))` returns the formulas of `formgen` in a shape that the table of Fourier transforms covers. -/
def ExpandsForms (S : Sympy) (ex : Rewriting) (theta : Expr) : Prop :=
  ∀ t form, IsTensor 3 3 t → ¬ OccursIn t phi → formgen S ex theta (some t) none none = .ok form → ∀ k e, form.getPc k = .ok e → Supported e

/-- The deviation of the patterns of the crystal with the dipole tensor `T`, turned by `ψ` about the normal, from the values `y` at `N k`
equally spaced angles: the sum of the four mean squares. -/
noncomputable def crystalSquares (T : Tens 3) (θ ψ : ℝ) (N : Key → ℕ) (y : Key → ℝ → ℝ) : ℝ :=
  ([(Pol.P, Pol.P), (Pol.P, Pol.S), (Pol.S, Pol.P), (Pol.S, Pol.S)].map (fun k =>
    gridMean (N (combo k.1 k.2)) (fun x => |y (combo k.1 k.2) x - intensity (dipoleCrystal T) θ (x + ψ) k.1 k.2| ^ 2))).sum

end Shgpy.Spec
