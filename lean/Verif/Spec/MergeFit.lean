import Verif.Spec.Fit
import Verif.Props.Degenerate

/-!
# Specification for fitting several measurements together (C94)
-/

namespace Shgpy.Spec

/-- A formula and a measurement that can be fitted and merged: `M = 16`, no array of plain numbers, and for each combination of the
formula measured components that are machine numbers. -/
structure Fittable (S : Sympy) (p : FFormContainer × FDataContainer) : Prop where
  formula : p.1.Reachable S
  data : p.2.Reachable
  formulaM : p.1.getM = 16
  dataM : p.2.getM = 16
  symbolic : Symbolic p.1
  measured : ∀ k ∈ p.1.getKeys, ∀ m : ℤ, -16 ≤ m → m ≤ 16 → ∃ z, DRepresents p.2 k m z ∧ MachineNumber z

end Shgpy.Spec
