import Verif.Spec.FitExample
import Verif.Model.CostExample

/-!
# Specification vocabulary for the scripts that save and load a cost function (C114)
-/

namespace Shgpy.Spec

/-- Two runs of the same sympy: sets may be iterated over in different orders. -/
def SameSympy (S S' : Sympy) : Prop := S'.norm = S.norm

/-- The parameters of the fit: the symbols of the formula, and `psi`. -/
def IsParameter (fform : FFormContainer) (s : Sym) : Prop := FOccurs fform s ∨ s = psi

/-- All parameters are between `-100` and `100`. -/
def InHundred (r : Sym → ℝ) : Prop := ∀ s, |r s| ≤ 100

/-- A later process that has the library `name` of an earlier one, and has not loaded a library of this name. -/
def LaterProcess (name : Key) (d d' : Disk) : Prop :=
  Dict.get? d'.files name = Dict.get? d.files name ∧ name ∉ Dict.keys d'.loaded

/-- The optimizer returns rational numbers, as floats are. -/
def AnnealsFloats (opt : Optimizer DACall) : Prop := ∀ call x, opt call = .ok x → ∀ a ∈ x, ∃ q : ℚ, (q : ℝ) = a

/-- The optimizer returns a point whenever there are rational numbers that are allowed and as good as any allowed point, up to `ε`. -/
def FindsAnnealedFloats (ε : ℝ) (opt : Optimizer DACall) : Prop :=
  ∀ call : DACall,
    let allowed := fun y : List ℝ => y.length = call.x0.length ∧ ∀ b, call.bounds = some b → Between b y
    (∃ x, allowed x ∧ (∀ a ∈ x, ∃ q : ℚ, (q : ℝ) = a) ∧ ∀ y, allowed y → call.func x ≤ call.func y + ε) → ∃ x, opt call = .ok x

end Shgpy.Spec
