import Verif.Spec.LeastSquares
import Verif.Model.FFormFit

/-!
# Specification vocabulary for fits with an optimizer that finds minima
-/

namespace Shgpy.Spec

/-- Every number of the list is between the bounds at the same place. -/
def Between (bounds : List (ℝ × ℝ)) (x : List ℝ) : Prop :=
  ∀ (i : ℕ) (a lo hi : ℝ), x[i]? = some a → bounds[i]? = some (lo, hi) → lo ≤ a ∧ a ≤ hi

/-- What one expects of `scipy.optimize.least_squares`: a returned point has as many numbers as the guess, is between the bounds,
and no other such point has a residual that is smaller by more than `ε`. -/
def LeastSquaresTo (ε : ℝ) (opt : Optimizer LSCall) : Prop :=
  ∀ call x, opt call = .ok x →
    let allowed := fun y : List ℝ => y.length = call.x0.length ∧ ∀ b, call.bounds = some b → Between (b.1.zip b.2) y
    allowed x ∧ ∀ y, allowed y → |call.func x| ≤ |call.func y| + ε

/-- What one expects of `scipy.optimize.dual_annealing`, in the same way. -/
def AnnealsTo (ε : ℝ) (opt : Optimizer DACall) : Prop :=
  ∀ call x, opt call = .ok x →
    let allowed := fun y : List ℝ => y.length = call.x0.length ∧ ∀ b, call.bounds = some b → Between b y
    allowed x ∧ ∀ y, allowed y → call.func x ≤ call.func y + ε

/-- The optimizer returns a point whenever there is one with the least residual. -/
def FindsLeastSquares (opt : Optimizer LSCall) : Prop :=
  ∀ call : LSCall,
    let allowed := fun y : List ℝ => y.length = call.x0.length ∧ ∀ b, call.bounds = some b → Between (b.1.zip b.2) y
    (∃ x, allowed x ∧ ∀ y, allowed y → |call.func x| ≤ |call.func y|) → ∃ x, opt call = .ok x

/-- The optimizer returns a point whenever there is one with the least value. -/
def FindsAnnealing (opt : Optimizer DACall) : Prop :=
  ∀ call : DACall,
    let allowed := fun y : List ℝ => y.length = call.x0.length ∧ ∀ b, call.bounds = some b → Between b y
    (∃ x, allowed x ∧ ∀ y, allowed y → call.func x ≤ call.func y) → ∃ x, opt call = .ok x

/-- The value of the function that `basinhopping` is called with, when it is called with a function and when it is called with a
function and its gradient. -/
def bhValue (call : BHCall) (x : List ℝ) : ℝ :=
  match call.func with
  | .inl f => f x
  | .inr f => (f x).1

/-- What one expects of `scipy.optimize.basinhopping`, in the same way; the bounds are an option for the local minimizer. -/
def HopsTo (ε : ℝ) (opt : Optimizer BHCall) : Prop :=
  ∀ call x, opt call = .ok x →
    let allowed := fun y : List ℝ => y.length = call.x0.length ∧ ∀ b, Dict.get? call.minimizer sBounds = some (.bounds b) → Between b y
    allowed x ∧ ∀ y, allowed y → bhValue call x ≤ bhValue call y + ε

/-- The values of the parameters are between the bounds, if there are bounds. -/
def Allowed (boundsDict : Option (Dict Sym (ℝ × ℝ))) (l : List Sym) (lo hi r : Sym → ℝ) : Prop :=
  boundsDict.isSome → ∀ s ∈ l, lo s ≤ r s ∧ r s ≤ hi s

end Shgpy.Spec
