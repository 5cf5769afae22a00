import Verif.Spec.Form

/-!
# Specification vocabulary for substitution dictionaries
-/

namespace Shgpy.Spec

/-- The dictionary maps symbols to numbers (expressions without symbols). -/
def Numeric (subs : Dict Sym Expr) : Prop := ∀ p ∈ subs, p.2.free = []

/-- The valuation gives every symbol of the dictionary the value the dictionary has for it. -/
def Agrees (σ : Valuation) (subs : Dict Sym Expr) : Prop :=
  ∀ s v, Dict.get subs s = .ok v → σ s = v.eval σ

end Shgpy.Spec
