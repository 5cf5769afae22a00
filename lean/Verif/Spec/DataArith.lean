import Verif.Py.Num
import Mathlib.Data.List.Forall2

/-!
# Specification vocabulary for container arithmetic
-/

namespace Shgpy.Spec

variable {K : Type} [Field K] [LinearOrder K]

/-- numpy's closeness: the absolute difference is at most `1e-8 + 1e-5 * |b|`. -/
def Close (a b : K) : Prop := |a - b| ≤ 1 / 10 ^ 8 + 1 / 10 ^ 5 * |b|

/-- A single point stands for a constant, as in numpy's broadcasting. -/
def expand (p₁ p₂ : List (K × K)) : List (K × K) :=
  match p₂ with
  | [q] => p₁.map (fun _ => q)
  | _ => p₂

/-- The two point lists have (after expansion) equally many, pairwise close angles. -/
def Compatible (p₁ p₂ : List (K × K)) : Prop :=
  List.Forall₂ (fun p q => Close p.1 q.1) p₁ (expand p₁ p₂)

end Shgpy.Spec
