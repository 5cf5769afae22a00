import Verif.Py.Basic

/-!
# What a data frame should hold (C74)
-/

namespace Shgpy
namespace Spec

/-- The rows `((combination, label), value)` of a frame hold exactly the content of a container: every row belongs to one of
the container's combinations, and the rows of a combination are, in order, its labels with their values. -/
def Tabulates {α β : Type} (keys : List Key) (content : Key → Except Err (List (α × β))) (rows : List ((Key × α) × β)) :
    Prop :=
  (∀ r ∈ rows, r.1.1 ∈ keys) ∧
  ∀ k ∈ keys, content k = .ok ((rows.filter (fun r => r.1.1 = k)).map (fun r => (r.1.2, r.2)))

/-- The orders `-M, …, M` of the Fourier components. -/
def orders (M : ℕ) : List ℤ := (List.range (2 * M + 1)).map (fun i : ℕ => (i : ℤ) - (M : ℤ))

end Spec
end Shgpy
