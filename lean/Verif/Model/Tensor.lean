import Verif.Py.Nd

/-!
# Model of the tensor algebra of `shgpy/core/utilities.py` (lines 292-347)
-/

namespace Shgpy

/-- `union`, utilities.py:292-299. -/
def union {α : Type} [DecidableEq α] (arrays : List (List α)) : List α :=
  arrays.foldl (fun ans y => y.foldl (fun ans x => if x ∈ ans then ans else ans ++ [x]) ans) []

section
variable {α : Type} (O : Ops α)

/-- `tensor_product`, utilities.py:302-307.  With no or one argument `tensors[0]` of an empty tuple raises
`IndexError`. -/
def tensorProduct : List (Nd α) → Except Err (Nd α)
  | [] => .error .indexError
  | [_] => .error .indexError
  | [a, b] => .ok (Nd.tensordot0 O a b)
  | a :: rest => do
    let r ← tensorProduct rest
    return Nd.tensordot0 O a r

/-- `index_idx.index(x)`. -/
def listIndex {ι : Type} [DecidableEq ι] (l : List ι) (x : ι) : Except Err ℕ :=
  if x ∈ l then .ok (l.idxOf x) else .error .valueError

/-- `index_idx.remove(x)`. -/
def listRemove {ι : Type} [DecidableEq ι] (l : List ι) (x : ι) : Except Err (List ι) :=
  if x ∈ l then .ok (l.erase x) else .error .valueError

/-- The `while` loop of `tensor_contract`, utilities.py:322-327; `labels` is `index_idx`, the original numbers of the
axes that are left. -/
def contractLoop {ι : Type} [DecidableEq ι] : List (List ι) → Nd α → List ι → Except Err (Nd α)
  | [], ans, _ => .ok ans
  | pair :: rest, ans, labels => do
    let new ← pair.mapM (listIndex labels)
    let p ← pyGet new 0
    let q ← pyGet new 1
    let ans' ← Nd.trace O ans p q
    let labels' ← pair.foldlM listRemove labels
    contractLoop rest ans' labels'

/-- `tensor_contract`, utilities.py:310-328. -/
def tensorContract (t : Nd α) (pairs : List (List ℤ)) : Except Err (Nd α) :=
  contractLoop O pairs t ((List.range t.rank).map (fun i : ℕ => (i : ℤ)))

/-- The index pairs of `transform`, utilities.py:347. -/
def transformPairs (rank : ℕ) : List (List ℤ) :=
  (List.range rank).map (fun i : ℕ => [2 * (i : ℤ) + 1, 2 * (rank : ℤ) + (i : ℤ)])

/-- `transform`, utilities.py:331-347. -/
def transform (t op : Nd α) : Except Err (Nd α) := do
  let prod ← tensorProduct O (List.replicate t.rank op ++ [t])
  tensorContract O prod (transformPairs t.rank)

end

end Shgpy
