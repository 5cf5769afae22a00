import Verif.Py.Basic

/-!
# Numpy arrays of any rank

An array is its shape together with the element at every index tuple.  Only the elements at index tuples inside the shape
(`Nd.InRange`) mean anything; two arrays are the same array when they agree there (`Nd.Same`).

The elements are numbers or sympy expressions, so the arithmetic that numpy applies to them is a parameter (`Ops`).
-/

namespace Shgpy

/-- The arithmetic of the elements of an array. -/
structure Ops (α : Type) where
  zero : α
  add : α → α → α
  mul : α → α → α

namespace Ops
variable {α : Type}

/-- `f(0) + f(1) + ... + f(n-1)`, in this order, starting from `0`. -/
def sum (O : Ops α) (n : ℕ) (f : ℕ → α) : α := (List.range n).foldl (fun acc i => O.add acc (f i)) O.zero

end Ops

/-- A numpy array. -/
structure Nd (α : Type) where
  shape : List ℕ
  get : List ℕ → α

namespace Nd
variable {α β : Type}

/-- `len(np.shape(a))`. -/
def rank (a : Nd α) : ℕ := a.shape.length

/-- An index tuple inside the shape. -/
def InRange (shape idx : List ℕ) : Prop := List.Forall₂ (fun i d => i < d) idx shape

/-- Two arrays with the same shape and the same elements. -/
def Same (a b : Nd α) : Prop := a.shape = b.shape ∧ ∀ idx, InRange a.shape idx → a.get idx = b.get idx

/-- An array of the same shape, element by element. -/
def map (f : α → β) (a : Nd α) : Nd β := ⟨a.shape, fun idx => f (a.get idx)⟩

/-- `np.tensordot(a, b, axes=0)`. -/
def tensordot0 (O : Ops α) (a b : Nd α) : Nd α :=
  ⟨a.shape ++ b.shape, fun idx => O.mul (a.get (idx.take a.rank)) (b.get (idx.drop a.rank))⟩

/-- The index tuple with the value `i` inserted at the two positions `p` and `q` (positions in the result). -/
def insert2 (p q i : ℕ) (idx : List ℕ) : List ℕ :=
  if p ≤ q then (idx.insertIdx p i).insertIdx q i else (idx.insertIdx q i).insertIdx p i

/-- The list without the entries at the two positions `p` and `q`. -/
def erase2 {γ : Type} (p q : ℕ) (l : List γ) : List γ :=
  if p ≤ q then (l.eraseIdx q).eraseIdx p else (l.eraseIdx p).eraseIdx q

/-- `np.trace(a, axis1=p, axis2=q)`: the sum over the diagonal, which is as long as the shorter of the two axes.  An axis
out of bounds or two equal axes raise `ValueError` (`AxisError` is one). -/
def trace (O : Ops α) (a : Nd α) (p q : ℕ) : Except Err (Nd α) :=
  if p < a.rank ∧ q < a.rank ∧ p ≠ q then
    .ok ⟨erase2 p q a.shape,
      fun idx => O.sum (min (a.shape.getD p 0) (a.shape.getD q 0)) (fun i => a.get (insert2 p q i idx))⟩
  else .error .valueError

/-- All index tuples of a shape, in the order of `a.flatten()`. -/
def tuples : List ℕ → List (List ℕ)
  | [] => [[]]
  | d :: r => (List.range d).flatMap (fun i => (tuples r).map (fun t => i :: t))

/-- `a.flatten()`, as a list. -/
def flatten (a : Nd α) : List α := (tuples a.shape).map a.get

end Nd

end Shgpy
