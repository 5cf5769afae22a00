import Verif.Model.Tensor
import Mathlib.Algebra.BigOperators.Group.List.Basic
import Mathlib.Algebra.Ring.Defs

/-!
# Specification vocabulary for tensors

The elements are taken from a commutative semiring.  An index tuple of a tensor with axes `0, ..., r-1` is described by a
function giving the value of every axis.
-/

namespace Shgpy.Spec

/-- Ring arithmetic. -/
def ringOps (R : Type) [CommSemiring R] : Ops R := ⟨0, (· + ·), (· * ·)⟩

/-- The axes that no pair mentions, in increasing order. -/
def freeAxes (r : ℕ) (pairs : List (ℕ × ℕ)) : List ℕ :=
  (List.range r).filter (fun a => decide (∀ pq ∈ pairs, a ≠ pq.1 ∧ a ≠ pq.2))

/-- The value of axis `a` when the `i`-th pair of axes has the common value `v[i]` and the other axes have the values
given by `f`. -/
def axisValue (pairs : List (ℕ × ℕ)) (v : List ℕ) (f : ℕ → ℕ) (a : ℕ) : ℕ :=
  if ∃ pq ∈ pairs, a = pq.1 ∨ a = pq.2 then
    v.getD (pairs.findIdx (fun pq => decide (a = pq.1 ∨ a = pq.2))) 0
  else f a

/-- The pairs mention different axes of a tensor of rank `r`. -/
def DisjointPairs (r : ℕ) (pairs : List (ℕ × ℕ)) : Prop :=
  (pairs.flatMap (fun pq => [pq.1, pq.2])).Nodup ∧ ∀ pq ∈ pairs, pq.1 < r ∧ pq.2 < r

/-- The contraction: the sum over all values of the pairs (`Nd.tuples` lists the tuples below the given bounds, see
`mem_tuples`), with the two axes of a pair set equal. -/
def contracted {R : Type} [CommSemiring R] (t : Nd R) (pairs : List (ℕ × ℕ)) (f : ℕ → ℕ) : R :=
  ((Nd.tuples (pairs.map (fun pq => min (t.shape.getD pq.1 0) (t.shape.getD pq.2 0)))).map
    (fun v => t.get ((List.range t.rank).map (axisValue pairs v f)))).sum

end Shgpy.Spec

namespace Shgpy.Spec

/-- A tensor of rank `r` all of whose axes have length `d`. -/
def IsTensor (d r : ℕ) {α : Type} (t : Nd α) : Prop := t.shape = List.replicate r d

/-- A matrix with `e` rows and `d` columns. -/
def IsMatrix (e d : ℕ) {α : Type} (A : Nd α) : Prop := A.shape = [e, d]

variable {R : Type} [CommSemiring R]

/-- `A_{i1 j1} * ... * A_{ir jr}`. -/
def coefficient (A : Nd R) (idx js : List ℕ) : R := (List.zipWith (fun i j => A.get [i, j]) idx js).prod

/-- `sum over j1...jr of A_{i1 j1}...A_{ir jr} t_{j1...jr}`. -/
def transformed (A t : Nd R) (idx : List ℕ) : R :=
  ((Nd.tuples t.shape).map (fun js => coefficient A idx js * t.get js)).sum

/-- The product of two matrices. -/
def matMul (B A : Nd R) : Nd R :=
  ⟨[B.shape.getD 0 0, A.shape.getD 1 0],
    fun idx => ((List.range (A.shape.getD 0 0)).map (fun j => B.get [idx.getD 0 0, j] * A.get [j, idx.getD 1 0])).sum⟩

/-- The identity matrix. -/
def identity (d : ℕ) : Nd R := ⟨[d, d], fun idx => if idx.getD 0 0 = idx.getD 1 0 then 1 else 0⟩

/-- The transpose of a matrix. -/
def transpose (A : Nd R) : Nd R := ⟨[A.shape.getD 1 0, A.shape.getD 0 0], fun idx => A.get [idx.getD 1 0, idx.getD 0 0]⟩

/-- Sum of two tensors. -/
def addT (s t : Nd R) : Nd R := ⟨s.shape, fun idx => s.get idx + t.get idx⟩

/-- Multiple of a tensor. -/
def smulT (c : R) (t : Nd R) : Nd R := ⟨t.shape, fun idx => c * t.get idx⟩

end Shgpy.Spec
