import Verif.Py.Basic

/-!
# Fourier arrays: indexed access and the loop over the frequencies

The library stores component `n ∈ [-M, M]` of a Fourier array at index `n2i(n, M)` and fills such arrays by a
loop `for m in np.arange(-M, M+1): ans[n2i(m, M)] = ...`.
-/

namespace Shgpy

/-- `n2i`, core/data_handler.py:1095-1100 and core/_fourier_transform.py:13-18. -/
def n2i (n : ℤ) (M : ℤ) : ℤ := n + M

/-- `np.arange(-M, M+1)`. -/
def freqs (M : ℕ) : List ℤ := (List.range (2 * M + 1)).map (fun i : ℕ => (i : ℤ) - (M : ℤ))

/-- `l[i] = v` with Python's negative-index convention; `IndexError` outside `[-len, len)`. -/
def pySet {α : Type} (l : List α) (i : ℤ) (v : α) : Except Err (List α) :=
  if 0 ≤ i then
    if i < l.length then .ok (l.set i.toNat v) else .error .indexError
  else
    if 0 ≤ i + l.length then .ok (l.set (i + l.length).toNat v) else .error .indexError

/-- `ans = np.zeros(len); for m in np.arange(-M, M+1): ans[n2i(m, M)] = rhs(m)`; the right-hand side is
evaluated first. -/
def fillFreqs {α : Type} (M : ℕ) (zero : α) (len : ℕ) (rhs : ℤ → Except Err α) : Except Err (List α) :=
  (freqs M).foldlM (fun ans m => do
    let v ← rhs m
    pySet ans (n2i m M) v) (List.replicate len zero)

end Shgpy
