import Verif.Model.FFormFit

/-!
# How the arguments reach the compiled functions (fformfit.py:266-275, 481-483, 498-499)

The functions of the other models take the list of the argument values.  The code passes the address of the first element of an
array (`x.ctypes.data_as(...)`), and the C function reads the words from there on.  Arrays whose elements are not 64 bits wide
are not modelled.
-/

namespace Shgpy

/-- A word of 64 bits, as numpy has written it: a `float64` or an `int64`. -/
inductive Word
  | float (x : ℝ)
  | int (n : ℤ)

/-- The number that an array of the matching dtype shows. -/
def Word.value : Word → ℝ
  | .float x => x
  | .int n => n

/-- The words of an `int64` read as `double`: small numbers that are not negative are the multiples of the smallest positive
`double`; nothing is assumed of the others. -/
structure Bits where
  double : ℤ → ℝ
  small : ∀ n : ℤ, 0 ≤ n → n < 2 ^ 52 → double n = n * (2 : ℝ) ^ (-1074 : ℤ)

/-- The number that the C code reads. -/
def Word.asDouble (B : Bits) : Word → ℝ
  | .float x => x
  | .int n => B.double n

/-- The memory, by the number of the word. -/
abbrev Memory := ℤ → Word

/-- A one-dimensional array: the place of its first element, the distance of its elements (in words; `x[::2]` has distance two
if `x` has distance one, `x[::-1]` a negative one) and their number. -/
structure View where
  base : ℤ
  stride : ℤ
  len : ℕ

/-- The place of an element. -/
def View.addr (a : View) (i : ℕ) : ℤ := a.base + i * a.stride

/-- The elements, as numpy shows them. -/
def View.values (a : View) (mem : Memory) : List ℝ := (List.range a.len).map (fun i : ℕ => (mem (a.addr i)).value)

/-- `x.astype(float)`, fformfit.py:268, 272, 300, 304: a new array, at a place `free`, with distance one. -/
def View.astypeFloat (a : View) (mem : Memory) (free : ℤ) : Memory × View :=
  (fun p => if free ≤ p ∧ p < free + a.len then .float (mem (a.addr (p - free).toNat)).value else mem p, ⟨free, 1, a.len⟩)

/-- What a C function of `n` arguments finds at the address it is given: `xs[0]`, ..., `xs[n-1]`. -/
def readArgs (B : Bits) (mem : Memory) (base : ℤ) (n : ℕ) : List ℝ :=
  (List.range n).map (fun i : ℕ => (mem (base + i)).asDouble B)

/-- The Python function around a compiled function of `n` arguments, fformfit.py:481-483, 498-499. -/
def callFunc (B : Bits) (f : CFunc) (n : ℕ) (mem : Memory) (x : View) : ℝ := f (readArgs B mem x.base n)

/-- A call of a model function with `n` arguments, fformfit.py:266-275, 298-307. -/
def callModel (B : Bits) (g : List ℝ → Key → ℤ → Except Err ℂ) (n : ℕ) (mem : Memory) (free : ℤ) (x : View) (pc : Key) (m : ℤ) :
    Except Err ℂ :=
  g (readArgs B (x.astypeFloat mem free).1 (x.astypeFloat mem free).2.base n) pc m

end Shgpy
