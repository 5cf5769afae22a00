import Verif.Model.Interrupt

/-!
A container that one thread changes while other threads read it.  `get_pc`, `get_items`, `get_scale`, `get_offset` and `get_phase_shift` read
one attribute, data_handler.py:175-241, 265-395, and `get_pc` one entry of the dictionary in it: what they return is the value at one moment.
Simplified: a `get_items` that walks the dictionary while the other thread assigns to its entries is taken as one read of the whole dictionary.
-/

namespace Shgpy
namespace DataContainer

variable {K : Type} [Field K] [LinearOrder K] [FloorRing K] [HasPi K]

/-- The instance at the successive moments of a list of calls of `scale_data`, `subtract_min`, `normalize_data`, `phase_shift_data` and
`filter`, data_handler.py:148-173, 243-263, made by one thread: those of each call (`moments`), and then what the last call leaves.  The thread
catches the exceptions of its calls. -/
def trace (c : DataContainer K) : List (Op K) → List (DataContainer K)
  | [] => [c]
  | op :: l => c.moments op ++ trace (step c op).1 l

/-- The number of calls that have returned, or raised, at a moment of `trace`. -/
def finished (c : DataContainer K) : List (Op K) → ℕ → ℕ
  | [], _ => 0
  | op :: l, i => if i < (c.moments op).length then 0 else 1 + finished (step c op).1 l (i - (c.moments op).length)

end DataContainer
end Shgpy
