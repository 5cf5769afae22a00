import Verif.Model.Form

/-!
# The table of `shgpy/core/_lookup_table.py`

Transcribed mechanically, entry by entry: `z` is the integer `0`, `re q` a float and `im q` the sympy product `q*I`.
Trailing zeros of the floats are dropped.
-/

namespace Shgpy
namespace Lookup

/-- An entry `0`. -/
abbrev z : PyObj := .native 0 0
/-- An entry that is a float. -/
abbrev re (q : ℚ) : PyObj := .native q 0
/-- An entry `q*I`. -/
abbrev im (q : ℚ) : PyObj := .sy (.mul [.num q, .I])

/-- `_lookup_table`, _lookup_table.py:2-1488. -/
def table : Dict (ℕ × ℕ) (List PyObj) := [
  ((0, 0),
    [z, z, z, z, z, z, z, z, z, z, z, z, z, z, z, z, re 1.0, z, z, z, z, z, z, z, z, z, z, z, z, z, z, z, z]),
  ((0, 1),
    [z, z, z, z, z, z, z, z, z, z, z, z, z, z, z, im 0.5, z, im (-0.5), z, z, z, z, z, z, z, z, z, z, z, z, z, z, z]),
  ((0, 2),
    [z, z, z, z, z, z, z, z, z, z, z, z, z, z, re (-0.25), z, re 0.5, z, re (-0.25), z, z, z, z, z, z, z, z, z, z,
     z, z, z, z]),
  ((0, 3),
    [z, z, z, z, z, z, z, z, z, z, z, z, z, im (-0.125), z, im 0.375, z, im (-0.375), z, im 0.125, z, z, z, z, z,
     z, z, z, z, z, z, z, z]),
  ((0, 4),
    [z, z, z, z, z, z, z, z, z, z, z, z, re 0.0625, z, re (-0.25), z, re 0.375, z, re (-0.25), z, re 0.0625, z, z,
     z, z, z, z, z, z, z, z, z, z]),
  ((0, 5),
    [z, z, z, z, z, z, z, z, z, z, z, im 0.03125, z, im (-0.15625), z, im 0.3125, z, im (-0.3125), z, im 0.15625,
     z, im (-0.03125), z, z, z, z, z, z, z, z, z, z, z]),
  ((0, 6),
    [z, z, z, z, z, z, z, z, z, z, re (-0.015625), z, re 0.09375, z, re (-0.234375), z, re 0.3125, z,
     re (-0.234375), z, re 0.09375, z, re (-0.015625), z, z, z, z, z, z, z, z, z, z]),
  ((0, 7),
    [z, z, z, z, z, z, z, z, z, im (-0.0078125), z, im 0.0546875, z, im (-0.1640625), z, im 0.2734375, z,
     im (-0.2734375), z, im 0.1640625, z, im (-0.0546875), z, im 0.0078125, z, z, z, z, z, z, z, z, z]),
  ((0, 8),
    [z, z, z, z, z, z, z, z, re 0.00390625, z, re (-0.03125), z, re 0.109375, z, re (-0.21875), z, re 0.2734375, z,
     re (-0.21875), z, re 0.109375, z, re (-0.03125), z, re 0.00390625, z, z, z, z, z, z, z, z]),
  ((1, 0),
    [z, z, z, z, z, z, z, z, z, z, z, z, z, z, z, re 0.5, z, re 0.5, z, z, z, z, z, z, z, z, z, z, z, z, z, z, z]),
  ((1, 1),
    [z, z, z, z, z, z, z, z, z, z, z, z, z, z, im 0.25, z, z, z, im (-0.25), z, z, z, z, z, z, z, z, z, z, z, z, z,
     z]),
  ((1, 2),
    [z, z, z, z, z, z, z, z, z, z, z, z, z, re (-0.125), z, re 0.125, z, re 0.125, z, re (-0.125), z, z, z, z, z,
     z, z, z, z, z, z, z, z]),
  ((1, 3),
    [z, z, z, z, z, z, z, z, z, z, z, z, im (-0.0625), z, im 0.125, z, z, z, im (-0.125), z, im 0.0625, z, z, z, z,
     z, z, z, z, z, z, z, z]),
  ((1, 4),
    [z, z, z, z, z, z, z, z, z, z, z, re 0.03125, z, re (-0.09375), z, re 0.0625, z, re 0.0625, z, re (-0.09375),
     z, re 0.03125, z, z, z, z, z, z, z, z, z, z, z]),
  ((1, 5),
    [z, z, z, z, z, z, z, z, z, z, im 0.015625, z, im (-0.0625), z, im 0.078125, z, z, z, im (-0.078125), z,
     im 0.0625, z, im (-0.015625), z, z, z, z, z, z, z, z, z, z]),
  ((1, 6),
    [z, z, z, z, z, z, z, z, z, re (-0.0078125), z, re 0.0390625, z, re (-0.0703125), z, re 0.0390625, z,
     re 0.0390625, z, re (-0.0703125), z, re 0.0390625, z, re (-0.0078125), z, z, z, z, z, z, z, z, z]),
  ((1, 7),
    [z, z, z, z, z, z, z, z, im (-0.00390625), z, im 0.0234375, z, im (-0.0546875), z, im 0.0546875, z, z, z,
     im (-0.0546875), z, im 0.0546875, z, im (-0.0234375), z, im 0.00390625, z, z, z, z, z, z, z, z]),
  ((2, 0),
    [z, z, z, z, z, z, z, z, z, z, z, z, z, z, re 0.25, z, re 0.5, z, re 0.25, z, z, z, z, z, z, z, z, z, z, z, z,
     z, z]),
  ((2, 1),
    [z, z, z, z, z, z, z, z, z, z, z, z, z, im 0.125, z, im 0.125, z, im (-0.125), z, im (-0.125), z, z, z, z, z,
     z, z, z, z, z, z, z, z]),
  ((2, 2),
    [z, z, z, z, z, z, z, z, z, z, z, z, re (-0.0625), z, z, z, re 0.125, z, z, z, re (-0.0625), z, z, z, z, z, z,
     z, z, z, z, z, z]),
  ((2, 3),
    [z, z, z, z, z, z, z, z, z, z, z, im (-0.03125), z, im 0.03125, z, im 0.0625, z, im (-0.0625), z,
     im (-0.03125), z, im 0.03125, z, z, z, z, z, z, z, z, z, z, z]),
  ((2, 4),
    [z, z, z, z, z, z, z, z, z, z, re 0.015625, z, re (-0.03125), z, re (-0.015625), z, re 0.0625, z,
     re (-0.015625), z, re (-0.03125), z, re 0.015625, z, z, z, z, z, z, z, z, z, z]),
  ((2, 5),
    [z, z, z, z, z, z, z, z, z, im 0.0078125, z, im (-0.0234375), z, im 0.0078125, z, im 0.0390625, z,
     im (-0.0390625), z, im (-0.0078125), z, im 0.0234375, z, im (-0.0078125), z, z, z, z, z, z, z, z, z]),
  ((2, 6),
    [z, z, z, z, z, z, z, z, re (-0.00390625), z, re 0.015625, z, re (-0.015625), z, re (-0.015625), z,
     re 0.0390625, z, re (-0.015625), z, re (-0.015625), z, re 0.015625, z, re (-0.00390625), z, z, z, z, z, z, z,
     z]),
  ((3, 0),
    [z, z, z, z, z, z, z, z, z, z, z, z, z, re 0.125, z, re 0.375, z, re 0.375, z, re 0.125, z, z, z, z, z, z, z,
     z, z, z, z, z, z]),
  ((3, 1),
    [z, z, z, z, z, z, z, z, z, z, z, z, im 0.0625, z, im 0.125, z, z, z, im (-0.125), z, im (-0.0625), z, z, z, z,
     z, z, z, z, z, z, z, z]),
  ((3, 2),
    [z, z, z, z, z, z, z, z, z, z, z, re (-0.03125), z, re (-0.03125), z, re 0.0625, z, re 0.0625, z,
     re (-0.03125), z, re (-0.03125), z, z, z, z, z, z, z, z, z, z, z]),
  ((3, 3),
    [z, z, z, z, z, z, z, z, z, z, im (-0.015625), z, z, z, im 0.046875, z, z, z, im (-0.046875), z, z, z,
     im 0.015625, z, z, z, z, z, z, z, z, z, z]),
  ((3, 4),
    [z, z, z, z, z, z, z, z, z, re 0.0078125, z, re (-0.0078125), z, re (-0.0234375), z, re 0.0234375, z,
     re 0.0234375, z, re (-0.0234375), z, re (-0.0078125), z, re 0.0078125, z, z, z, z, z, z, z, z, z]),
  ((3, 5),
    [z, z, z, z, z, z, z, z, im 0.00390625, z, im (-0.0078125), z, im (-0.0078125), z, im 0.0234375, z, z, z,
     im (-0.0234375), z, im 0.0078125, z, im 0.0078125, z, im (-0.00390625), z, z, z, z, z, z, z, z]),
  ((4, 0),
    [z, z, z, z, z, z, z, z, z, z, z, z, re 0.0625, z, re 0.25, z, re 0.375, z, re 0.25, z, re 0.0625, z, z, z, z,
     z, z, z, z, z, z, z, z]),
  ((4, 1),
    [z, z, z, z, z, z, z, z, z, z, z, im 0.03125, z, im 0.09375, z, im 0.0625, z, im (-0.0625), z, im (-0.09375),
     z, im (-0.03125), z, z, z, z, z, z, z, z, z, z, z]),
  ((4, 2),
    [z, z, z, z, z, z, z, z, z, z, re (-0.015625), z, re (-0.03125), z, re 0.015625, z, re 0.0625, z, re 0.015625,
     z, re (-0.03125), z, re (-0.015625), z, z, z, z, z, z, z, z, z, z]),
  ((4, 3),
    [z, z, z, z, z, z, z, z, z, im (-0.0078125), z, im (-0.0078125), z, im 0.0234375, z, im 0.0234375, z,
     im (-0.0234375), z, im (-0.0234375), z, im 0.0078125, z, im 0.0078125, z, z, z, z, z, z, z, z, z]),
  ((4, 4),
    [z, z, z, z, z, z, z, z, re 0.00390625, z, z, z, re (-0.015625), z, z, z, re 0.0234375, z, z, z,
     re (-0.015625), z, z, z, re 0.00390625, z, z, z, z, z, z, z, z]),
  ((5, 0),
    [z, z, z, z, z, z, z, z, z, z, z, re 0.03125, z, re 0.15625, z, re 0.3125, z, re 0.3125, z, re 0.15625, z,
     re 0.03125, z, z, z, z, z, z, z, z, z, z, z]),
  ((5, 1),
    [z, z, z, z, z, z, z, z, z, z, im 0.015625, z, im 0.0625, z, im 0.078125, z, z, z, im (-0.078125), z,
     im (-0.0625), z, im (-0.015625), z, z, z, z, z, z, z, z, z, z]),
  ((5, 2),
    [z, z, z, z, z, z, z, z, z, re (-0.0078125), z, re (-0.0234375), z, re (-0.0078125), z, re 0.0390625, z,
     re 0.0390625, z, re (-0.0078125), z, re (-0.0234375), z, re (-0.0078125), z, z, z, z, z, z, z, z, z]),
  ((5, 3),
    [z, z, z, z, z, z, z, z, im (-0.00390625), z, im (-0.0078125), z, im 0.0078125, z, im 0.0234375, z, z, z,
     im (-0.0234375), z, im (-0.0078125), z, im 0.0078125, z, im 0.00390625, z, z, z, z, z, z, z, z]),
  ((6, 0),
    [z, z, z, z, z, z, z, z, z, z, re 0.015625, z, re 0.09375, z, re 0.234375, z, re 0.3125, z, re 0.234375, z,
     re 0.09375, z, re 0.015625, z, z, z, z, z, z, z, z, z, z]),
  ((6, 1),
    [z, z, z, z, z, z, z, z, z, im 0.0078125, z, im 0.0390625, z, im 0.0703125, z, im 0.0390625, z,
     im (-0.0390625), z, im (-0.0703125), z, im (-0.0390625), z, im (-0.0078125), z, z, z, z, z, z, z, z, z]),
  ((6, 2),
    [z, z, z, z, z, z, z, z, re (-0.00390625), z, re (-0.015625), z, re (-0.015625), z, re 0.015625, z,
     re 0.0390625, z, re 0.015625, z, re (-0.015625), z, re (-0.015625), z, re (-0.00390625), z, z, z, z, z, z, z,
     z]),
  ((7, 0),
    [z, z, z, z, z, z, z, z, z, re 0.0078125, z, re 0.0546875, z, re 0.1640625, z, re 0.2734375, z, re 0.2734375,
     z, re 0.1640625, z, re 0.0546875, z, re 0.0078125, z, z, z, z, z, z, z, z, z]),
  ((7, 1),
    [z, z, z, z, z, z, z, z, im 0.00390625, z, im 0.0234375, z, im 0.0546875, z, im 0.0546875, z, z, z,
     im (-0.0546875), z, im (-0.0546875), z, im (-0.0234375), z, im (-0.00390625), z, z, z, z, z, z, z, z]),
  ((8, 0),
    [z, z, z, z, z, z, z, z, re 0.00390625, z, re 0.03125, z, re 0.109375, z, re 0.21875, z, re 0.2734375, z,
     re 0.21875, z, re 0.109375, z, re 0.03125, z, re 0.00390625, z, z, z, z, z, z, z, z])]

end Lookup
end Shgpy
