import Mathlib.Data.List.Basic

/-!
# Specification vocabulary: file name patterns
-/

namespace Shgpy.Spec

/-- A name matches a pattern: `*` stands for any sequence of characters, `?` for one character, and any other character for itself. -/
inductive Matches : List Char → List Char → Prop
  | nil : Matches [] []
  | star {ps cs : List Char} (w : List Char) : Matches ps cs → Matches ('*' :: ps) (w ++ cs)
  | one {ps cs : List Char} (c : Char) : Matches ps cs → Matches ('?' :: ps) (c :: cs)
  | self {ps cs : List Char} {c : Char} : c ≠ '*' → c ≠ '?' → Matches ps cs → Matches (c :: ps) (c :: cs)

end Shgpy.Spec
