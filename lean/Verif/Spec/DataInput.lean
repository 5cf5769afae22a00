import Verif.Spec.Angle
import Verif.Model.DataContainer

/-!
# Specification vocabulary for the inputs of `DataContainer`

Only the input types (`RawKey`, `RawVal`) and Python's `dict` are used from the model.
-/

namespace Shgpy.Spec

variable {K : Type} [Field K] [LinearOrder K] [HasPi K]

/-- The angle in radians denoted by `x` in the given unit. -/
def rad (units : Key) (x : K) : K := if units = sDegrees then x * (HasPi.pi / 180) else x

/-- A value that is a 2-D non-object array with two leading rows `xs`, `ys` of equal length. -/
def IsXY (v : RawVal K) (dt : DType) (xs ys : List K) : Prop :=
  ∃ rest, v = .arr2 dt (xs :: ys :: rest) ∧ xs.length = ys.length ∧ dt ≠ .object

/-- The two-letter polarization combination a key stands for under `normal_to_oblique`. -/
def pcOf (k : Key) : Key := (k.map Char.toUpper).take 2

/-- `P` (as a set) is one of the key sets that `normal_to_oblique` accepts. -/
def ObliqueKeys (P : List Key) : Prop :=
  (∀ x, x ∈ P ↔ x = kPP ∨ x = kPS ∨ x = kSP ∨ x = kSS) ∨
  ∃ a b, (a = kPP ∨ a = kSS) ∧ (b = kPS ∨ b = kSP) ∧ ∀ x, x ∈ P ↔ x = a ∨ x = b

/-- The combinations named by the string keys of a dictionary. -/
def pcs (d : Dict RawKey (RawVal K)) : List Key :=
  d.filterMap (fun p => match p.1 with | .str s => some (pcOf s) | .other _ => none)

/-- `(k, v)` is an item of `d`, and no later item stands for the same combination. -/
def LastFor (d : Dict RawKey (RawVal K)) (k : Key) (v : RawVal K) : Prop :=
  ∃ pre post, d = pre ++ (RawKey.str k, v) :: post ∧ pcOf k ∉ pcs post

/-- The inputs `DataContainer(iterable, units, normal_to_oblique)` is meant to accept, with
`d = dict(iterable)`. -/
def Acceptable (d : Dict RawKey (RawVal K)) (units : Key) (normalToOblique : Bool) : Prop :=
  (units = sRadians ∨ units = sDegrees) ∧
  (∀ k v, (k, v) ∈ d → (∃ s, k = RawKey.str s) ∧ ∃ dt xs ys, IsXY v dt xs ys) ∧
  (if normalToOblique then
    ObliqueKeys (pcs d) ∧ ∀ k v dt xs ys, LastFor d k v → IsXY v dt xs ys → xs ≠ []
  else ∀ k v dt xs ys, (k, v) ∈ d → IsXY v dt xs ys → xs ≠ [])

/-- The combination from which a missing one is completed at normal incidence. -/
def partner (k : Key) : Key :=
  if k = kPP then kSS else if k = kSS then kPP else if k = kPS then kSP else if k = kSP then kPS else k

end Shgpy.Spec
