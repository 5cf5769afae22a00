import Verif.Model.ComplexInput
import Verif.Spec.DataInput

/-!
# Specification vocabulary for complex arrays among the inputs of `DataContainer`

Only the input types (`RawKey`, `RawVal`, `RawValC`) and Python's `dict` are used from the model.
-/

namespace Shgpy.Spec

variable {K : Type} [Field K] [LinearOrder K] [HasPi K]

/-- The value with complex numbers replaced by their real parts. -/
def onlyReal : RawValC K → RawVal K
  | .real v => v
  | .cplx rows => .arr2 .float (rows.map (fun r => r.map Prod.fst))

/-- The items with complex numbers replaced by their real parts. -/
def onlyReals (l : List (RawKey × RawValC K)) : List (RawKey × RawVal K) := l.map (fun p => (p.1, onlyReal p.2))

/-- A complex array. -/
def IsComplex (v : RawValC K) : Prop := ∃ rows, v = .cplx rows

/-- A complex array whose first row has an entry. -/
def HasComplexAngle (v : RawValC K) : Prop := ∃ x xs rest, v = .cplx ((x :: xs) :: rest)

/-- `(k, v)` is an item of `d`, and no later item stands for the same combination. -/
def LastForC (d : Dict RawKey (RawValC K)) (k : Key) (v : RawValC K) : Prop :=
  ∃ pre post, d = pre ++ (RawKey.str k, v) :: post ∧ pcOf k ∉ pcs (onlyReals post)

/-- The constructor has to compute with an angle of a complex array: in degrees every array is converted; in
radians the points of the arrays that are kept are compared. -/
def ComplexAngleUsed (d : Dict RawKey (RawValC K)) (units : Key) (normalToOblique : Bool) : Prop :=
  if units = sDegrees then ∃ k v, (k, v) ∈ d ∧ IsComplex v
  else if normalToOblique then ∃ k v, LastForC d k v ∧ HasComplexAngle v
  else ∃ k v, (k, v) ∈ d ∧ HasComplexAngle v

/-- The tests that come before the first computation with an angle: the unit, the keys, the shapes, and, in
radians under `normal_to_oblique`, the set of combinations. -/
def PassesTests (d : Dict RawKey (RawVal K)) (units : Key) (normalToOblique : Bool) : Prop :=
  (units = sRadians ∨ units = sDegrees) ∧
  (∀ k v, (k, v) ∈ d → (∃ s, k = RawKey.str s) ∧ ∃ dt xs ys, IsXY v dt xs ys) ∧
  (units = sRadians → normalToOblique = true → ObliqueKeys (pcs d))

end Shgpy.Spec
