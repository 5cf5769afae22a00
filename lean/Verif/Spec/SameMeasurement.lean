import Verif.Spec.DataInput
import Verif.Spec.History
import Verif.Model.FData
import Verif.Model.Load

/-!
# Specification vocabulary: one measurement written in several ways
-/

namespace Shgpy.Spec

variable {K : Type} [Field K] [LinearOrder K] [FloorRing K] [HasPi K]

/-- Two float arrays, with angles in the units `u` and `u'`, hold the same points up to their order and full turns, and no direction
occurs twice. -/
def SameArray (u u' : Key) (v v' : RawVal K) : Prop :=
  ∃ xs ys xs' ys', IsXY v .float xs ys ∧ IsXY v' .float xs' ys' ∧
    Matched (fun p q => AngleEq (rad u p.1) (rad u' q.1) ∧ q.2 = p.2) (xs.zip ys) (xs'.zip ys') ∧
    DistinctAngles ((xs.zip ys).map (fun p => (rad u p.1, p.2)))

/-- Two dictionaries of arrays have the same keys in some order, and the same points under every key. -/
def SameMeasurement (u u' : Key) (d d' : Dict RawKey (RawVal K)) : Prop :=
  (u = sRadians ∨ u = sDegrees) ∧ (u' = sRadians ∨ u' = sDegrees) ∧
  (∀ k v, (k, v) ∈ d → (∃ s, k = .str s) ∧ ∃ v', (k, v') ∈ d' ∧ SameArray u u' v v') ∧
  ∀ k v', (k, v') ∈ d' → ∃ v, (k, v) ∈ d

/-- Two containers answer all questions alike, except for the order of the combinations. -/
def SameContainer (c c' : DataContainer K) : Prop :=
  c.getKeys.Perm c'.getKeys ∧ (∀ k u, c.getPc k u = c'.getPc k u) ∧ c.getScale = c'.getScale ∧ c.getOffset = c'.getOffset ∧
    ∀ u, c.getPhaseShift u = c'.getPhaseShift u

/-- The same for Fourier data. -/
def SameFourier (c c' : FDataContainer) : Prop :=
  c.getKeys.Perm c'.getKeys ∧ c.getM = c'.getM ∧ ∀ k, c.getPc k = c'.getPc k

/-- A `filter` function that accepts all arrays and keeps their length. -/
def Harmless : DataContainer.Op K → Prop
  | .filter f => ∀ ys, ∃ zs, f ys = .ok zs ∧ zs.length = ys.length
  | _ => True

/-- The rows of the named files have been put into another order, and no direction occurs twice in a file. -/
def Shuffled (float : Key → Option ℝ) (units : Key) (csv csv' : CsvFiles) (names : Dict Key Key) : Prop :=
  ∀ k f, (k, f) ∈ names → ∃ rows rows', csv f = some rows ∧ csv' f = some rows' ∧ rows.Perm rows' ∧
    ∀ pts, rows.mapM (readRow float) = .ok pts → DistinctAngles (pts.map (fun p => (rad units p.1, p.2)))

end Shgpy.Spec
