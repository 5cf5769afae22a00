import Verif.Model.NonFinite
import Mathlib.Data.EReal.Operations

/-!
# Specification vocabulary for values that are infinite or not numbers
-/

namespace Shgpy.Spec

variable {K : Type} [Field K] [LinearOrder K]

/-- The container as a container of values that happen to be finite.  (`none` is the offset `-inf` of an empty container.) -/
def asFl (c : DataContainer K) : FlContainer K :=
  ⟨c.data.mapVals (fun v => v.map (fun p => (p.1, .num p.2))), .num c.scale,
    match c.offset with | some o => .num o | none => .ninf⟩

/-- The first value is not `nan`. -/
def StartsWell (v : List (K × Fl K)) : Prop := ∀ p, v.head? = some p → p.2 ≠ .nan

/-- The order of the values: `-inf`, numbers, `inf`.  `nan` is not comparable with anything. -/
def FlLe : Fl K → Fl K → Prop
  | .num x, .num y => x ≤ y
  | .nan, _ => False
  | _, .nan => False
  | .ninf, _ => True
  | _, .pinf => True
  | _, _ => False

/-- `v` is the largest of the values of the combinations that satisfy `ok`, which occurs in the combination `k`; there is no
combination when no value is more than `-inf`. -/
def LargestIn (d : Dict Key (List (K × Fl K))) (ok : List (K × Fl K) → Prop) (k : Option Key) (v : Fl K) : Prop :=
  v ≠ .nan ∧ (∀ it ∈ d, ok it.2 → ∀ p ∈ it.2, p.2 = .nan ∨ FlLe p.2 v) ∧
  ((k = none ∧ v = .ninf) ∨ ∃ k' pts, k = some k' ∧ (k', pts) ∈ d ∧ ok pts ∧ v ∈ pts.map Prod.snd)

/-- `v` is the smallest of the values of the combinations that satisfy `ok`. -/
def SmallestIn (d : Dict Key (List (K × Fl K))) (ok : List (K × Fl K) → Prop) (k : Option Key) (v : Fl K) : Prop :=
  v ≠ .nan ∧ (∀ it ∈ d, ok it.2 → ∀ p ∈ it.2, p.2 = .nan ∨ FlLe v p.2) ∧
  ((k = none ∧ v = .pinf) ∨ ∃ k' pts, k = some k' ∧ (k', pts) ∈ d ∧ ok pts ∧ v ∈ pts.map Prod.snd)

/-- The containers that the constructor and the operations on values make from finite angles. -/
inductive FlReachable [FloorRing K] [HasPi K] : FlContainer K → Prop
  | init {d c} : FlContainer.init d = .ok c → FlReachable c
  | scale {c c' s} : FlReachable c → c.scaleData s = .ok c' → FlReachable c'
  | normalize {c c' d} : FlReachable c → c.normalizeData d = .ok c' → FlReachable c'
  | subtractMin {c c'} : FlReachable c → c.subtractMin = .ok c' → FlReachable c'

/-- The floating point value is this extended real number. -/
def IsExt : Fl ℝ → EReal → Prop
  | .num x, e => e = x
  | .pinf, e => e = ⊤
  | .ninf, e => e = ⊥
  | .nan, _ => False

end Shgpy.Spec
