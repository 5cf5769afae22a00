import Verif.Spec.Intensity

/-!
# Specification vocabulary for the tensor elements that a measurement sees (C131)

The axes are `0` and `1` in the surface and `2` along its normal.
-/

namespace Shgpy.Spec

/-- The field of a beam of this polarization at the angle of incidence `θ` has a component along the axis, for some azimuth: an `S` beam
along the axes in the surface, a `P` beam along the normal except at normal incidence, and along the others except at grazing
incidence. -/
def OfField (θ : ℝ) : Pol → Fin 3 → Prop
  | .S, a => a ≠ 2
  | .P, a => (a = 2 → Real.sin θ ≠ 0) ∧ (a ≠ 2 → Real.cos θ ≠ 0)

/-- The wave vector has a component along the axis, for some azimuth. -/
def OfWave (θ : ℝ) (a : Fin 3) : Prop := (a = 2 → Real.cos θ ≠ 0) ∧ (a ≠ 2 → Real.sin θ ≠ 0)

/-- A magnetic moment along the axis radiates in the output polarization, for some azimuth.  (In `P` nothing is seen at 45 degrees.) -/
def OfMoment (θ : ℝ) : Pol → Fin 3 → Prop
  | .S, a => (a = 2 → Real.sin θ ≠ 0) ∧ (a ≠ 2 → Real.cos θ ≠ 0)
  | .P, a => a ≠ 2 ∧ Real.cos (2 * θ) ≠ 0

/-- The crystals have the same elements, as far as they are seen in the combination `pq`; elements that differ in the order of the last
two indices are seen together. -/
structure SameSeen (θ : ℝ) (p q : Pol) (X Y : Crystal) : Prop where
  eee : ∀ i j k, OfField θ q i → OfField θ p j → OfField θ p k → X.symmetrized.eee i j k = Y.symmetrized.eee i j k
  mee : ∀ i j k, OfMoment θ q i → OfField θ p j → OfField θ p k → X.symmetrized.mee i j k = Y.symmetrized.mee i j k
  qee : ∀ i j k l, OfField θ q i → OfWave θ j → OfField θ p k → OfField θ p l →
    X.symmetrized.qee i j k l = Y.symmetrized.qee i j k l

/-- A crystal with one element of the electric dipole tensor. -/
def onlyEee (i j k : Fin 3) : Crystal := ⟨fun a b c => if a = i ∧ b = j ∧ c = k then 1 else 0, 0, 0⟩
/-- A crystal with one element of the magnetic dipole tensor. -/
def onlyMee (i j k : Fin 3) : Crystal := ⟨0, fun a b c => if a = i ∧ b = j ∧ c = k then 1 else 0, 0⟩
/-- A crystal with one element of the quadrupole tensor. -/
def onlyQee (i j k l : Fin 3) : Crystal := ⟨0, 0, fun a b c d => if a = i ∧ b = j ∧ c = k ∧ d = l then 1 else 0⟩

end Shgpy.Spec
