import Verif.Spec.TensorSym
import Verif.Spec.Form
import Verif.Model.FourierTransform
import Mathlib.Algebra.BigOperators.Fin
import Mathlib.Data.Complex.BigOperators
import Mathlib.Analysis.Complex.Trigonometric

/-!
# The physical model of second harmonic generation

Fields are complex vectors, the crystal is given by its electric dipole, magnetic dipole and electric quadrupole
susceptibilities.  `z` is the surface normal, `θ` the angle of incidence and `φ` the azimuth of the crystal.
-/

namespace Shgpy.Spec
open Complex (I)
open scoped ComplexConjugate

/-- A complex vector. -/
abbrev CVec := Fin 3 → ℂ
/-- A rank 3 tensor. -/
abbrev T3 := Fin 3 → Fin 3 → Fin 3 → ℂ
/-- A rank 4 tensor. -/
abbrev T4 := Fin 3 → Fin 3 → Fin 3 → Fin 3 → ℂ

/-- The susceptibilities of the crystal. -/
@[ext] structure Crystal where
  eee : T3
  mee : T3
  qee : T4

/-- The rotation by `φ` about the surface normal. -/
noncomputable def rotZ (φ : ℝ) : Fin 3 → Fin 3 → ℂ :=
  ![![(Real.cos φ : ℂ), -(Real.sin φ : ℂ), 0], ![(Real.sin φ : ℂ), (Real.cos φ : ℂ), 0], ![0, 0, 1]]

/-- A rank 3 tensor in rotated axes. -/
noncomputable def rot3 (R : Fin 3 → Fin 3 → ℂ) (t : T3) : T3 := fun i j k =>
  ∑ a, ∑ b, ∑ c, R i a * R j b * R k c * t a b c

/-- A rank 4 tensor in rotated axes. -/
noncomputable def rot4 (R : Fin 3 → Fin 3 → ℂ) (t : T4) : T4 := fun i j k l =>
  ∑ a, ∑ b, ∑ c, ∑ d, R i a * R j b * R k c * R l d * t a b c d

/-- The crystal turned by `φ`. -/
noncomputable def Crystal.turned (X : Crystal) (φ : ℝ) : Crystal :=
  ⟨rot3 (rotZ φ) X.eee, rot3 (rotZ φ) X.mee, rot4 (rotZ φ) X.qee⟩

/-- The wave vector (of unit length) of the incoming beam. -/
noncomputable def kIn (θ : ℝ) : CVec := ![(Real.sin θ : ℂ), 0, (Real.cos θ : ℂ)]
/-- The wave vector of the reflected beam. -/
noncomputable def kOut (θ : ℝ) : CVec := ![(Real.sin θ : ℂ), 0, -(Real.cos θ : ℂ)]

/-- The two polarizations. -/
inductive Pol
  | P
  | S
  deriving DecidableEq

/-- The incoming field: in the plane of incidence for `P`, perpendicular to it for `S`. -/
noncomputable def fieldIn (θ : ℝ) : Pol → CVec
  | .P => ![-(Real.cos θ : ℂ), 0, (Real.sin θ : ℂ)]
  | .S => ![0, 1, 0]

/-- `χ_{ijk} E_j E_k`. -/
noncomputable def quad (t : T3) (E : CVec) : CVec := fun i => ∑ j, ∑ k, t i j k * E j * E k

/-- The cross product. -/
noncomputable def cross (v w : CVec) : CVec := ![v 1 * w 2 - v 2 * w 1, v 2 * w 0 - v 0 * w 2, v 0 * w 1 - v 1 * w 0]

/-- `χ_{ijkl} k_j E_k E_l`. -/
noncomputable def quadGrad (t : T4) (k E : CVec) : CVec := fun i => ∑ j, ∑ a, ∑ b, t i j a b * k j * E a * E b

/-- The source of the second harmonic: electric dipole, magnetic dipole and electric quadrupole. -/
noncomputable def source (X : Crystal) (k E : CVec) : CVec := fun i =>
  quad X.eee E i + cross k (quad X.mee E) i + I * quadGrad X.qee k E i

/-- `v · w` (without complex conjugation; the wave vectors are real). -/
noncomputable def dot (v w : CVec) : ℂ := ∑ i, v i * w i

/-- The part perpendicular to the (unit) vector `k`. -/
noncomputable def perp (k v : CVec) : CVec := fun i => v i - dot k v * k i

/-- The radiated field for the crystal turned by `φ` and the given input polarization. -/
noncomputable def radiated (X : Crystal) (θ φ : ℝ) (p : Pol) : CVec :=
  perp (kOut θ) (source (X.turned φ) (kIn θ) (fieldIn θ p))

/-- The intensity in the output polarization: the `x` and `z` components for `P`, the `y` component for `S`. -/
noncomputable def outIntensity (v : CVec) : Pol → ℝ
  | .P => Complex.normSq (v 0) + Complex.normSq (v 2)
  | .S => Complex.normSq (v 1)

/-- The measured intensity for input polarization `p` and output polarization `q`. -/
noncomputable def intensity (X : Crystal) (θ φ : ℝ) (p q : Pol) : ℝ := outIntensity (radiated X θ φ p) q

/-- The crystal with all tensors multiplied by `c`. -/
noncomputable def Crystal.scaled (c : ℂ) (X : Crystal) : Crystal :=
  ⟨fun i j k => c * X.eee i j k, fun i j k => c * X.mee i j k, fun i j k l => c * X.qee i j k l⟩

/-- The crystal with all tensors symmetrized in the last two indices. -/
noncomputable def Crystal.symmetrized (X : Crystal) : Crystal :=
  ⟨fun i j k => (X.eee i j k + X.eee i k j) / 2, fun i j k => (X.mee i j k + X.mee i k j) / 2,
    fun i j k l => (X.qee i j k l + X.qee i j l k) / 2⟩

/-- The letter of a polarization. -/
def Pol.char : Pol → Char
  | .P => 'P'
  | .S => 'S'

/-- The polarization combination `pq`: input polarization first. -/
def combo (p q : Pol) : Key := [p.char, q.char]

/-! ## Values of symbolic tensors -/

/-- The valuation giving every symbol a real value. -/
noncomputable def realVal (r : Sym → ℝ) : Valuation := fun s => (r s : ℂ)

/-- The value of a symbolic rank 3 tensor. -/
noncomputable def value3 (t : Nd Expr) (σ : Valuation) : T3 := fun i j k => (t.get [i.val, j.val, k.val]).eval σ

/-- The value of a symbolic rank 4 tensor. -/
noncomputable def value4 (t : Nd Expr) (σ : Valuation) : T4 := fun i j k l =>
  (t.get [i.val, j.val, k.val, l.val]).eval σ

/-- The crystal described by the tensors passed to `formgen`; a tensor that is not given is zero. -/
noncomputable def crystalOf (eee mee qee : Option (Nd Expr)) (σ : Valuation) : Crystal :=
  ⟨(eee.map (fun t => value3 t σ)).getD 0, (mee.map (fun t => value3 t σ)).getD 0,
    (qee.map (fun t => value4 t σ)).getD 0⟩

/-- What `formgen` asks of its tensors: three-dimensional, of the right ranks, at least one given, and all symbols declared
real. -/
structure ValidTensors (eee mee qee : Option (Nd Expr)) : Prop where
  eee3 : ∀ t, eee = some t → IsTensor 3 3 t
  mee3 : ∀ t, mee = some t → IsTensor 3 3 t
  qee4 : ∀ t, qee = some t → IsTensor 3 4 t
  some_given : ¬ (eee = none ∧ mee = none ∧ qee = none)
  real : ∀ t, eee = some t ∨ mee = some t ∨ qee = some t → ∀ s, OccursIn t s → s.isReal = some true

/-- What `formgen` asks of the shapes of its tensors. -/
structure RightShapes (eee mee qee : Option (Nd Expr)) : Prop where
  eee3 : ∀ t, eee = some t → IsTensor 3 3 t
  mee3 : ∀ t, mee = some t → IsTensor 3 3 t
  qee4 : ∀ t, qee = some t → IsTensor 3 4 t

/-- The symbol occurs in one of the tensors. -/
def OccursInSome (eee mee qee : Option (Nd Expr)) (s : Sym) : Prop :=
  ∃ t, (eee = some t ∨ mee = some t ∨ qee = some t) ∧ OccursIn t s

/-- The values of the symbols with the azimuth changed to `x`. -/
noncomputable def withPhi (r : Sym → ℝ) (x : ℝ) : Sym → ℝ := fun s => if s = phi then x else r s

/-- The values of the formula of the combination `pq` in the two containers, at two assignments of values, are related by
`rel`. -/
def Related (c c' : FormContainer) (r r' : Sym → ℝ) (p q p' q' : Pol) (rel : ℂ → ℂ → Prop) : Prop :=
  ∃ e e', c.getPc (combo p q) = .ok e ∧ c'.getPc (combo p' q') = .ok e' ∧ rel (e.eval (realVal r)) (e'.eval (realVal r'))

/-- A trigonometric polynomial of degree at most `d`. -/
def TrigDegree (d : ℕ) (f : ℝ → ℂ) : Prop :=
  ∃ c : ℤ → ℂ, ∀ x, f x = ∑ n ∈ Finset.Icc (-(d : ℤ)) d, c n * harmonic n x

/-- The container holds four formulas, and these evaluate to the intensities of the crystal `X r` at the angle of
incidence `theta` and the azimuth `phi`, for all real values `r` of the symbols. -/
def Describes (c : FormContainer) (theta : Expr) (X : Valuation → Crystal) : Prop :=
  c.getKeys = [combo .P .P, combo .P .S, combo .S .P, combo .S .S] ∧
  ∀ p q, ∃ e, c.getPc (combo p q) = .ok e ∧
    ∀ (r : Sym → ℝ) (θ : ℝ), theta.eval (realVal r) = (θ : ℂ) →
      e.eval (realVal r) = (intensity (X (realVal r)) θ (r phi) p q : ℂ)

/-- Component `m` of combination `k` of the Fourier formula has the value `f r` for all real values `r` of the symbols. -/
def RealComponent (c : FFormContainer) (k : Key) (m : ℤ) (f : (Sym → ℝ) → ℂ) : Prop :=
  ∃ a o, c.getPc k = .ok a ∧ Component a.objs c.getM m o ∧ ∀ r, objValue (realVal r) o = f r

end Shgpy.Spec
