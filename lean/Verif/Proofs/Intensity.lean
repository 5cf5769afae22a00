import Mathlib.Algebra.BigOperators.Field
import Verif.Spec.Intensity
import Mathlib.Algebra.Module.LinearMap.Basic
import Mathlib.Algebra.Module.Pi
import Mathlib.Analysis.SpecialFunctions.Trigonometric.Basic

/-!
# Lemmas: the physical model
-/

namespace Shgpy
open Spec
open scoped ComplexConjugate

set_option linter.unusedSectionVars false
set_option linter.unusedSimpArgs false

section
variable {V : Type} [AddCommGroup V] [Module ℂ V]

/-- One more axis transformed by `A`, the others by `L`. -/
noncomputable def axisStep (A : Fin 3 → Fin 3 → ℂ) (L : V →ₗ[ℂ] V) : (Fin 3 → V) →ₗ[ℂ] (Fin 3 → V) where
  toFun t := fun i => ∑ a, A i a • L (t a)
  map_add' s t := by
    funext i
    simp [Finset.sum_add_distrib]
  map_smul' c t := by
    funext i
    simp only [Pi.smul_apply, map_smul, RingHom.id_apply, Finset.smul_sum]
    exact Finset.sum_congr rfl (fun a _ => smul_comm _ _ _)

/-- The matrix product. -/
noncomputable def mulM (A B : Fin 3 → Fin 3 → ℂ) : Fin 3 → Fin 3 → ℂ := fun i b => ∑ a, A i a * B a b

theorem axisStep_comp (A B : Fin 3 → Fin 3 → ℂ) (L M : V →ₗ[ℂ] V) (t : Fin 3 → V) :
    axisStep A L (axisStep B M t) = axisStep (mulM A B) (L.comp M) t := by
  funext i
  show ∑ a, A i a • L (∑ b, B a b • M (t b)) = ∑ b, (∑ a, A i a * B a b) • L (M (t b))
  simp only [map_sum, map_smul, Finset.smul_sum, Finset.sum_smul, mul_smul]
  rw [Finset.sum_comm]

theorem axisStep_congr {A B : Fin 3 → Fin 3 → ℂ} {L M : V →ₗ[ℂ] V} (h : A = B) (h' : ∀ v, L v = M v) (t : Fin 3 → V) :
    axisStep A L t = axisStep B M t := by
  subst h
  funext i
  show ∑ a, A i a • L (t a) = ∑ a, A i a • M (t a)
  exact Finset.sum_congr rfl (fun a _ => by rw [h'])

end

/-- The transformation of one, two, three and four axes. -/
noncomputable def tr1 (A : Fin 3 → Fin 3 → ℂ) := axisStep A (LinearMap.id : ℂ →ₗ[ℂ] ℂ)
noncomputable def tr2 (A : Fin 3 → Fin 3 → ℂ) := axisStep A (tr1 A)
noncomputable def tr3 (A : Fin 3 → Fin 3 → ℂ) := axisStep A (tr2 A)
noncomputable def tr4 (A : Fin 3 → Fin 3 → ℂ) := axisStep A (tr3 A)

theorem rot3_eq (A : Fin 3 → Fin 3 → ℂ) (t : T3) : rot3 A t = tr3 A t := by
  funext i j k
  simp only [rot3, tr3, tr2, tr1, axisStep, LinearMap.coe_mk, AddHom.coe_mk, Finset.sum_apply, Pi.smul_apply,
    LinearMap.id_apply, smul_eq_mul, Finset.mul_sum]
  exact Finset.sum_congr rfl (fun a _ => Finset.sum_congr rfl (fun b _ => Finset.sum_congr rfl (fun c _ => by ring)))

theorem rot4_eq (A : Fin 3 → Fin 3 → ℂ) (t : T4) : rot4 A t = tr4 A t := by
  funext i j k l
  simp only [rot4, tr4, tr3, tr2, tr1, axisStep, LinearMap.coe_mk, AddHom.coe_mk, Finset.sum_apply, Pi.smul_apply,
    LinearMap.id_apply, smul_eq_mul, Finset.mul_sum]
  exact Finset.sum_congr rfl (fun a _ => Finset.sum_congr rfl (fun b _ => Finset.sum_congr rfl (fun c _ =>
    Finset.sum_congr rfl (fun d _ => by ring))))

theorem tr1_comp (A B : Fin 3 → Fin 3 → ℂ) (t : Fin 3 → ℂ) : tr1 A (tr1 B t) = tr1 (mulM A B) t :=
  (axisStep_comp A B _ _ t).trans (axisStep_congr rfl (fun _ => rfl) t)
theorem tr2_comp (A B : Fin 3 → Fin 3 → ℂ) (t : Fin 3 → Fin 3 → ℂ) : tr2 A (tr2 B t) = tr2 (mulM A B) t :=
  (axisStep_comp A B _ _ t).trans (axisStep_congr rfl (fun v => tr1_comp A B v) t)
theorem tr3_comp (A B : Fin 3 → Fin 3 → ℂ) (t : T3) : tr3 A (tr3 B t) = tr3 (mulM A B) t :=
  (axisStep_comp A B _ _ t).trans (axisStep_congr rfl (fun v => tr2_comp A B v) t)
theorem tr4_comp (A B : Fin 3 → Fin 3 → ℂ) (t : T4) : tr4 A (tr4 B t) = tr4 (mulM A B) t :=
  (axisStep_comp A B _ _ t).trans (axisStep_congr rfl (fun v => tr3_comp A B v) t)

theorem rot3_comp (A B : Fin 3 → Fin 3 → ℂ) (t : T3) : rot3 A (rot3 B t) = rot3 (mulM A B) t := by
  simp only [rot3_eq, tr3_comp]
theorem rot4_comp (A B : Fin 3 → Fin 3 → ℂ) (t : T4) : rot4 A (rot4 B t) = rot4 (mulM A B) t := by
  simp only [rot4_eq, tr4_comp]

theorem rotZ_mul (φ α : ℝ) : mulM (rotZ φ) (rotZ α) = rotZ (φ + α) := by
  funext i j
  fin_cases i <;> fin_cases j <;>
    simp [mulM, rotZ, Fin.sum_univ_three, Complex.cos_add, Complex.sin_add] <;> ring

theorem turned_turned (X : Crystal) (α φ : ℝ) : (X.turned α).turned φ = X.turned (φ + α) := by
  simp [Crystal.turned, rot3_comp, rot4_comp, rotZ_mul]

theorem intensity_turned (X : Crystal) (θ φ α : ℝ) (p q : Pol) :
    intensity (X.turned α) θ φ p q = intensity X θ (φ + α) p q := by
  simp [intensity, radiated, turned_turned]

theorem rot3_smul (A : Fin 3 → Fin 3 → ℂ) (c : ℂ) (t : T3) :
    rot3 A (fun i j k => c * t i j k) = fun i j k => c * rot3 A t i j k := by
  rw [show (fun i j k => c * t i j k) = c • t from rfl, rot3_eq, map_smul, rot3_eq]; rfl

theorem rot4_smul (A : Fin 3 → Fin 3 → ℂ) (c : ℂ) (t : T4) :
    rot4 A (fun i j k l => c * t i j k l) = fun i j k l => c * rot4 A t i j k l := by
  rw [show (fun i j k l => c * t i j k l) = c • t from rfl, rot4_eq, map_smul, rot4_eq]; rfl

theorem quad_smul (c : ℂ) (t : T3) (E : CVec) : quad (fun i j k => c * t i j k) E = fun i => c * quad t E i := by
  funext i
  simp only [quad, Finset.mul_sum, mul_assoc]

theorem quadGrad_smul (c : ℂ) (t : T4) (k E : CVec) :
    quadGrad (fun i j a b => c * t i j a b) k E = fun i => c * quadGrad t k E i := by
  funext i
  simp only [quadGrad, Finset.mul_sum, mul_assoc]

theorem cross_smul (c : ℂ) (k v : CVec) : cross k (fun i => c * v i) = fun i => c * cross k v i := by
  funext i
  fin_cases i <;> simp [cross] <;> ring

theorem perp_smul' (k : CVec) (c : ℂ) (v : CVec) : perp k (fun i => c * v i) = fun i => c * perp k v i := by
  funext i
  have : dot k (fun i => c * v i) = c * dot k v := by
    simp only [dot, Finset.mul_sum]
    exact Finset.sum_congr rfl (fun i _ => by ring)
  simp only [perp, this]
  ring

theorem radiated_scaled (c : ℂ) (X : Crystal) (θ φ : ℝ) (p : Pol) :
    radiated (Crystal.scaled c X) θ φ p = fun i => c * radiated X θ φ p i := by
  unfold radiated
  rw [← perp_smul']
  congr 1
  funext i
  simp only [source, Crystal.turned, Crystal.scaled, rot3_smul, rot4_smul, quad_smul, quadGrad_smul, cross_smul]
  ring

theorem intensity_scaled (c : ℂ) (X : Crystal) (θ φ : ℝ) (p q : Pol) :
    intensity (Crystal.scaled c X) θ φ p q = Complex.normSq c * intensity X θ φ p q := by
  unfold intensity
  rw [radiated_scaled]
  cases q <;> simp [outIntensity, Complex.normSq_mul, mul_add]

theorem rot3_sym (A : Fin 3 → Fin 3 → ℂ) (t : T3) :
    rot3 A (fun i j k => (t i j k + t i k j) / 2) = fun i j k => (rot3 A t i j k + rot3 A t i k j) / 2 := by
  funext i j k
  have : rot3 A t i k j = ∑ a, ∑ b, ∑ c, A i a * A j b * A k c * t a c b := by
    simp only [rot3]
    refine Finset.sum_congr rfl (fun a _ => ?_)
    rw [Finset.sum_comm]
    exact Finset.sum_congr rfl (fun b _ => Finset.sum_congr rfl (fun c _ => by ring))
  rw [this]
  simp only [rot3, ← Finset.sum_add_distrib, Finset.sum_div]
  exact Finset.sum_congr rfl (fun a _ => Finset.sum_congr rfl (fun b _ => Finset.sum_congr rfl (fun c _ => by ring)))

theorem rot4_sym (A : Fin 3 → Fin 3 → ℂ) (t : T4) :
    rot4 A (fun i j k l => (t i j k l + t i j l k) / 2) = fun i j k l => (rot4 A t i j k l + rot4 A t i j l k) / 2 := by
  funext i j k l
  have : rot4 A t i j l k = ∑ a, ∑ b, ∑ c, ∑ d, A i a * A j b * A k c * A l d * t a b d c := by
    simp only [rot4]
    refine Finset.sum_congr rfl (fun a _ => Finset.sum_congr rfl (fun b _ => ?_))
    rw [Finset.sum_comm]
    exact Finset.sum_congr rfl (fun b _ => Finset.sum_congr rfl (fun c _ => by ring))
  rw [this]
  simp only [rot4, ← Finset.sum_add_distrib, Finset.sum_div]
  exact Finset.sum_congr rfl (fun a _ => Finset.sum_congr rfl (fun b _ => Finset.sum_congr rfl (fun c _ =>
    Finset.sum_congr rfl (fun d _ => by ring))))

theorem quad_sym (t : T3) (E : CVec) : quad (fun i j k => (t i j k + t i k j) / 2) E = quad t E := by
  funext i
  have : quad t E i = ∑ j, ∑ k, t i k j * E j * E k := by
    simp only [quad]
    rw [Finset.sum_comm]
    exact Finset.sum_congr rfl (fun b _ => Finset.sum_congr rfl (fun c _ => by ring))
  have h2 : quad t E i = (quad t E i + ∑ j, ∑ k, t i k j * E j * E k) / 2 := by rw [← this]; ring
  rw [h2]
  simp only [quad, ← Finset.sum_add_distrib, Finset.sum_div]
  exact Finset.sum_congr rfl (fun b _ => Finset.sum_congr rfl (fun c _ => by ring))

theorem quadGrad_sym (t : T4) (k E : CVec) :
    quadGrad (fun i j a b => (t i j a b + t i j b a) / 2) k E = quadGrad t k E := by
  funext i
  have : quadGrad t k E i = ∑ j, ∑ a, ∑ b, t i j b a * k j * E a * E b := by
    simp only [quadGrad]
    refine Finset.sum_congr rfl (fun j _ => ?_)
    rw [Finset.sum_comm]
    exact Finset.sum_congr rfl (fun b _ => Finset.sum_congr rfl (fun c _ => by ring))
  have h2 : quadGrad t k E i = (quadGrad t k E i + ∑ j, ∑ a, ∑ b, t i j b a * k j * E a * E b) / 2 := by
    rw [← this]; ring
  rw [h2]
  simp only [quadGrad, ← Finset.sum_add_distrib, Finset.sum_div]
  exact Finset.sum_congr rfl (fun j _ => Finset.sum_congr rfl (fun b _ => Finset.sum_congr rfl (fun c _ => by ring)))

theorem intensity_symmetrized (X : Crystal) (θ φ : ℝ) (p q : Pol) :
    intensity X.symmetrized θ φ p q = intensity X θ φ p q := by
  have : ∀ E, source (X.symmetrized.turned φ) (kIn θ) E = source (X.turned φ) (kIn θ) E := by
    intro E
    funext i
    simp only [source, Crystal.turned, Crystal.symmetrized, rot3_sym, rot4_sym, quad_sym, quadGrad_sym]
  simp only [intensity, radiated, this]

theorem kOut_unit (θ : ℝ) : dot (kOut θ) (kOut θ) = 1 := by
  simp only [dot, kOut, Fin.sum_univ_three]
  simp
  rw [← sq, ← sq, Complex.sin_sq_add_cos_sq]

theorem dot_perp {k : CVec} (h : dot k k = 1) (v : CVec) : dot k (perp k v) = 0 := by
  have : dot k (perp k v) = dot k v - dot k v * dot k k := by
    simp only [perp, dot, mul_sub, Finset.sum_sub_distrib, Finset.mul_sum]
    congr 1
    exact Finset.sum_congr rfl (fun i _ => by ring)
  rw [this, h]
  ring

theorem outIntensity_nonneg (v : CVec) (q : Pol) : 0 ≤ outIntensity v q := by
  cases q <;> simp only [outIntensity]
  · exact add_nonneg (Complex.normSq_nonneg _) (Complex.normSq_nonneg _)
  · exact Complex.normSq_nonneg _

/-- A quarter turn about z permutes the axes 0 and 1 with signs. -/
def quarterAxis : Fin 3 → Fin 3 := ![1, 0, 2]
def quarterSign : Fin 3 → ℂ := ![-1, 1, 1]

theorem rotZ_half_pi (i a : Fin 3) :
    rotZ (Real.pi / 2) i a = if quarterAxis i = a then quarterSign i else 0 := by
  fin_cases i <;> fin_cases a <;> simp [rotZ, quarterAxis, quarterSign]

theorem rot3_quarter (t : T3) (i j k : Fin 3) : rot3 (rotZ (Real.pi / 2)) t i j k =
    quarterSign i * quarterSign j * quarterSign k * t (quarterAxis i) (quarterAxis j) (quarterAxis k) := by
  simp only [rot3, rotZ_half_pi, ite_mul, mul_ite, zero_mul, mul_zero, Finset.sum_ite_eq, Finset.mem_univ, if_true]

theorem rot4_quarter (t : T4) (i j k l : Fin 3) : rot4 (rotZ (Real.pi / 2)) t i j k l =
    quarterSign i * quarterSign j * quarterSign k * quarterSign l *
      t (quarterAxis i) (quarterAxis j) (quarterAxis k) (quarterAxis l) := by
  simp only [rot4, rotZ_half_pi, ite_mul, mul_ite, zero_mul, mul_zero, Finset.sum_ite_eq, Finset.mem_univ, if_true]

theorem normal_fields (X : Crystal) (φ : ℝ) :
    radiated X 0 (φ + Real.pi / 2) .S = ![-radiated X 0 φ .P 1, radiated X 0 φ .P 0, 0] ∧
    radiated X 0 (φ + Real.pi / 2) .P = ![-radiated X 0 φ .S 1, radiated X 0 φ .S 0, 0] := by
  have h : X.turned (φ + Real.pi / 2) = (X.turned φ).turned (Real.pi / 2) := by
    rw [turned_turned, add_comm]
  unfold radiated
  rw [h]
  generalize X.turned φ = Y
  constructor
  · funext i
    fin_cases i <;>
      simp [perp, dot, kOut, kIn, fieldIn, source, Crystal.turned, rot3_quarter, rot4_quarter, quad, quadGrad,
        cross, Fin.sum_univ_three, quarterSign, quarterAxis]; try ring
  · funext i
    fin_cases i <;>
      simp [perp, dot, kOut, kIn, fieldIn, source, Crystal.turned, rot3_quarter, rot4_quarter, quad, quadGrad,
        cross, Fin.sum_univ_three, quarterSign, quarterAxis]; try ring

theorem normal_z (X : Crystal) (φ : ℝ) (p : Pol) : radiated X 0 φ p 2 = 0 := by
  simp [radiated, perp, dot, kOut, Fin.sum_univ_three]

end Shgpy
