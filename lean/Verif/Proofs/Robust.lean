import Verif.Spec.Robust
import Verif.Proofs.Selection
import Mathlib.Analysis.InnerProductSpace.PiL2

/-!
# Small errors in tensors and matrices
-/

namespace Shgpy
open Spec

theorem size1_norm (v : CVec) : size1 v = ‖(WithLp.toLp 2 v : EuclideanSpace ℂ (Fin 3))‖ := by
  rw [EuclideanSpace.norm_eq]; rfl

/-- The list of the elements. -/
def flat3 (t : T3) : EuclideanSpace ℂ (Fin 3 × Fin 3 × Fin 3) := WithLp.toLp 2 (fun p => t p.1 p.2.1 p.2.2)
def flat4 (t : T4) : EuclideanSpace ℂ (Fin 3 × Fin 3 × Fin 3 × Fin 3) := WithLp.toLp 2 (fun p => t p.1 p.2.1 p.2.2.1 p.2.2.2)

theorem size3_norm (t : T3) : size3 t = ‖flat3 t‖ := by
  rw [EuclideanSpace.norm_eq]
  simp [size3, flat3, Fintype.sum_prod_type]

theorem size4_norm (t : T4) : size4 t = ‖flat4 t‖ := by
  rw [EuclideanSpace.norm_eq]
  simp [size4, flat4, Fintype.sum_prod_type]

theorem size1_add (v w : CVec) : size1 (v + w) ≤ size1 v + size1 w := by
  simp only [size1_norm, WithLp.toLp_add]
  exact norm_add_le _ _

theorem size3_add (s t : T3) : size3 (s + t) ≤ size3 s + size3 t := by
  simp only [size3_norm]
  exact norm_add_le (flat3 s) (flat3 t)

theorem size4_add (s t : T4) : size4 (s + t) ≤ size4 s + size4 t := by
  simp only [size4_norm]
  exact norm_add_le (flat4 s) (flat4 t)

theorem size1_sq (v : CVec) : size1 v ^ 2 = ∑ i, ‖v i‖ ^ 2 := Real.sq_sqrt (by positivity)
theorem size3_sq (t : T3) : size3 t ^ 2 = ∑ i, ∑ j, ∑ k, ‖t i j k‖ ^ 2 := Real.sq_sqrt (by positivity)
theorem size4_sq (t : T4) : size4 t ^ 2 = ∑ i, ∑ j, ∑ k, ∑ l, ‖t i j k l‖ ^ 2 := Real.sq_sqrt (by positivity)
theorem size1_nonneg (v : CVec) : 0 ≤ size1 v := Real.sqrt_nonneg _
theorem size3_nonneg (t : T3) : 0 ≤ size3 t := Real.sqrt_nonneg _
theorem size4_nonneg (t : T4) : 0 ≤ size4 t := Real.sqrt_nonneg _

/-! ## Matrices that enlarge vectors by at most a factor -/

/-- The matrix times the vector. -/
noncomputable def app (A : Fin 3 → Fin 3 → ℂ) (v : CVec) : CVec := fun i => ∑ a, A i a * v a

/-- Vectors become longer at most by the factor `c`. -/
def Bounded (A : Fin 3 → Fin 3 → ℂ) (c : ℝ) : Prop := 0 ≤ c ∧ ∀ v, size1 (app A v) ≤ c * size1 v

theorem Bounded.sq {A : Fin 3 → Fin 3 → ℂ} {c : ℝ} (h : Bounded A c) (v : CVec) :
    ∑ i, ‖∑ a, A i a * v a‖ ^ 2 ≤ c ^ 2 * ∑ a, ‖v a‖ ^ 2 := by
  have := pow_le_pow_left₀ (size1_nonneg _) (h.2 v) 2
  rw [mul_pow, size1_sq, size1_sq] at this
  exact this

theorem Bounded.add {A B : Fin 3 → Fin 3 → ℂ} {c d : ℝ} (hA : Bounded A c) (hB : Bounded B d) : Bounded (A + B) (c + d) := by
  refine ⟨add_nonneg hA.1 hB.1, fun v => ?_⟩
  have e : app (A + B) v = app A v + app B v := by
    funext i
    simp [app, add_mul, Finset.sum_add_distrib]
  rw [e, add_mul]
  exact (size1_add _ _).trans (add_le_add (hA.2 v) (hB.2 v))

/-- A matrix with small entries. -/
theorem bounded_small {A : Fin 3 → Fin 3 → ℂ} {ε : ℝ} (h0 : 0 ≤ ε) (h : ∀ i j, ‖A i j‖ ≤ ε) : Bounded A (3 * ε) := by
  refine ⟨by positivity, fun v => ?_⟩
  refine Real.sqrt_le_iff.2 ⟨mul_nonneg (by positivity) (size1_nonneg _), ?_⟩
  rw [mul_pow, size1_sq]
  have h1 : ∀ i, ‖app A v i‖ ^ 2 ≤ 3 * ε ^ 2 * ∑ a, ‖v a‖ ^ 2 := by
    intro i
    have h2 : ‖app A v i‖ ≤ ∑ a, ε * ‖v a‖ := by
      refine (norm_sum_le _ _).trans (Finset.sum_le_sum fun a _ => ?_)
      rw [norm_mul]
      exact mul_le_mul_of_nonneg_right (h i a) (norm_nonneg _)
    have h3 := pow_le_pow_left₀ (norm_nonneg _) h2 2
    refine h3.trans ?_
    rw [← Finset.mul_sum, mul_pow]
    simp only [Fin.sum_univ_three]
    have : (‖v 0‖ + ‖v 1‖ + ‖v 2‖) ^ 2 ≤ 3 * (‖v 0‖ ^ 2 + ‖v 1‖ ^ 2 + ‖v 2‖ ^ 2) := by
      nlinarith [sq_nonneg (‖v 0‖ - ‖v 1‖), sq_nonneg (‖v 0‖ - ‖v 2‖), sq_nonneg (‖v 1‖ - ‖v 2‖)]
    nlinarith [sq_nonneg ε]
  calc ∑ i, ‖app A v i‖ ^ 2 ≤ ∑ _i : Fin 3, 3 * ε ^ 2 * ∑ a, ‖v a‖ ^ 2 := Finset.sum_le_sum fun i _ => h1 i
    _ = _ := by simp; ring

/-- An orthogonal matrix. -/
theorem bounded_orthogonal {Q : PG.SymOp} (h : Orthogonal Q) : Bounded (opM Q) 1 := by
  refine ⟨zero_le_one, fun v => ?_⟩
  rw [one_mul]
  refine le_of_eq (congrArg Real.sqrt ?_)
  have h' : Q.transpose * Q = 1 := mul_eq_one_comm.1 h
  have e : ∀ i j, Q 0 i * Q 0 j + Q 1 i * Q 1 j + Q 2 i * Q 2 j = (1 : PG.SymOp) i j := by
    intro i j
    rw [← h', Matrix.mul_apply]
    simp [Fin.sum_univ_three]
  have e00 := e 0 0
  have e01 := e 0 1
  have e02 := e 0 2
  have e11 := e 1 1
  have e12 := e 1 2
  have e22 := e 2 2
  simp at e00 e01 e02 e11 e12 e22
  simp only [Complex.sq_norm, Complex.normSq_apply, app, opM, Fin.sum_univ_three]
  simp
  linear_combination ((v 0).re ^ 2 + (v 0).im ^ 2) * e00 + 2 * ((v 0).re * (v 1).re + (v 0).im * (v 1).im) * e01 +
    2 * ((v 0).re * (v 2).re + (v 0).im * (v 2).im) * e02 + ((v 1).re ^ 2 + (v 1).im ^ 2) * e11 +
    2 * ((v 1).re * (v 2).re + (v 1).im * (v 2).im) * e12 + ((v 2).re ^ 2 + (v 2).im ^ 2) * e22

/-! ## Tensors -/

/-- `rot3` with a matrix for every index. -/
noncomputable def rotABC (A B C : Fin 3 → Fin 3 → ℂ) (t : T3) : T3 := fun i j k => ∑ a, A i a * ∑ b, B j b * ∑ c, C k c * t a b c
noncomputable def rotABCD (A B C D : Fin 3 → Fin 3 → ℂ) (t : T4) : T4 := fun i j k l =>
  ∑ a, A i a * ∑ b, B j b * ∑ c, C k c * ∑ d, D l d * t a b c d

theorem rot3_ABC (A : Fin 3 → Fin 3 → ℂ) (t : T3) : rot3 A t = rotABC A A A t := by
  funext i j k
  simp only [rot3, rotABC, Finset.mul_sum]
  exact Finset.sum_congr rfl fun a _ => Finset.sum_congr rfl fun b _ => Finset.sum_congr rfl fun c _ => by ring

theorem rot4_ABCD (A : Fin 3 → Fin 3 → ℂ) (t : T4) : rot4 A t = rotABCD A A A A t := by
  funext i j k l
  simp only [rot4, rotABCD, Finset.mul_sum]
  exact Finset.sum_congr rfl fun a _ => Finset.sum_congr rfl fun b _ => Finset.sum_congr rfl fun c _ => Finset.sum_congr rfl fun d _ => by ring

theorem size_ABC {A B C : Fin 3 → Fin 3 → ℂ} {a b c : ℝ} (hA : Bounded A a) (hB : Bounded B b) (hC : Bounded C c) (t : T3) :
    size3 (rotABC A B C t) ≤ a * b * c * size3 t := by
  have p : 0 ≤ a * b * c := mul_nonneg (mul_nonneg hA.1 hB.1) hC.1
  refine Real.sqrt_le_iff.2 ⟨mul_nonneg p (size3_nonneg _), ?_⟩
  rw [mul_pow, size3_sq]
  have h1 : ∀ x y, ∑ k, ‖∑ z, C k z * t x y z‖ ^ 2 ≤ c ^ 2 * ∑ z, ‖t x y z‖ ^ 2 := fun x y => hC.sq (t x y)
  have h2 : ∀ x k, ∑ j, ‖∑ y, B j y * ∑ z, C k z * t x y z‖ ^ 2 ≤ b ^ 2 * ∑ y, ‖∑ z, C k z * t x y z‖ ^ 2 :=
    fun x k => hB.sq (fun y => ∑ z, C k z * t x y z)
  have h3 : ∀ j k, ∑ i, ‖∑ x, A i x * ∑ y, B j y * ∑ z, C k z * t x y z‖ ^ 2 ≤
      a ^ 2 * ∑ x, ‖∑ y, B j y * ∑ z, C k z * t x y z‖ ^ 2 := fun j k => hA.sq (fun x => ∑ y, B j y * ∑ z, C k z * t x y z)
  calc ∑ i, ∑ j, ∑ k, ‖rotABC A B C t i j k‖ ^ 2 = ∑ j, ∑ k, ∑ i, ‖∑ x, A i x * ∑ y, B j y * ∑ z, C k z * t x y z‖ ^ 2 := by
        rw [Finset.sum_comm]
        exact Finset.sum_congr rfl fun j _ => Finset.sum_comm
    _ ≤ ∑ j, ∑ k, a ^ 2 * ∑ x, ‖∑ y, B j y * ∑ z, C k z * t x y z‖ ^ 2 :=
        Finset.sum_le_sum fun j _ => Finset.sum_le_sum fun k _ => h3 j k
    _ = a ^ 2 * ∑ x, ∑ k, ∑ j, ‖∑ y, B j y * ∑ z, C k z * t x y z‖ ^ 2 := by
        simp only [← Finset.mul_sum]
        congr 1
        calc _ = ∑ j, ∑ x, ∑ k, ‖∑ y, B j y * ∑ z, C k z * t x y z‖ ^ 2 := Finset.sum_congr rfl fun j _ => Finset.sum_comm
          _ = ∑ x, ∑ j, ∑ k, ‖∑ y, B j y * ∑ z, C k z * t x y z‖ ^ 2 := Finset.sum_comm
          _ = _ := Finset.sum_congr rfl fun x _ => Finset.sum_comm
    _ ≤ a ^ 2 * ∑ x, ∑ k, b ^ 2 * ∑ y, ‖∑ z, C k z * t x y z‖ ^ 2 := by
        gcongr with x _ k _
        exact h2 x k
    _ = a ^ 2 * (b ^ 2 * ∑ x, ∑ y, ∑ k, ‖∑ z, C k z * t x y z‖ ^ 2) := by
        simp only [← Finset.mul_sum]
        congr 2
        exact Finset.sum_congr rfl fun x _ => Finset.sum_comm
    _ ≤ a ^ 2 * (b ^ 2 * ∑ x, ∑ y, c ^ 2 * ∑ z, ‖t x y z‖ ^ 2) := by
        gcongr with x _ y _
        exact h1 x y
    _ = (a * b * c) ^ 2 * ∑ x, ∑ y, ∑ z, ‖t x y z‖ ^ 2 := by
        simp only [← Finset.mul_sum]
        ring

theorem sum4_rotate (f : Fin 3 → Fin 3 → Fin 3 → Fin 3 → ℝ) : ∑ i, ∑ j, ∑ k, ∑ l, f i j k l = ∑ j, ∑ k, ∑ l, ∑ i, f i j k l := by
  rw [Finset.sum_comm]
  refine Finset.sum_congr rfl fun j _ => ?_
  rw [Finset.sum_comm]
  exact Finset.sum_congr rfl fun k _ => Finset.sum_comm

theorem size_first {A : Fin 3 → Fin 3 → ℂ} {a : ℝ} (hA : Bounded A a) (u : Fin 3 → T3) :
    ∑ i, ∑ j, ∑ k, ∑ l, ‖∑ x, A i x * u x j k l‖ ^ 2 ≤ a ^ 2 * ∑ x, ∑ j, ∑ k, ∑ l, ‖u x j k l‖ ^ 2 := by
  rw [sum4_rotate, sum4_rotate (fun x j k l => ‖u x j k l‖ ^ 2)]
  simp only [Finset.mul_sum]
  refine Finset.sum_le_sum fun j _ => Finset.sum_le_sum fun k _ => Finset.sum_le_sum fun l _ => ?_
  rw [← Finset.mul_sum]
  exact hA.sq (fun x => u x j k l)

theorem size_ABCD {A B C D : Fin 3 → Fin 3 → ℂ} {a b c d : ℝ} (hA : Bounded A a) (hB : Bounded B b) (hC : Bounded C c) (hD : Bounded D d)
    (t : T4) : size4 (rotABCD A B C D t) ≤ a * b * c * d * size4 t := by
  have p : 0 ≤ b * c * d := mul_nonneg (mul_nonneg hB.1 hC.1) hD.1
  refine Real.sqrt_le_iff.2 ⟨mul_nonneg (by have := mul_nonneg hA.1 p; nlinarith) (size4_nonneg _), ?_⟩
  rw [mul_pow, size4_sq]
  have h1 : ∀ x, ∑ j, ∑ k, ∑ l, ‖rotABC B C D (t x) j k l‖ ^ 2 ≤ (b * c * d) ^ 2 * ∑ j, ∑ k, ∑ l, ‖t x j k l‖ ^ 2 := by
    intro x
    have := pow_le_pow_left₀ (size3_nonneg _) (size_ABC hB hC hD (t x)) 2
    rwa [mul_pow, size3_sq, size3_sq] at this
  have h0 : ∀ i j k l, rotABCD A B C D t i j k l = ∑ x, A i x * rotABC B C D (t x) j k l := fun _ _ _ _ => rfl
  simp only [h0]
  refine (size_first hA (fun x => rotABC B C D (t x))).trans ?_
  calc a ^ 2 * ∑ x, ∑ j, ∑ k, ∑ l, ‖rotABC B C D (t x) j k l‖ ^ 2 ≤ a ^ 2 * ∑ x, (b * c * d) ^ 2 * ∑ j, ∑ k, ∑ l, ‖t x j k l‖ ^ 2 :=
        mul_le_mul_of_nonneg_left (Finset.sum_le_sum fun x _ => h1 x) (sq_nonneg _)
    _ = _ := by
        rw [← Finset.mul_sum]
        ring

/-- Turned tensors for two matrices that differ little. -/
theorem size_rot3 {Q D : Fin 3 → Fin 3 → ℂ} {δ : ℝ} (hQ : Bounded Q 1) (hD : Bounded D δ) (t : T3) :
    size3 (rot3 (Q + D) t) ≤ (1 + δ) ^ 3 * size3 t ∧ size3 (rot3 (Q + D) t - rot3 Q t) ≤ ((1 + δ) ^ 3 - 1) * size3 t := by
  have hM := hQ.add hD
  constructor
  · rw [rot3_ABC]
    refine (size_ABC hM hM hM t).trans (le_of_eq ?_)
    ring
  · have e : rot3 (Q + D) t - rot3 Q t = rotABC D (Q + D) (Q + D) t + (rotABC Q D (Q + D) t + rotABC Q Q D t) := by
      rw [rot3_ABC, rot3_ABC]
      funext i j k
      simp only [rotABC, Pi.sub_apply, Pi.add_apply, Fin.sum_univ_three]
      ring
    rw [e]
    refine (size3_add _ _).trans ((add_le_add (size_ABC hD hM hM t) ((size3_add _ _).trans (add_le_add (size_ABC hQ hD hM t)
      (size_ABC hQ hQ hD t)))).trans (le_of_eq ?_))
    ring

theorem size_rot4 {Q D : Fin 3 → Fin 3 → ℂ} {δ : ℝ} (hQ : Bounded Q 1) (hD : Bounded D δ) (t : T4) :
    size4 (rot4 (Q + D) t) ≤ (1 + δ) ^ 4 * size4 t ∧ size4 (rot4 (Q + D) t - rot4 Q t) ≤ ((1 + δ) ^ 4 - 1) * size4 t := by
  have hM := hQ.add hD
  constructor
  · rw [rot4_ABCD]
    refine (size_ABCD hM hM hM hM t).trans (le_of_eq ?_)
    ring
  · have e : rot4 (Q + D) t - rot4 Q t = rotABCD D (Q + D) (Q + D) (Q + D) t + (rotABCD Q D (Q + D) (Q + D) t +
        (rotABCD Q Q D (Q + D) t + rotABCD Q Q Q D t)) := by
      rw [rot4_ABCD, rot4_ABCD]
      have a1 : ∀ (A A' B C D : Fin 3 → Fin 3 → ℂ), rotABCD (A + A') B C D t = rotABCD A B C D t + rotABCD A' B C D t := by
        intro A A' B C D; funext i j k l
        simp only [rotABCD, Pi.add_apply, add_mul, Finset.sum_add_distrib]
      have a2 : ∀ (A B B' C D : Fin 3 → Fin 3 → ℂ), rotABCD A (B + B') C D t = rotABCD A B C D t + rotABCD A B' C D t := by
        intro A B B' C D; funext i j k l
        simp only [rotABCD, Pi.add_apply, add_mul, mul_add, Finset.sum_add_distrib]
      have a3 : ∀ (A B C C' D : Fin 3 → Fin 3 → ℂ), rotABCD A B (C + C') D t = rotABCD A B C D t + rotABCD A B C' D t := by
        intro A B C C' D; funext i j k l
        simp only [rotABCD, Pi.add_apply, add_mul, mul_add, Finset.sum_add_distrib]
      have a4 : ∀ (A B C D D' : Fin 3 → Fin 3 → ℂ), rotABCD A B C (D + D') t = rotABCD A B C D t + rotABCD A B C D' t := by
        intro A B C D D'; funext i j k l
        simp only [rotABCD, Pi.add_apply, add_mul, mul_add, Finset.sum_add_distrib]
      simp only [a1, a2, a3, a4]
      abel
    rw [e]
    refine (size4_add _ _).trans ((add_le_add (size_ABCD hD hM hM hM t) ((size4_add _ _).trans (add_le_add (size_ABCD hQ hD hM hM t)
      ((size4_add _ _).trans (add_le_add (size_ABCD hQ hQ hD hM t) (size_ABCD hQ hQ hQ hD t)))))).trans (le_of_eq ?_))
    ring

/-! ## Fields -/

theorem cauchy (v w : CVec) : ‖∑ i, v i * w i‖ ^ 2 ≤ (∑ i, ‖v i‖ ^ 2) * ∑ i, ‖w i‖ ^ 2 := by
  have h : ‖∑ i, v i * w i‖ ≤ ∑ i, ‖v i‖ * ‖w i‖ := by
    refine (norm_sum_le _ _).trans (le_of_eq ?_)
    exact Finset.sum_congr rfl fun i _ => norm_mul _ _
  exact (pow_le_pow_left₀ (norm_nonneg _) h 2).trans (Finset.sum_mul_sq_le_sq_mul_sq _ _ _)

theorem size_quad {E : CVec} (hE : ∑ i, ‖E i‖ ^ 2 = 1) (t : T3) : size1 (quad t E) ≤ size3 t := by
  refine Real.sqrt_le_sqrt (Finset.sum_le_sum fun i _ => ?_)
  have e : quad t E i = ∑ j, (∑ k, t i j k * E k) * E j := by
    unfold quad
    refine Finset.sum_congr rfl fun j _ => ?_
    rw [Finset.sum_mul]
    exact Finset.sum_congr rfl fun k _ => by ring
  rw [e]
  have h1 := cauchy (fun j => ∑ k, t i j k * E k) E
  rw [hE, mul_one] at h1
  refine h1.trans (Finset.sum_le_sum fun j _ => ?_)
  have h2 := cauchy (t i j) E
  rwa [hE, mul_one] at h2

theorem size_quadGrad {k E : CVec} (hk : ∑ i, ‖k i‖ ^ 2 = 1) (hE : ∑ i, ‖E i‖ ^ 2 = 1) (t : T4) : size1 (quadGrad t k E) ≤ size4 t := by
  refine Real.sqrt_le_sqrt (Finset.sum_le_sum fun i _ => ?_)
  have e : quadGrad t k E i = ∑ j, quad (t i) E j * k j := by
    unfold quadGrad quad
    refine Finset.sum_congr rfl fun j _ => ?_
    simp only [Finset.sum_mul]
    exact Finset.sum_congr rfl fun a _ => Finset.sum_congr rfl fun b _ => by ring
  rw [e]
  have h1 := cauchy (quad (t i) E) k
  rw [hk, mul_one] at h1
  refine h1.trans ?_
  have h2 := pow_le_pow_left₀ (size1_nonneg _) (size_quad hE (t i)) 2
  rwa [size1_sq, size3_sq] at h2

theorem unit_field (θ : ℝ) (p : Pol) : ∑ i, ‖fieldIn θ p i‖ ^ 2 = 1 := by
  have := Real.sin_sq_add_cos_sq θ
  cases p
  · simp only [fieldIn]
    generalize Real.sin θ = s at *
    generalize Real.cos θ = c at *
    simp [Fin.sum_univ_three]
    linarith
  · simp [fieldIn, Fin.sum_univ_three]

theorem unit_kIn (θ : ℝ) : ∑ i, ‖kIn θ i‖ ^ 2 = 1 := by
  have := Real.sin_sq_add_cos_sq θ
  simp only [kIn]
  generalize Real.sin θ = s at *
  generalize Real.cos θ = c at *
  simp [Fin.sum_univ_three]
  linarith

/-- The vector product with the wave vector, and the part perpendicular to the wave vector, are not longer than the vector. -/
theorem size_cross (θ : ℝ) (v : CVec) : size1 (cross (kIn θ) v) ≤ size1 v := by
  refine Real.sqrt_le_sqrt ?_
  have h := Real.sin_sq_add_cos_sq θ
  simp only [Fin.sum_univ_three, Complex.sq_norm, Complex.normSq_apply, cross, kIn]
  generalize Real.sin θ = s at *
  generalize Real.cos θ = c at *
  simp
  have e : s ^ 2 = 1 - c ^ 2 := by linarith
  nlinarith [sq_nonneg (s * (v 0).re + c * (v 2).re), sq_nonneg (s * (v 0).im + c * (v 2).im)]

theorem size_perp (θ : ℝ) (v : CVec) : size1 (perp (kOut θ) v) ≤ size1 v := by
  refine Real.sqrt_le_sqrt ?_
  have h := Real.sin_sq_add_cos_sq θ
  simp only [Fin.sum_univ_three, Complex.sq_norm, Complex.normSq_apply, perp, dot, kOut]
  generalize Real.sin θ = s at *
  generalize Real.cos θ = c at *
  simp
  have key : ∀ a b : ℝ, (a - (s * a + -(c * b)) * s) ^ 2 + (b + (s * a + -(c * b)) * c) ^ 2 ≤ a ^ 2 + b ^ 2 := by
    intro a b
    have : (a - (s * a + -(c * b)) * s) ^ 2 + (b + (s * a + -(c * b)) * c) ^ 2 = a ^ 2 + b ^ 2 - (s * a + -(c * b)) ^ 2 := by
      linear_combination (s * a - c * b) ^ 2 * h
    nlinarith [sq_nonneg (s * a + -(c * b))]
  nlinarith [key (v 0).re (v 2).re, key (v 0).im (v 2).im]

theorem rotZ_bounded (φ : ℝ) : Bounded (rotZ φ) 1 := by
  rw [← opM_rotZ]
  refine bounded_orthogonal ?_
  have := Real.sin_sq_add_cos_sq φ
  unfold Orthogonal
  ext i j
  fin_cases i <;> fin_cases j <;> simp [PG.rotZ, Matrix.mul_apply, Fin.sum_univ_three] <;> nlinarith

theorem size_radiated (X : Crystal) (θ φ : ℝ) (p : Pol) : size1 (radiated X θ φ p) ≤ X.size := by
  have hR := rotZ_bounded φ
  have h3 : ∀ t : T3, size3 (rot3 (rotZ φ) t) ≤ size3 t := by
    intro t
    rw [rot3_ABC]
    simpa using size_ABC hR hR hR t
  have h4 : ∀ t : T4, size4 (rot4 (rotZ φ) t) ≤ size4 t := by
    intro t
    rw [rot4_ABCD]
    simpa using size_ABCD hR hR hR hR t
  have hE := unit_field θ p
  refine (size_perp θ _).trans ?_
  have e : source (X.turned φ) (kIn θ) (fieldIn θ p) = quad (rot3 (rotZ φ) X.eee) (fieldIn θ p) +
      cross (kIn θ) (quad (rot3 (rotZ φ) X.mee) (fieldIn θ p)) +
      (fun i => Complex.I * quadGrad (rot4 (rotZ φ) X.qee) (kIn θ) (fieldIn θ p) i) := rfl
  rw [e]
  have hI : ∀ v : CVec, size1 (fun i => Complex.I * v i) = size1 v := by
    intro v; simp [size1]
  refine (size1_add _ _).trans (add_le_add ((size1_add _ _).trans (add_le_add ?_ ?_)) ?_)
  · exact (size_quad hE _).trans (h3 _)
  · exact (size_cross θ _).trans ((size_quad hE _).trans (h3 _))
  · rw [hI]
    exact (size_quadGrad (unit_kIn θ) hE _).trans (h4 _)

theorem radiated_minus (X Y : Crystal) (θ φ : ℝ) (p : Pol) :
    radiated (X.minus Y) θ φ p = radiated X θ φ p - radiated Y θ φ p := by
  have h3 : ∀ s t : T3, rot3 (rotZ φ) (s - t) = rot3 (rotZ φ) s - rot3 (rotZ φ) t := by
    intro s t; simp only [rot3_eq, map_sub]
  have h4 : ∀ s t : T4, rot4 (rotZ φ) (s - t) = rot4 (rotZ φ) s - rot4 (rotZ φ) t := by
    intro s t; simp only [rot4_eq, map_sub]
  have hq : ∀ (s t : T3) E, quad (s - t) E = quad s E - quad t E := by
    intro s t E; funext i; simp [quad, sub_mul, Finset.sum_sub_distrib]
  have hg : ∀ (s t : T4) k E, quadGrad (s - t) k E = quadGrad s k E - quadGrad t k E := by
    intro s t k E; funext i; simp [quadGrad, sub_mul, Finset.sum_sub_distrib]
  have hc : ∀ k v w : CVec, cross k (v - w) = cross k v - cross k w := by
    intro k v w; funext i
    fin_cases i <;> simp [cross] <;> ring
  have hs : ∀ k E, source ((X.minus Y).turned φ) k E = source (X.turned φ) k E - source (Y.turned φ) k E := by
    intro k E
    funext i
    simp only [source, Crystal.turned, Crystal.minus, h3, h4, hq, hg, hc, Pi.sub_apply]
    ring
  have hp : ∀ k v w : CVec, perp k (v - w) = perp k v - perp k w := by
    intro k v w
    funext i
    simp only [perp, dot, Pi.sub_apply, mul_sub, Finset.sum_sub_distrib]
    ring
  unfold radiated
  rw [hs, hp]

/-- The intensities of two fields. -/
theorem outIntensity_sub (v w : CVec) (q : Pol) : |outIntensity v q - outIntensity w q| ≤ size1 (v - w) * (size1 v + size1 w) := by
  set f : Pol → CVec → CVec := fun q v => match q with
    | .P => ![v 0, 0, v 2]
    | .S => ![0, v 1, 0] with hf
  have h1 : ∀ v, outIntensity v q = size1 (f q v) ^ 2 := by
    intro v
    rw [size1_sq]
    cases q <;> simp [outIntensity, hf, Fin.sum_univ_three, Complex.sq_norm]
  have h2 : ∀ v, size1 (f q v) ≤ size1 v := by
    intro v
    refine Real.sqrt_le_sqrt ?_
    cases q <;> simp [hf, Fin.sum_univ_three] <;> nlinarith [sq_nonneg ‖v 0‖, sq_nonneg ‖v 1‖, sq_nonneg ‖v 2‖]
  have h3 : f q (v - w) = f q v - f q w := by
    funext i
    cases q <;> fin_cases i <;> simp [hf]
  have h4 : |size1 (f q v) - size1 (f q w)| ≤ size1 (f q v - f q w) := by
    simp only [size1_norm]
    exact abs_norm_sub_norm_le _ _
  rw [h1, h1, sq_sub_sq, abs_mul, mul_comm, abs_of_nonneg (add_nonneg (size1_nonneg _) (size1_nonneg _))]
  refine mul_le_mul (h4.trans ?_) (add_le_add (h2 v) (h2 w)) (add_nonneg (size1_nonneg _) (size1_nonneg _)) (size1_nonneg _)
  rw [← h3]
  exact h2 _

theorem Spec.Crystal.size_nonneg (X : Crystal) : 0 ≤ X.size := add_nonneg (add_nonneg (size3_nonneg _) (size3_nonneg _)) (size4_nonneg _)

theorem intensity_near (X Y : Crystal) (θ φ : ℝ) (p q : Pol) :
    |intensity X θ φ p q - intensity Y θ φ p q| ≤ (X.minus Y).size * (X.size + Y.size) := by
  refine (outIntensity_sub _ _ q).trans ?_
  rw [← radiated_minus]
  exact mul_le_mul (size_radiated _ _ _ _) (add_le_add (size_radiated _ _ _ _) (size_radiated _ _ _ _))
    (add_nonneg (size1_nonneg _) (size1_nonneg _)) (Crystal.size_nonneg _)

theorem intensity_le (X : Crystal) (θ φ : ℝ) (p q : Pol) : intensity X θ φ p q ≤ X.size ^ 2 := by
  have h : outIntensity (radiated X θ φ p) q ≤ size1 (radiated X θ φ p) ^ 2 := by
    rw [size1_sq]
    cases q <;> simp [outIntensity, Fin.sum_univ_three, Complex.sq_norm] <;>
      nlinarith [Complex.normSq_nonneg (radiated X θ φ p 0), Complex.normSq_nonneg (radiated X θ φ p 1), Complex.normSq_nonneg (radiated X θ φ p 2)]
  exact h.trans (pow_le_pow_left₀ (size1_nonneg _) (size_radiated _ _ _ _) 2)

end Shgpy
