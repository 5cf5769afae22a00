import Verif.Spec.Face
import Verif.Props.Orientation
import Verif.Props.Rotation
import Mathlib.LinearAlgebra.Matrix.Adjugate
import Mathlib.Analysis.SpecialFunctions.Complex.Arg

/-!
# C106: crystals cut along a plane

`rotation_matrix_from_two_vectors(v, [0, 0, 1])` turns the crystal so that the face perpendicular to `v` becomes the surface.  An `n`-fold
axis along `v` is then seen as an `n`-fold pattern, and a mirror plane that contains `v` as a mirror line of the pattern.
-/

namespace Shgpy
open Spec PG Expr

/-! ## Rotations and vector products -/

theorem mulVec3 (A : Mat) (v : Vec) (i : Fin 3) : A.mulVec v i = A i 0 * v 0 + A i 1 * v 1 + A i 2 * v 2 := by
  simp [Matrix.mulVec, dotProduct, Fin.sum_univ_three]

theorem orthogonal_transpose {A : Mat} (h : Orthogonal A) : A.transpose * A = 1 := mul_eq_one_comm.1 h

theorem dot_mulVec {A : Mat} (h : Orthogonal A) (v w : Vec) : scalar3 (A.mulVec v) (A.mulVec w) = scalar3 v w := by
  have h' := orthogonal_transpose h
  have e : ∀ i j, A 0 i * A 0 j + A 1 i * A 1 j + A 2 i * A 2 j = (1 : Mat) i j := by
    intro i j
    rw [← h', Matrix.mul_apply]
    simp [Fin.sum_univ_three]
  have e00 := e 0 0
  have e01 := e 0 1
  have e02 := e 0 2
  have e11 := e 1 1
  have e12 := e 1 2
  have e22 := e 2 2
  simp at e00 e01 e02 e11 e12 e22
  simp only [scalar3, mulVec3]
  linear_combination v 0 * w 0 * e00 + (v 0 * w 1 + v 1 * w 0) * e01 + (v 0 * w 2 + v 2 * w 0) * e02 + v 1 * w 1 * e11 +
    (v 1 * w 2 + v 2 * w 1) * e12 + v 2 * w 2 * e22

theorem cross_mulVec {A : Mat} (h : IsRotation A) (v w : Vec) : vector3 (A.mulVec v) (A.mulVec w) = A.mulVec (vector3 v w) := by
  have hadj : A.adjugate = A.transpose := by
    have := A.mul_adjugate
    rw [h.2.2, one_smul] at this
    calc A.adjugate = (A.transpose * A) * A.adjugate := by rw [h.2.1, one_mul]
      _ = A.transpose := by rw [Matrix.mul_assoc, this, mul_one]
  rw [Matrix.adjugate_fin_three] at hadj
  have e : ∀ i j, _ := fun i j => congrFun (congrFun hadj i) j
  have e00 := e 0 0
  have e01 := e 0 1
  have e02 := e 0 2
  have e10 := e 1 0
  have e11 := e 1 1
  have e12 := e 1 2
  have e20 := e 2 0
  have e21 := e 2 1
  have e22 := e 2 2
  simp at e00 e01 e02 e10 e11 e12 e20 e21 e22
  funext i
  fin_cases i <;> simp [vector3, mulVec3]
  · linear_combination (v 1 * w 2 - v 2 * w 1) * e00 + (v 2 * w 0 - v 0 * w 2) * e10 + (v 0 * w 1 - v 1 * w 0) * e20
  · linear_combination (v 1 * w 2 - v 2 * w 1) * e01 + (v 2 * w 0 - v 0 * w 2) * e11 + (v 0 * w 1 - v 1 * w 0) * e21
  · linear_combination (v 1 * w 2 - v 2 * w 1) * e02 + (v 2 * w 0 - v 0 * w 2) * e12 + (v 0 * w 1 - v 1 * w 0) * e22

theorem mulVec_transpose {A : Mat} (h : Orthogonal A) (w : Vec) : A.mulVec (A.transpose.mulVec w) = w := by
  rw [Matrix.mulVec_mulVec, show A * A.transpose = 1 from h, Matrix.one_mulVec]

theorem transpose_orthogonal {A : Mat} (h : Orthogonal A) : Orthogonal A.transpose := by
  unfold Orthogonal
  rw [Matrix.transpose_transpose]
  exact orthogonal_transpose h

/-- The matrix is determined by what it does with the vectors. -/
theorem rotatesAbout_normal {B : SymOp} {α : ℝ} (h1 : B.mulVec normal = normal)
    (h2 : ∀ w, scalar3 normal w = 0 → B.mulVec w = fun i => Real.cos α * w i + Real.sin α * vector3 normal w i) : B = PG.rotZ α := by
  have a := h2 ![1, 0, 0] (by simp [scalar3, normal])
  have b := h2 ![0, 1, 0] (by simp [scalar3, normal])
  ext i j
  have a' := congrFun a i
  have b' := congrFun b i
  have c' := congrFun h1 i
  rw [mulVec3] at a' b' c'
  fin_cases i <;> fin_cases j <;> simp [vector3, normal, PG.rotZ] at a' b' c' ⊢ <;> assumption

theorem scaled_direction {v : Vec} (hv : v ≠ 0) (i : Fin 3) : v i = norm3 v * direction v i := by
  have := norm3_ne_zero hv
  rw [direction_eq]
  field_simp

theorem direction_normal : direction normal = normal := by
  funext i
  fin_cases i <;> simp [direction, normal]

theorem normal_ne : normal ≠ 0 := by
  intro h
  have := congrFun h 2
  simp [normal] at this

/-- **C106, the matrix.**  For every direction `v` the function returns (without a warning) an orthogonal matrix that takes the rotations
about `v` to the rotations about the surface normal (by the same angle; by the opposite angle if `v` points along `-z`), and that takes the
mirror planes that contain `v` to planes that contain the normal. -/
theorem C106_matrix {v : Vec} (hv : v ≠ 0) {accuracy : ℝ} (hacc : 0 < accuracy) :
    ∃ A, rotationFromTwoVectors id v normal accuracy = .ok (A, false) ∧ Orthogonal A ∧
      (∀ B α, RotatesAbout B v α → A * B * A.transpose = PG.rotZ α ∨ direction v = -normal ∧ A * B * A.transpose = PG.rotZ (-α)) ∧
      ∀ B u, u ≠ 0 → scalar3 u v = 0 → ReflectsAlong B u → ∃ β, A * B * A.transpose = PG.rotZ β * PG.mirrorY := by
  have hmirror : ∀ A : Mat, Orthogonal A → (A.mulVec (direction v) = normal ∨ A.mulVec (direction v) = -normal) →
      ∀ B u, u ≠ 0 → scalar3 u v = 0 → ReflectsAlong B u → ∃ β, A * B * A.transpose = PG.rotZ β * PG.mirrorY := by
    intro A hA hn B u hu huv ⟨hB1, hB2⟩
    have hdot : scalar3 u (direction v) = 0 := by
      have e : scalar3 u v = norm3 v * scalar3 u (direction v) := by
        simp only [scalar3]
        rw [scaled_direction hv 0, scaled_direction hv 1, scaled_direction hv 2]
        ring
      rw [e] at huv
      exact (mul_eq_zero.1 huv).resolve_left (norm3_ne_zero hv)
    set d := direction u with hd
    have hdu := direction_unit hu
    have hBd : B.mulVec d = -d := by
      have : d = (norm3 u)⁻¹ • u := by
        funext i
        simp [hd, direction_eq, div_eq_inv_mul]
      rw [this, Matrix.mulVec_smul, hB1, smul_neg]
    have hBw : ∀ w, scalar3 d w = 0 → B.mulVec w = w := by
      intro w hw
      refine hB2 w ?_
      simp only [scalar3] at hw ⊢
      rw [scaled_direction hu 0, scaled_direction hu 1, scaled_direction hu 2]
      linear_combination norm3 u * hw
    have hB : ∀ w, B.mulVec w = fun i => w i - 2 * scalar3 d w * d i := by
      intro w
      have e : w = (fun i => w i - scalar3 d w * d i) + scalar3 d w • d := by
        funext i; simp
      have h0 : scalar3 d (fun i => w i - scalar3 d w * d i) = 0 := by
        have : scalar3 d d = 1 := by simp only [scalar3]; nlinarith [hdu]
        simp only [scalar3] at this ⊢
        linear_combination -(d 0 * w 0 + d 1 * w 1 + d 2 * w 2) * this
      conv_lhs => rw [e]
      rw [Matrix.mulVec_add, hBw _ h0, Matrix.mulVec_smul, hBd]
      funext i
      simp
      ring
    set a := A.mulVec d with ha
    have hB' : ∀ w, (A * B * A.transpose).mulVec w = fun i => w i - 2 * scalar3 a w * a i := by
      intro w
      rw [← Matrix.mulVec_mulVec, ← Matrix.mulVec_mulVec, hB]
      have e : (fun i => A.transpose.mulVec w i - 2 * scalar3 d (A.transpose.mulVec w) * d i) =
          A.transpose.mulVec w - (2 * scalar3 d (A.transpose.mulVec w)) • d := by
        funext i; simp
      rw [e, Matrix.mulVec_sub, Matrix.mulVec_smul, mulVec_transpose hA, ← dot_mulVec hA d, mulVec_transpose hA]
      funext i
      simp [ha]
    have ha2 : a 2 = 0 := by
      have := dot_mulVec hA d (direction v)
      have hdv : scalar3 d (direction v) = 0 := by
        have e : scalar3 u (direction v) = norm3 u * scalar3 d (direction v) := by
          simp only [scalar3]
          rw [scaled_direction hu 0, scaled_direction hu 1, scaled_direction hu 2]
          ring
        rw [e] at hdot
        exact (mul_eq_zero.1 hdot).resolve_left (norm3_ne_zero hu)
      rw [hdv] at this
      rcases hn with h | h <;> rw [h] at this <;> simpa [scalar3, normal] using this
    have ha1 : a 0 ^ 2 + a 1 ^ 2 = 1 := by
      have := dot_mulVec hA d d
      rw [← ha] at this
      simp only [scalar3, ha2] at this
      nlinarith [hdu]
    obtain ⟨β, hc, hs⟩ : ∃ β : ℝ, Real.cos β = 1 - 2 * a 0 ^ 2 ∧ Real.sin β = -(2 * a 0 * a 1) := by
      set z : ℂ := ⟨1 - 2 * a 0 ^ 2, -(2 * a 0 * a 1)⟩ with hz
      have hn : ‖z‖ = 1 := by
        rw [← sq_eq_sq₀ (norm_nonneg _) zero_le_one, Complex.sq_norm, Complex.normSq_mk]
        have : a 1 ^ 2 = 1 - a 0 ^ 2 := by linarith
        nlinarith
      have hz0 : z ≠ 0 := by
        intro h
        rw [h] at hn; simp at hn
      refine ⟨z.arg, ?_, ?_⟩
      · rw [Complex.cos_arg hz0, hn]; simp [hz]
      · rw [Complex.sin_arg, hn]; simp [hz]
    refine ⟨β, ?_⟩
    ext i j
    have e0 := congrFun (hB' ![1, 0, 0]) i
    have e1 := congrFun (hB' ![0, 1, 0]) i
    have e2 := congrFun (hB' ![0, 0, 1]) i
    rw [mulVec3] at e0 e1 e2
    generalize A * B * A.transpose = C at e0 e1 e2 ⊢
    fin_cases i <;> fin_cases j <;> simp [scalar3, ha2, PG.rotZ, PG.mirrorY, Matrix.mul_apply, Fin.sum_univ_three, hc, hs] at e0 e1 e2 ⊢ <;>
      nlinarith
  by_cases hanti : direction normal = -direction v
  · obtain ⟨A, h1, rfl, -⟩ := C39_antiparallel_broken ⟨id, fun x => by simp, fun _ => rfl⟩ hv normal_ne hanti accuracy (ε := 0)
    rw [direction_normal] at hanti
    have hdir : direction v = -normal := by rw [hanti, neg_neg]
    have hO : Orthogonal (-1 : Mat) := by simp [Orthogonal]
    refine ⟨-1, h1, hO, fun B α ⟨hB1, hB2⟩ => .inr ⟨hdir, ?_⟩, hmirror (-1) hO (.inl (by
      rw [hdir, Matrix.neg_mulVec, Matrix.one_mulVec, neg_neg]))⟩
    have e : (-1 : Mat) * B * (-1 : Mat).transpose = B := by simp
    rw [e]
    have hvn : v = (-norm3 v) • normal := by
      funext i
      rw [scaled_direction hv i, hdir]
      simp
    have hn0 := norm3_ne_zero hv
    refine rotatesAbout_normal ?_ (fun w hw => ?_)
    · have e : normal = (-(norm3 v)⁻¹) • v := by
        funext i
        rw [Pi.smul_apply, scaled_direction hv i, hdir]
        simp
        field_simp
      rw [e, Matrix.mulVec_smul, hB1]
    · rw [hB2 w (by
        simp only [scalar3] at hw ⊢
        rw [scaled_direction hv 0, scaled_direction hv 1, scaled_direction hv 2, hdir]
        simp only [Pi.neg_apply]
        linear_combination -norm3 v * hw), hdir]
      funext i
      rw [Real.cos_neg, Real.sin_neg]
      fin_cases i <;> simp [vector3, normal]
  · obtain ⟨A, h1, h2, h3⟩ := C39_exact_partial hv normal_ne hanti hacc
    rw [direction_normal] at h3
    have hO : Orthogonal A := h2.1
    refine ⟨A, h1, hO, fun B α ⟨hB1, hB2⟩ => .inl ?_, hmirror _ hO (.inl h3)⟩
    have hback : A.transpose.mulVec normal = direction v := by
      rw [← h3, Matrix.mulVec_mulVec, h2.2.1, Matrix.one_mulVec]
    have hBd : B.mulVec (direction v) = direction v := by
      have e : direction v = (norm3 v)⁻¹ • v := by
        funext i
        simp [direction_eq, div_eq_inv_mul]
      rw [e, Matrix.mulVec_smul, hB1]
    refine rotatesAbout_normal ?_ (fun w hw => ?_)
    · rw [← Matrix.mulVec_mulVec, ← Matrix.mulVec_mulVec, hback, hBd, h3]
    · have hw' : scalar3 v (A.transpose.mulVec w) = 0 := by
        have := dot_mulVec (transpose_orthogonal hO) normal w
        rw [hback, hw] at this
        simp only [scalar3] at this ⊢
        rw [scaled_direction hv 0, scaled_direction hv 1, scaled_direction hv 2]
        linear_combination norm3 v * this
      rw [← Matrix.mulVec_mulVec, ← Matrix.mulVec_mulVec, hB2 _ hw']
      have e : (fun i => Real.cos α * A.transpose.mulVec w i + Real.sin α * vector3 (direction v) (A.transpose.mulVec w) i) =
          Real.cos α • A.transpose.mulVec w + Real.sin α • vector3 (direction v) (A.transpose.mulVec w) := by
        funext i; simp
      rw [e, Matrix.mulVec_add, Matrix.mulVec_smul, Matrix.mulVec_smul, mulVec_transpose hO, ← cross_mulVec h2, h3, mulVec_transpose hO]
      funext i
      simp

/-! ## The pattern of a crystal face -/

section
variable (S : Sympy) (ex : Rewriting) (Rp : Repr)

theorem turned_back {X : Crystal} {α : ℝ} (h : X.turned (-α) = X) : X.turned α = X := by
  have e := turned_turned X (-α) α
  have e0 := turned_turned X (-α) 0
  rw [h, zero_add] at e0
  rw [h, add_neg_cancel, e0, h] at e
  exact e

/-- **C106, rotation axes.**  Tensors of the tables whose point groups contain the rotation by `360/n` degrees about `v`, turned by a matrix
whose entries have the values that `rotation_matrix_from_two_vectors(v, [0, 0, 1])` returns: the formulas of `formgen` are unchanged when
`phi` is increased by `360/n` degrees, and the components of the Fourier formulas whose frequency is not a multiple of `n` are zero. -/
theorem C106_axis {theta : Expr} {n : ℕ} (hn : 0 < n) {v : Vec} (hv : v ≠ 0) {B : SymOp} (hB : RotatesAbout B v (2 * Real.pi / n))
    {eee qee : Option (Nd Expr)} (ht : Tabulated S B eee qee) (hg : ¬ (eee = none ∧ qee = none)) {accuracy : ℝ} (hacc : 0 < accuracy)
    {A : Nd Expr} (hA : IsMatrix 3 3 A) (hAr : ∀ s, OccursIn A s → s.isReal = some true ∧ s ≠ phi) :
    ∃ M eee' qee', rotationFromTwoVectors id v normal accuracy = .ok (M, false) ∧
      transformGiven S A eee = .ok eee' ∧ transformGiven S A qee = .ok qee' ∧
      (phi ∉ theta.free → ∃ c, formgen S ex theta eee' none qee' = .ok c ∧
        ∀ (r : Sym → ℝ) (θ : ℝ), theta.eval (realVal r) = (θ : ℂ) → HasValue A (realVal r) M →
          ∀ p q, Related c c r (withPhi r (r phi + 2 * Real.pi / n)) p q p q (· = ·)) ∧
      ∀ c, FourierFormulas S ex Rp theta eee' qee' c → c.getM = 16 ∧ ∀ p q m, -16 ≤ m ∧ m ≤ 16 → ¬ (n : ℤ) ∣ m →
        ∃ f, RealComponent c (combo p q) m f ∧ ∀ r : Sym → ℝ, HasValue A (realVal r) M → f r = 0 := by
  obtain ⟨M, m1, m2, m3, -⟩ := C106_matrix hv hacc
  obtain ⟨eee', qee', t1, t2, hval, hphi, hinv⟩ := turned_facts S (B3 := B) (B4 := B) ⟨ht.eee3, by simp⟩ ⟨by simp, ht.qee4⟩ hg hA hA
    (fun s hs => hAr s (hs.elim id id))
  have hX : ∀ σ, HasValue A σ M → (crystalOf eee' none qee' σ).turned (2 * Real.pi / n) = crystalOf eee' none qee' σ := by
    intro σ hσ
    rcases m3 B _ hB with h | ⟨-, h⟩
    · rw [← transformed_rotZ]
      exact hinv σ M M _ m2 m2 hσ hσ h h
    · refine turned_back ?_
      rw [← transformed_rotZ]
      exact hinv σ M M _ m2 m2 hσ hσ h h
  refine ⟨M, eee', qee', m1, t1, t2, fun hth => ?_, fun c hc => ?_⟩
  · obtain ⟨c, hc, -⟩ := formgen_ok S ex (theta := theta) hval
    exact ⟨c, hc, fun r θ hθ hσ p q => C45_periodic S ex hval hphi hth hc r θ _ hθ (hX _ hσ) p q⟩
  · obtain ⟨hM, θ, β, _, hcomp⟩ := fourier_components S ex Rp hc hval hphi
    exact ⟨hM, fun p q m hm hnm => ⟨_, hcomp p q m hm, fun r hσ => selection_core hn (hX _ hσ) _ _ _ _ hnm⟩⟩

/-- **C106, mirror planes.**  If the point groups contain the reflection at a plane that contains `v` (with a normal `u`), the pattern has a
mirror line: there is an angle `β`, the same for all values of the other symbols, such that the formulas are unchanged when `phi` is
replaced by `-phi - β`. -/
theorem C106_mirror {theta : Expr} {v u : Vec} (hv : v ≠ 0) (hu : u ≠ 0) (huv : scalar3 u v = 0) {B : SymOp} (hB : ReflectsAlong B u)
    {eee qee : Option (Nd Expr)} (ht : Tabulated S B eee qee) (hg : ¬ (eee = none ∧ qee = none)) (hth : phi ∉ theta.free)
    {accuracy : ℝ} (hacc : 0 < accuracy) {A : Nd Expr} (hA : IsMatrix 3 3 A)
    (hAr : ∀ s, OccursIn A s → s.isReal = some true ∧ s ≠ phi) :
    ∃ M eee' qee' c, rotationFromTwoVectors id v normal accuracy = .ok (M, false) ∧
      transformGiven S A eee = .ok eee' ∧ transformGiven S A qee = .ok qee' ∧ formgen S ex theta eee' none qee' = .ok c ∧
      ∃ β, ∀ (r : Sym → ℝ) (θ : ℝ), theta.eval (realVal r) = (θ : ℂ) → HasValue A (realVal r) M →
        ∀ p q, Related c c r (withPhi r (-(r phi) - β)) p q p q (· = ·) := by
  obtain ⟨M, m1, m2, -, m4⟩ := C106_matrix hv hacc
  obtain ⟨β, hβ⟩ := m4 B u hu huv hB
  obtain ⟨eee', qee', c, t1, t2, hc, h⟩ := C99_mirror S ex (theta := theta) (B3 := B) (B4 := B) ⟨ht.eee3, by simp⟩ ⟨by simp, ht.qee4⟩ hg hth
    hA hA (fun s hs => hAr s (hs.elim id id))
  exact ⟨M, eee', qee', c, m1, t1, t2, hc, β, fun r θ hθ hσ p q => h r θ β M M hθ m2 m2 hσ hσ hβ hβ p q⟩

end

/-! ## Examples -/

theorem third_turn_cos : Real.cos (2 * Real.pi / (3 : ℕ)) = -(1 / 2) := by
  rw [show 2 * Real.pi / ((3 : ℕ) : ℝ) = Real.pi - Real.pi / 3 by push_cast; ring, Real.cos_pi_sub, Real.cos_pi_div_three]

theorem third_turn_sin : Real.sin (2 * Real.pi / (3 : ℕ)) = √3 / 2 := by
  rw [show 2 * Real.pi / ((3 : ℕ) : ℝ) = Real.pi - Real.pi / 3 by push_cast; ring, Real.sin_pi_sub, Real.sin_pi_div_three]

/-- The axis of the cubic crystals along (1, 1, 1). -/
theorem threefoldDiagonal_rotates : RotatesAbout PG.threefoldDiagonal ![1, 1, 1] (2 * Real.pi / (3 : ℕ)) := by
  have h3 : √3 * √3 = (3 : ℝ) := Real.mul_self_sqrt (by norm_num)
  have p3 : √3 ≠ (0 : ℝ) := by positivity
  have hn : direction ![1, 1, 1] = fun _ => 1 / √3 := by
    funext i
    fin_cases i <;> simp [direction] <;> norm_num
  refine ⟨by funext i; fin_cases i <;> simp [mulVec3, PG.threefoldDiagonal], fun w hw => ?_⟩
  simp [scalar3] at hw
  funext i
  rw [third_turn_cos, third_turn_sin, hn, mulVec3]
  fin_cases i <;> simp [PG.threefoldDiagonal, vector3] <;> field_simp <;> linarith

/-- The reflection that exchanges `x` and `y`. -/
def mirrorDiagonal : SymOp := !![0, 1, 0; 1, 0, 0; 0, 0, 1]

theorem mirrorDiagonal_reflects : ReflectsAlong mirrorDiagonal ![1, -1, 0] := by
  refine ⟨by funext i; fin_cases i <;> simp [mulVec3, mirrorDiagonal], fun w hw => ?_⟩
  simp [scalar3] at hw
  funext i
  rw [mulVec3]
  fin_cases i <;> simp [mirrorDiagonal] <;> linarith

/-- It is an operation of `T_d`. -/
theorem mirrorDiagonal_mem : mirrorDiagonal ∈ PG.generated [PG.rotoinversion4, PG.threefoldDiagonal] := by
  have hs : PG.rotoinversion4 ∈ PG.generated [PG.rotoinversion4, PG.threefoldDiagonal] := mem_generated (by simp)
  have hc : PG.threefoldDiagonal ∈ PG.generated [PG.rotoinversion4, PG.threefoldDiagonal] := mem_generated (by simp)
  have e : mirrorDiagonal = PG.rotoinversion4 * (PG.threefoldDiagonal * (PG.threefoldDiagonal * (PG.rotoinversion4 * (PG.rotoinversion4 *
      PG.threefoldDiagonal)))) := by
    have a : (2 * Real.pi / 4 : ℝ) = Real.pi / 2 := by ring
    ext i j
    fin_cases i <;> fin_cases j <;>
      simp [mirrorDiagonal, PG.rotoinversion4, PG.threefoldDiagonal, PG.rotZ, a, Matrix.mul_apply, Fin.sum_univ_three]
  rw [e]
  exact Submonoid.mul_mem _ hs (Submonoid.mul_mem _ hc (Submonoid.mul_mem _ hc (Submonoid.mul_mem _ hs (Submonoid.mul_mem _ hs hc))))

/-- Values of the nine symbols of `freeMatrix`. -/
def matrixValues (M : SymOp) (s : Sym) : ℝ :=
  match s.name with
  | [_, i, j] => if hi : i.toNat - 48 < 3 then if hj : j.toNat - 48 < 3 then M ⟨_, hi⟩ ⟨_, hj⟩ else 0 else 0
  | _ => 0

theorem matrixValues_value (M : SymOp) : HasValue freeMatrix (realVal (matrixValues M)) M := by
  intro i j
  fin_cases i <;> fin_cases j <;> rfl

theorem freeMatrix_real (s : Sym) (hs : OccursIn freeMatrix s) : s.isReal = some true ∧ s ≠ phi := by
  obtain ⟨idx, _, hs⟩ := hs
  have e := List.mem_singleton.1 hs
  rw [e]
  refine ⟨rfl, fun h => ?_⟩
  have := congrArg (fun s : Sym => s.name.head?) h
  simp [phi] at this

theorem diagonal_ne : (![1, 1, 1] : Vec) ≠ 0 := by
  intro h
  have := congrFun h 0
  simp at this

/-- GaAs (`T_d`), cut perpendicular to (1, 1, 1): the pattern is unchanged by 120 degrees and has a mirror line. -/
example (S : Sympy) (ex : Rewriting) (Rp : Repr) : ∃ M t eee' qee' c β, rotationFromTwoVectors id ![1, 1, 1] normal (1 / 10) = .ok (M, false) ∧
    Dict.get (dipole S) ['T', '_', 'd'] = .ok t ∧ transformGiven S freeMatrix (some (makeTensorReal S t)) = .ok eee' ∧
    transformGiven S freeMatrix none = .ok qee' ∧ formgen S ex (.num (1 / 2)) eee' none qee' = .ok c ∧
    ∃ r : Sym → ℝ, HasValue freeMatrix (realVal r) M ∧ ∀ p q,
      Related c c r (withPhi r (r phi + 2 * Real.pi / (3 : ℕ))) p q p q (· = ·) ∧
      Related c c r (withPhi r (-(r phi) - β)) p q p q (· = ·) := by
  have hD : ((['T', '_', 'd'] : Key), [PG.rotoinversion4, PG.threefoldDiagonal]) ∈ PG.pointGroups := by simp [PG.pointGroups]
  obtain ⟨t, h1, _⟩ := (C55_dipole S).2 _ _ hD
  have hT : ∀ B ∈ PG.generated [PG.rotoinversion4, PG.threefoldDiagonal], Tabulated S B (some (makeTensorReal S t)) none := by
    intro B hB
    refine ⟨?_, by simp⟩
    rintro t' ⟨⟩
    exact ⟨t, _, .entry (.dipole hD h1), .real, hB⟩
  have hth : phi ∉ (Expr.num (1 / 2)).free := by simp [Expr.free]
  obtain ⟨M, eee', qee', a1, a2, a3, a4, -⟩ := C106_axis S ex Rp (theta := .num (1 / 2)) (by norm_num) diagonal_ne threefoldDiagonal_rotates
    (hT _ (mem_generated (by simp))) (by simp) (accuracy := 1 / 10) (by norm_num) (A := freeMatrix) rfl freeMatrix_real
  obtain ⟨c, a5, a6⟩ := a4 hth
  obtain ⟨M', eee'', qee'', c', b1, b2, b3, b4, β, b5⟩ := C106_mirror S ex (theta := .num (1 / 2)) (v := ![1, 1, 1]) diagonal_ne
    (u := ![1, -1, 0]) (by intro h; have := congrFun h 0; simp at this) (by simp [scalar3]) mirrorDiagonal_reflects
    (hT _ mirrorDiagonal_mem) (by simp) hth (accuracy := 1 / 10) (by norm_num) (A := freeMatrix) rfl freeMatrix_real
  rw [a1] at b1; cases b1
  rw [a2] at b2; cases b2
  rw [a3] at b3; cases b3
  rw [a5] at b4; cases b4
  have hθ : ∀ r : Sym → ℝ, (Expr.num (1 / 2)).eval (realVal r) = ((1 / 2 : ℝ) : ℂ) := by intro r; simp [Expr.eval]
  exact ⟨M, t, eee', qee', c, β, a1, h1, a2, a3, a5, _, matrixValues_value M, fun p q =>
    ⟨a6 _ _ (hθ _) (matrixValues_value M) p q, b5 _ _ (hθ _) (matrixValues_value M) p q⟩⟩

end Shgpy
