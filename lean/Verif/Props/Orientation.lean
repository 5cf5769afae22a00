import Verif.Spec.Orientation
import Verif.Props.Selection
import Verif.Props.TensorTable

/-!
# Crystals in other orientations: C69 (turned tables), C99
-/

namespace Shgpy
open Spec Spec.PG TensorDef

set_option linter.unusedSectionVars false
set_option linter.unusedSimpArgs false

theorem valueOf3_eq {t : Nd Expr} {σ : Sym → ℂ} (i : Fin 3 → Fin 3) : valueOf 3 t σ i = value3 t σ (i 0) (i 1) (i 2) := by
  unfold valueOf value3
  congr 2

theorem valueOf4_eq {t : Nd Expr} {σ : Sym → ℂ} (i : Fin 4 → Fin 3) : valueOf 4 t σ i = value4 t σ (i 0) (i 1) (i 2) (i 3) := by
  unfold valueOf value4
  congr 2

theorem vec3_eta (i : Fin 3 → Fin 3) : i = ![i 0, i 1, i 2] := by
  funext k; fin_cases k <;> rfl

theorem vec4_eta (i : Fin 4 → Fin 3) : i = ![i 0, i 1, i 2, i 3] := by
  funext k; fin_cases k <;> rfl

/-- `transform` by a matrix with the value `R` is `act R`. -/
theorem transform_act (S : Sympy) {r : ℕ} (hr : r = 3 ∨ r = 4) {t A : Nd Expr} (hA : IsMatrix 3 3 A) (ht : IsTensor 3 r t) :
    ∃ t', transform (exprOps S) t A = .ok t' ∧ IsTensor 3 r t' ∧
      ∀ σ R, HasValue A σ R → valueOf r t' σ = act R (valueOf r t σ) := by
  rcases hr with rfl | rfl
  · obtain ⟨y, h1, h2, h3⟩ := transform3_ok S hA ht
    refine ⟨y, h1, h2, fun σ R hR => funext fun i => ?_⟩
    rw [valueOf3_eq, h3 σ, vec3_eta i, act3]
    simp only [rot3, valueOf3_eq, hR _ _]
    rfl
  · obtain ⟨y, h1, h2, h3⟩ := transform4_ok S hA ht
    refine ⟨y, h1, h2, fun σ R hR => funext fun i => ?_⟩
    rw [valueOf4_eq, h3 σ, vec4_eta i, act4]
    simp only [rot4, valueOf4_eq, hR _ _]
    rfl

theorem act_inj {r : ℕ} {R : SymOp} (hR : Orthogonal R) (T : Tens r) : act R.transpose (act R T) = T ∧ act R (act R.transpose T) = T := by
  rw [act_mul, act_mul, show R * R.transpose = 1 from hR, mul_eq_one_comm.1 hR]
  exact ⟨act_one T, act_one T⟩

theorem invariant_turned {r : ℕ} {R : SymOp} (hR : Orthogonal R) (G : Set SymOp) (T : Tens r) :
    InvariantUnder (turnedBy R G) (act R T) ↔ InvariantUnder G T := by
  constructor
  · intro h A hA
    have h1 := h _ ⟨A, hA, rfl⟩
    rw [act_mul, Matrix.mul_assoc, mul_eq_one_comm.1 hR, Matrix.mul_one, ← act_mul] at h1
    have h2 := congrArg (act R.transpose) h1
    rwa [(act_inj hR _).1, (act_inj hR _).1] at h2
  · rintro h _ ⟨A, hA, rfl⟩
    rw [act_mul, Matrix.mul_assoc, mul_eq_one_comm.1 hR, Matrix.mul_one, ← act_mul, h A hA]

/-- C99.  If a tensor of rank 3 or 4 describes a crystal, `transform` by an orthogonal matrix gives a tensor that describes the turned
crystal: its values are exactly the tensors that are invariant under the turned operations. -/
theorem C99_turned (S : Sympy) {r : ℕ} (hr : r = 3 ∨ r = 4) {t A : Nd Expr} {G : Set SymOp} (ht : Describes r t G)
    (hA : IsMatrix 3 3 A) {R : SymOp} (hR : Orthogonal R) (hAR : ∀ σ, HasValue A σ R) :
    ∃ t', transform (exprOps S) t A = .ok t' ∧ Describes r t' (turnedBy R G) := by
  obtain ⟨t', h1, h2, h3⟩ := transform_act S hr hA ht.1
  refine ⟨t', h1, h2, fun T => ?_⟩
  rw [← (act_inj hR T).2, invariant_turned hR, ht.2]
  constructor
  · rintro ⟨σ, h⟩
    exact ⟨σ, by rw [h, h3 σ R (hAR σ)]⟩
  · rintro ⟨σ, h⟩
    refine ⟨σ, ?_⟩
    rw [(act_inj hR T).2, h3 σ R (hAR σ)] at h
    rw [h, (act_inj hR _).1]

/-- C99 for the tables: every entry of the three tables, transformed by an orthogonal matrix, describes its crystal in the turned
orientation. -/
theorem C99_tables (S : Sympy) {r : ℕ} {t : Nd Expr} {G : Set SymOp} (ht : OfTable S r t G) {A : Nd Expr} (hA : IsMatrix 3 3 A)
    {R : SymOp} (hR : Orthogonal R) (hAR : ∀ σ, HasValue A σ R) :
    ∃ t', transform (exprOps S) t A = .ok t' ∧ Describes r t' (turnedBy R G) := by
  cases ht with
  | dipole hg h =>
    obtain ⟨t', h1, h2⟩ := (C55_dipole S).2 _ _ hg
    rw [h1] at h; cases h
    exact C99_turned S (Or.inl rfl) h2 hA hR hAR
  | surface hg h =>
    obtain ⟨t', h1, h2⟩ := (C55_surface S).2 _ _ hg
    rw [h1] at h; cases h
    exact C99_turned S (Or.inl rfl) h2 hA hR hAR
  | quadrupole hg h =>
    obtain ⟨t', h1, h2⟩ := (C55_quadrupole S).2.1 _ _ hg
    rw [h1] at h; cases h
    exact C99_turned S (Or.inr rfl) h2 hA hR hAR
  | isotropic h =>
    obtain ⟨t', h1, h2⟩ := (C55_quadrupole S).2.2
    rw [h1] at h; cases h
    exact C99_turned S (Or.inr rfl) h2 hA hR hAR

/-- The rotation by 90 degrees about `z`, as a matrix of integers. -/
def quarterTurn : Nd Expr :=
  ⟨[3, 3], fun idx => ([[.num 0, .num (-1), .num 0], [.num 1, .num 0, .num 0], [.num 0, .num 0, .num 1]].getD (idx.getD 0 0) []).getD
    (idx.getD 1 0) (.num 0)⟩

theorem quarterTurn_value (σ : Sym → ℂ) : HasValue quarterTurn σ (PG.rotZ (Real.pi / 2)) := by
  intro i j
  fin_cases i <;> fin_cases j <;> simp [quarterTurn, PG.rotZ, Expr.eval]

theorem rotZ_orthogonal (a : ℝ) : Orthogonal (PG.rotZ a) := by
  have := Real.sin_sq_add_cos_sq a
  unfold Orthogonal
  ext i j
  fin_cases i <;> fin_cases j <;> simp [PG.rotZ, Matrix.mul_apply, Fin.sum_univ_three] <;> nlinarith

theorem rotZ_mul_rotZ (a b : ℝ) : PG.rotZ a * PG.rotZ b = PG.rotZ (a + b) := by
  ext i j
  fin_cases i <;> fin_cases j <;> simp [PG.rotZ, Matrix.mul_apply, Fin.sum_univ_three, Real.cos_add, Real.sin_add] <;> ring

theorem orthogonal_generated {gens : List SymOp} (h : ∀ A ∈ gens, Orthogonal A) : ∀ A ∈ generated gens, Orthogonal A := by
  intro A hA
  refine Submonoid.closure_induction (motive := fun A _ => Orthogonal A) (fun A hA => h A hA) (by simp [Orthogonal])
    (fun A B _ _ hA hB => ?_) hA
  unfold Orthogonal at *
  rw [Matrix.transpose_mul]
  calc A * B * (B.transpose * A.transpose) = A * (B * B.transpose) * A.transpose := by
        simp only [Matrix.mul_assoc]
    _ = 1 := by rw [hB, Matrix.mul_one, hA]

/-- The group of turned generators is the turned group. -/
theorem turnedBy_generated {R : SymOp} (hR : Orthogonal R) (gens : List SymOp) :
    turnedBy R (generated gens) = generated (gens.map (fun A => R * A * R.transpose)) := by
  have hR' : R.transpose * R = 1 := mul_eq_one_comm.1 hR
  apply Set.Subset.antisymm
  · rintro _ ⟨A, hA, rfl⟩
    refine Submonoid.closure_induction
      (motive := fun A _ => R * A * R.transpose ∈ generated (gens.map (fun A => R * A * R.transpose)))
      (fun A hA => Submonoid.subset_closure (List.mem_map.2 ⟨A, hA, rfl⟩)) ?_ (fun A B _ _ hA hB => ?_) hA
    · rw [Matrix.mul_one, show R * R.transpose = 1 from hR]
      exact Submonoid.one_mem _
    · have e : R * (A * B) * R.transpose = R * A * R.transpose * (R * B * R.transpose) := by
        calc R * (A * B) * R.transpose = R * A * 1 * B * R.transpose := by simp only [Matrix.mul_assoc, Matrix.one_mul]
          _ = _ := by rw [← hR']; simp only [Matrix.mul_assoc]
      rw [e]
      exact Submonoid.mul_mem _ hA hB
  · intro B hB
    refine Submonoid.closure_induction (motive := fun B _ => B ∈ turnedBy R (generated gens)) (fun B hB => ?_) ?_
      (fun A B _ _ hA hB => ?_) hB
    · obtain ⟨A, hA, rfl⟩ := List.mem_map.1 hB
      exact ⟨A, Submonoid.subset_closure hA, rfl⟩
    · exact ⟨1, Submonoid.one_mem _, by rw [Matrix.mul_one]; exact hR.symm⟩
    · obtain ⟨A', hA', rfl⟩ := hA
      obtain ⟨B', hB', rfl⟩ := hB
      refine ⟨A' * B', Submonoid.mul_mem _ hA' hB', ?_⟩
      calc R * A' * R.transpose * (R * B' * R.transpose) = R * A' * (R.transpose * R) * B' * R.transpose := by
            simp only [Matrix.mul_assoc]
        _ = _ := by rw [hR']; simp only [Matrix.mul_assoc, Matrix.mul_one]

/-- C69, repaired.  For `C_3v` and `D_3`, where the two tables use different settings, the quadrupole entry turned by 90 degrees about
`z` is in the setting of the dipole entry. -/
theorem C69_quarter_turn (S : Sympy) {g : Key} (hg : g = ['C', '_', '3', 'v'] ∨ g = ['D', '_', '3']) :
    ∃ t3 t4 t4', Dict.get (dipole S) g = .ok t3 ∧ Dict.get (quadrupole S) g = .ok t4 ∧
      transform (exprOps S) t4 quarterTurn = .ok t4' ∧ SameSetting t3 t4' := by
  have main : ∀ a b : SymOp, (g, [threefoldZ, a]) ∈ pointGroups → (g, [threefoldZ, b]) ∈ quadrupoleGroups → Orthogonal a →
      PG.rotZ (Real.pi / 2) * b * (PG.rotZ (Real.pi / 2)).transpose = a → ∃ t3 t4 t4', Dict.get (dipole S) g = .ok t3 ∧
        Dict.get (quadrupole S) g = .ok t4 ∧ transform (exprOps S) t4 quarterTurn = .ok t4' ∧ SameSetting t3 t4' := by
    intro a b ha hb hao hab
    obtain ⟨t3, h1, h2⟩ := (C55_dipole S).2 _ _ ha
    obtain ⟨t4, h3, h4⟩ := (C55_quadrupole S).2.1 _ _ hb
    obtain ⟨t4', h5, h6⟩ := C99_turned S (Or.inr rfl) h4 (A := quarterTurn) rfl (rotZ_orthogonal _) quarterTurn_value
    refine ⟨t3, t4, t4', h1, h3, h5, generated [threefoldZ, a], ?_, h2, ?_⟩
    · refine orthogonal_generated (fun A hA => ?_)
      rcases List.mem_pair.1 hA with rfl | rfl
      · exact rotZ_orthogonal _
      · exact hao
    · rw [turnedBy_generated (rotZ_orthogonal _)] at h6
      have e : PG.rotZ (Real.pi / 2) * threefoldZ * (PG.rotZ (Real.pi / 2)).transpose = threefoldZ := by
        unfold threefoldZ
        rw [rotZ_mul_rotZ, add_comm, ← rotZ_mul_rotZ, Matrix.mul_assoc, show _ * Matrix.transpose _ = 1 from rotZ_orthogonal _,
          Matrix.mul_one]
      simpa only [List.map_cons, List.map_nil, e, hab] using h6
  rcases hg with rfl | rfl
  · refine main mirrorX mirrorY (by simp [pointGroups]) (by simp [quadrupoleGroups, turnedGroups]) ?_ ?_
    · unfold Orthogonal; ext i j; fin_cases i <;> fin_cases j <;> simp [mirrorX, Matrix.mul_apply, Fin.sum_univ_three]
    · ext i j
      fin_cases i <;> fin_cases j <;> simp [mirrorX, mirrorY, PG.rotZ, Matrix.mul_apply, Fin.sum_univ_three]
  · refine main twofoldX twofoldY (by simp [pointGroups]) (by simp [quadrupoleGroups, turnedGroups]) ?_ ?_
    · unfold Orthogonal; ext i j; fin_cases i <;> fin_cases j <;> simp [twofoldX, Matrix.mul_apply, Fin.sum_univ_three]
    · ext i j
      fin_cases i <;> fin_cases j <;> simp [twofoldX, twofoldY, PG.rotZ, Matrix.mul_apply, Fin.sum_univ_three]

/-! ## Patterns of turned crystals -/

section
variable (S : Sympy) (ex : Rewriting)

theorem opM_mul (A B : SymOp) : mulM (opM A) (opM B) = opM (A * B) := by
  funext i j
  simp [opM, mulM, Matrix.mul_apply]

/-- The tensors turned by `A3` and `A4` are accepted by `formgen`, and their crystal has the turned operation `B`, wherever `A3` and `A4`
have orthogonal values. -/
theorem turned_facts {B3 B4 : SymOp} {eee qee : Option (Nd Expr)} (h3 : Tabulated S B3 eee none) (h4 : Tabulated S B4 none qee)
    (hg : ¬ (eee = none ∧ qee = none)) {A3 A4 : Nd Expr} (hA3 : IsMatrix 3 3 A3) (hA4 : IsMatrix 3 3 A4)
    (hAr : ∀ s, OccursIn A3 s ∨ OccursIn A4 s → s.isReal = some true ∧ s ≠ phi) :
    ∃ eee' qee', transformGiven S A3 eee = .ok eee' ∧ transformGiven S A4 qee = .ok qee' ∧ ValidTensors eee' none qee' ∧
      ¬ OccursInSome eee' none qee' phi ∧ ∀ σ R3 R4 B, Orthogonal R3 → Orthogonal R4 → HasValue A3 σ R3 → HasValue A4 σ R4 →
        R3 * B3 * R3.transpose = B → R4 * B4 * R4.transpose = B →
        transformedCrystal (opM B) (crystalOf eee' none qee' σ) = crystalOf eee' none qee' σ := by
  have hv3 : (∀ u, eee = some u → IsTensor 3 3 u) ∧ (∀ t s, eee = some t → OccursIn t s → s.isReal = some true ∧ s ≠ phi) ∧
      ∀ σ, rot3 (opM B3) ((eee.map (fun t => value3 t σ)).getD 0) = (eee.map (fun t => value3 t σ)).getD 0 := by
    cases eee with
    | none => exact ⟨by simp, by simp, fun σ => rot3_zero _⟩
    | some t =>
      obtain ⟨a, b, c⟩ := tabulated_facts h3 (by simp)
      refine ⟨a.eee3, fun t' s ht hs => ⟨a.real t' (Or.inl ht) s hs, ?_⟩, fun σ => congrArg Crystal.eee (c σ)⟩
      rintro rfl
      exact b ⟨t', Or.inl ht, hs⟩
  have hv4 : (∀ u, qee = some u → IsTensor 3 4 u) ∧ (∀ t s, qee = some t → OccursIn t s → s.isReal = some true ∧ s ≠ phi) ∧
      ∀ σ, rot4 (opM B4) ((qee.map (fun t => value4 t σ)).getD 0) = (qee.map (fun t => value4 t σ)).getD 0 := by
    cases qee with
    | none => exact ⟨by simp, by simp, fun σ => rot4_zero _⟩
    | some t =>
      obtain ⟨a, b, c⟩ := tabulated_facts h4 (by simp)
      refine ⟨a.qee4, fun t' s ht hs => ⟨a.real t' (Or.inr (Or.inr ht)) s hs, ?_⟩, fun σ => congrArg Crystal.qee (c σ)⟩
      rintro rfl
      exact b ⟨t', Or.inr (Or.inr ht), hs⟩
  obtain ⟨eee', a1, a2, a3, a4, a5⟩ := transformGiven3 S hA3 hv3.1
  obtain ⟨qee', d1, d2, d3, d4, d5⟩ := transformGiven4 S hA4 hv4.1
  have hs3 : ∀ t s, eee' = some t → OccursIn t s → s.isReal = some true ∧ s ≠ phi := by
    intro t s ht hs
    rcases a4 t s ht hs with ⟨u, hu, hus⟩ | h
    · exact hv3.2.1 u s hu hus
    · exact hAr s (Or.inl h)
  have hs4 : ∀ t s, qee' = some t → OccursIn t s → s.isReal = some true ∧ s ≠ phi := by
    intro t s ht hs
    rcases d4 t s ht hs with ⟨u, hu, hus⟩ | h
    · exact hv4.2.1 u s hu hus
    · exact hAr s (Or.inr h)
  refine ⟨eee', qee', a1, d1, ⟨a3, by simp, d3, fun h => hg ⟨a2.1 h.1, d2.1 h.2.2⟩, ?_⟩, ?_, ?_⟩
  · rintro t (h | h | h) s hs
    · exact (hs3 t s h hs).1
    · simp at h
    · exact (hs4 t s h hs).1
  · rintro ⟨t, h | h | h, hs⟩
    · exact (hs3 t _ h hs).2 rfl
    · simp at h
    · exact (hs4 t _ h hs).2 rfl
  · intro σ R3 R4 B o3 o4 v3 v4 e3 e4
    have m3 : (fun i a : Fin 3 => (A3.get [i.val, a.val]).eval σ) = opM R3 := by funext i a; exact v3 i a
    have m4 : (fun i a : Fin 3 => (A4.get [i.val, a.val]).eval σ) = opM R4 := by funext i a; exact v4 i a
    have k3 : B * R3 = R3 * B3 := by
      rw [← e3, Matrix.mul_assoc, mul_eq_one_comm.1 o3, Matrix.mul_one]
    have k4 : B * R4 = R4 * B4 := by
      rw [← e4, Matrix.mul_assoc, mul_eq_one_comm.1 o4, Matrix.mul_one]
    refine Crystal.ext ?_ (rot3_zero _) ?_
    · show rot3 (opM B) ((eee'.map (fun t => value3 t σ)).getD 0) = (eee'.map (fun t => value3 t σ)).getD 0
      rw [a5 σ, m3, rot3_comp, opM_mul, k3, ← opM_mul, ← rot3_comp, hv3.2.2 σ]
    · show rot4 (opM B) ((qee'.map (fun t => value4 t σ)).getD 0) = (qee'.map (fun t => value4 t σ)).getD 0
      rw [d5 σ, m4, rot4_comp, opM_mul, k4, ← opM_mul, ← rot4_comp, hv4.2.2 σ]

/-- C99, rotations.  Tensors of the tables, transformed by matrices (for example to another face of the crystal): wherever the matrices
have orthogonal values `R3`, `R4` that take operations of the point groups to the rotation by `α` about the surface normal, the formulas
of `formgen` are unchanged when `phi` is increased by `α`. -/
theorem C99_rotation {theta : Expr} {B3 B4 : SymOp} {eee qee : Option (Nd Expr)} (h3 : Tabulated S B3 eee none)
    (h4 : Tabulated S B4 none qee) (hg : ¬ (eee = none ∧ qee = none)) (hth : phi ∉ theta.free) {A3 A4 : Nd Expr}
    (hA3 : IsMatrix 3 3 A3) (hA4 : IsMatrix 3 3 A4) (hAr : ∀ s, OccursIn A3 s ∨ OccursIn A4 s → s.isReal = some true ∧ s ≠ phi) :
    ∃ eee' qee' c, transformGiven S A3 eee = .ok eee' ∧ transformGiven S A4 qee = .ok qee' ∧
      formgen S ex theta eee' none qee' = .ok c ∧
      ∀ (r : Sym → ℝ) (θ α : ℝ) (R3 R4 : SymOp), theta.eval (realVal r) = (θ : ℂ) → Orthogonal R3 → Orthogonal R4 →
        HasValue A3 (realVal r) R3 → HasValue A4 (realVal r) R4 →
        R3 * B3 * R3.transpose = PG.rotZ α → R4 * B4 * R4.transpose = PG.rotZ α →
        ∀ p q, Related c c r (withPhi r (r phi + α)) p q p q (· = ·) := by
  obtain ⟨eee', qee', t1, t2, hv, hphi, hinv⟩ := turned_facts S h3 h4 hg hA3 hA4 hAr
  obtain ⟨c, hc, _⟩ := formgen_ok S ex (theta := theta) hv
  refine ⟨eee', qee', c, t1, t2, hc, fun r θ α R3 R4 hθ o3 o4 v3 v4 e3 e4 p q => C45_periodic S ex hv hphi hth hc r θ α hθ ?_ p q⟩
  rw [← transformed_rotZ]
  exact hinv _ R3 R4 _ o3 o4 v3 v4 e3 e4

/-- C99, mirrors.  The same for operations that are taken to the mirror plane that contains the normal and makes the angle `β/2` with
the `x` axis. -/
theorem C99_mirror {theta : Expr} {B3 B4 : SymOp} {eee qee : Option (Nd Expr)} (h3 : Tabulated S B3 eee none)
    (h4 : Tabulated S B4 none qee) (hg : ¬ (eee = none ∧ qee = none)) (hth : phi ∉ theta.free) {A3 A4 : Nd Expr}
    (hA3 : IsMatrix 3 3 A3) (hA4 : IsMatrix 3 3 A4) (hAr : ∀ s, OccursIn A3 s ∨ OccursIn A4 s → s.isReal = some true ∧ s ≠ phi) :
    ∃ eee' qee' c, transformGiven S A3 eee = .ok eee' ∧ transformGiven S A4 qee = .ok qee' ∧
      formgen S ex theta eee' none qee' = .ok c ∧
      ∀ (r : Sym → ℝ) (θ β : ℝ) (R3 R4 : SymOp), theta.eval (realVal r) = (θ : ℂ) → Orthogonal R3 → Orthogonal R4 →
        HasValue A3 (realVal r) R3 → HasValue A4 (realVal r) R4 →
        R3 * B3 * R3.transpose = PG.rotZ β * PG.mirrorY → R4 * B4 * R4.transpose = PG.rotZ β * PG.mirrorY →
        ∀ p q, Related c c r (withPhi r (-(r phi) - β)) p q p q (· = ·) := by
  obtain ⟨eee', qee', t1, t2, hv, hphi, hinv⟩ := turned_facts S h3 h4 hg hA3 hA4 hAr
  obtain ⟨c, hc, hd⟩ := formgen_ok S ex (theta := theta) hv
  refine ⟨eee', qee', c, t1, t2, hc, fun r θ β R3 R4 hθ o3 o4 v3 v4 e3 e4 p q => ?_⟩
  obtain ⟨e, he, hval⟩ := hd.2 p q
  refine ⟨e, e, he, he, ?_⟩
  rw [hval r θ hθ, hval (withPhi r (-(r phi) - β)) θ (by rw [eval_withPhi hth, hθ]), crystalOf_withPhi hv.shapes hphi,
    intensity_mirror_plane rfl (hinv _ R3 R4 _ o3 o4 v3 v4 e3 e4)]
  simp [withPhi]

/-- C99, selection rule.  Fourier formulas of tensors that were transformed by matrices: wherever the matrices have orthogonal values
that take operations of the point groups to the rotation by `360/n` degrees about the surface normal, the components whose frequency is
not a multiple of `n` are zero. -/
theorem C99_selection (Rp : Repr) {theta : Expr} {n : ℕ} (hn : 0 < n) {B3 B4 : SymOp} {eee qee : Option (Nd Expr)}
    (h3 : Tabulated S B3 eee none) (h4 : Tabulated S B4 none qee) (hg : ¬ (eee = none ∧ qee = none)) {A3 A4 : Nd Expr}
    (hA3 : IsMatrix 3 3 A3) (hA4 : IsMatrix 3 3 A4) (hAr : ∀ s, OccursIn A3 s ∨ OccursIn A4 s → s.isReal = some true ∧ s ≠ phi) :
    ∃ eee' qee', transformGiven S A3 eee = .ok eee' ∧ transformGiven S A4 qee = .ok qee' ∧
      ∀ c, FourierFormulas S ex Rp theta eee' qee' c → c.getM = 16 ∧ ∀ p q m, -16 ≤ m ∧ m ≤ 16 → ¬ (n : ℤ) ∣ m →
        ∃ f, RealComponent c (combo p q) m f ∧ ∀ (r : Sym → ℝ) (R3 R4 : SymOp), Orthogonal R3 → Orthogonal R4 →
          HasValue A3 (realVal r) R3 → HasValue A4 (realVal r) R4 → R3 * B3 * R3.transpose = PG.rotZ (2 * Real.pi / n) →
          R4 * B4 * R4.transpose = PG.rotZ (2 * Real.pi / n) → f r = 0 := by
  obtain ⟨eee', qee', t1, t2, hv, hphi, hinv⟩ := turned_facts S h3 h4 hg hA3 hA4 hAr
  refine ⟨eee', qee', t1, t2, fun c hc => ?_⟩
  obtain ⟨hM, θ, β, _, hcomp⟩ := fourier_components S ex Rp hc hv hphi
  refine ⟨hM, fun p q m hm hnm => ⟨_, hcomp p q m hm, fun r R3 R4 o3 o4 v3 v4 e3 e4 => ?_⟩⟩
  exact selection_core hn (by rw [← transformed_rotZ]; exact hinv _ R3 R4 _ o3 o4 v3 v4 e3 e4) _ _ _ _ hnm

end

/-! ## The (111) face of a cubic crystal -/

/-- A matrix of nine real symbols. -/
def freeMatrix : Nd Expr := ⟨[3, 3], fun idx => .sym ⟨['a', Char.ofNat (48 + idx.getD 0 0), Char.ofNat (48 + idx.getD 1 0)], 1⟩⟩

/-- The rotation that takes the direction (1, 1, 1) to `z`. -/
noncomputable def toFace111 : SymOp :=
  !![1 / √2, -(1 / √2), 0; 1 / √6, 1 / √6, -(2 / √6); 1 / √3, 1 / √3, 1 / √3]

theorem toFace111_orthogonal : Orthogonal toFace111 := by
  have h2 : √2 * √2 = (2 : ℝ) := Real.mul_self_sqrt (by norm_num)
  have h3 : √3 * √3 = (3 : ℝ) := Real.mul_self_sqrt (by norm_num)
  have h6 : √6 * √6 = (6 : ℝ) := Real.mul_self_sqrt (by norm_num)
  have p2 : √2 ≠ (0 : ℝ) := by positivity
  have p3 : √3 ≠ (0 : ℝ) := by positivity
  have p6 : √6 ≠ (0 : ℝ) := by positivity
  unfold Orthogonal
  ext i j
  fin_cases i <;> fin_cases j <;> simp [toFace111, Matrix.mul_apply, Fin.sum_univ_three] <;> field_simp <;> nlinarith

theorem toFace111_threefold : toFace111 * threefoldDiagonal * toFace111.transpose = PG.rotZ (2 * Real.pi / 3) := by
  have h2 : √2 * √2 = (2 : ℝ) := Real.mul_self_sqrt (by norm_num)
  have h3 : √3 * √3 = (3 : ℝ) := Real.mul_self_sqrt (by norm_num)
  have h6 : √6 * √6 = (6 : ℝ) := Real.mul_self_sqrt (by norm_num)
  have h23 : √6 = √2 * (√3 : ℝ) := by
    rw [← Real.sqrt_mul (by norm_num)]; norm_num
  have p2 : √2 ≠ (0 : ℝ) := by positivity
  have p3 : √3 ≠ (0 : ℝ) := by positivity
  have p6 : √6 ≠ (0 : ℝ) := by positivity
  have hc : Real.cos (2 * Real.pi / 3) = -(1 / 2) := by
    rw [show 2 * Real.pi / 3 = Real.pi - Real.pi / 3 by ring, Real.cos_pi_sub, Real.cos_pi_div_three]
  have hs : Real.sin (2 * Real.pi / 3) = √3 / 2 := by
    rw [show 2 * Real.pi / 3 = Real.pi - Real.pi / 3 by ring, Real.sin_pi_sub, Real.sin_pi_div_three]
  ext i j
  fin_cases i <;> fin_cases j <;>
    simp [toFace111, threefoldDiagonal, PG.rotZ, hc, hs, h23, Matrix.mul_apply, Fin.sum_univ_three] <;> field_simp <;> nlinarith

/-- The `T_d` dipole tensor (for example of GaAs) on the (111) face: `C99_rotation` applies with `α` = 120 degrees, although the tensor in
the table has no threefold axis along `z`. -/
example (S : Sympy) (ex : Rewriting) : ∃ t eee' qee' c, Dict.get (dipole S) ['T', '_', 'd'] = .ok t ∧
    transformGiven S freeMatrix (some (makeTensorReal S t)) = .ok eee' ∧ transformGiven S freeMatrix none = .ok qee' ∧
    formgen S ex (.num (1 / 2)) eee' none qee' = .ok c ∧
    ∃ r : Sym → ℝ, HasValue freeMatrix (realVal r) toFace111 ∧
      ∀ p q, Related c c r (withPhi r (r phi + 2 * Real.pi / 3)) p q p q (· = ·) := by
  have hD : ((['T', '_', 'd'] : Key), [PG.rotoinversion4, PG.threefoldDiagonal]) ∈ PG.pointGroups := by simp [PG.pointGroups]
  obtain ⟨t, h1, _⟩ := (C55_dipole S).2 _ _ hD
  have h3 : Tabulated S threefoldDiagonal (some (makeTensorReal S t)) none := by
    refine ⟨?_, by simp⟩
    rintro t' ⟨⟩
    exact ⟨t, _, .entry (.dipole hD h1), .real, mem_generated (by simp)⟩
  obtain ⟨eee', qee', c, a1, a2, a3, a4⟩ := C99_rotation S ex (theta := .num (1 / 2)) h3 (B4 := threefoldDiagonal) (qee := none)
    ⟨by simp, by simp⟩
    (by simp) (by simp [Expr.free]) (A3 := freeMatrix) (A4 := freeMatrix) rfl rfl (by
      intro s hs
      have hs : OccursIn freeMatrix s := hs.elim id id
      obtain ⟨idx, _, hs⟩ := hs
      have e := List.mem_singleton.1 hs
      rw [e]
      refine ⟨rfl, fun h => ?_⟩
      have := congrArg (fun s : Sym => s.name.head?) h
      simp [phi] at this)
  refine ⟨t, eee', qee', c, h1, a1, a2, a3, fun s => match s.name with
    | [_, i, j] => if hi : i.toNat - 48 < 3 then if hj : j.toNat - 48 < 3 then toFace111 ⟨_, hi⟩ ⟨_, hj⟩ else 0 else 0
    | _ => 0, ?_, fun p q => ?_⟩
  · intro i j
    fin_cases i <;> fin_cases j <;> rfl
  · refine a4 _ (1 / 2) _ toFace111 toFace111 (by simp [Expr.eval]) toFace111_orthogonal toFace111_orthogonal ?_ ?_
      toFace111_threefold toFace111_threefold p q <;>
    · intro i j
      fin_cases i <;> fin_cases j <;> rfl

/-- Values of the nine symbols. -/
noncomputable def faceValues (s : Sym) : ℝ :=
  match s.name with
  | [_, i, j] => if hi : i.toNat - 48 < 3 then if hj : j.toNat - 48 < 3 then toFace111 ⟨_, hi⟩ ⟨_, hj⟩ else 0 else 0
  | _ => 0

/-- The (111) face of a `T_d` crystal again: there are Fourier formulas, and `C99_selection` applies to them with `n = 3`. -/
example : ∃ t eee' c, Dict.get (dipole expandingSympy) ['T', '_', 'd'] = .ok t ∧
    transformGiven expandingSympy freeMatrix (some (makeTensorReal expandingSympy t)) = .ok eee' ∧
    FourierFormulas expandingSympy expanding exRepr (.num (1 / 2)) eee' none c ∧ HasValue freeMatrix (realVal faceValues) toFace111 ∧
    ∀ p q, ∃ f, RealComponent c (combo p q) 4 f ∧ f faceValues = 0 := by
  have hD : ((['T', '_', 'd'] : Key), [PG.rotoinversion4, PG.threefoldDiagonal]) ∈ PG.pointGroups := by simp [PG.pointGroups]
  obtain ⟨t, h1, _⟩ := (C55_dipole expandingSympy).2 _ _ hD
  have h3 : Tabulated expandingSympy threefoldDiagonal (some (makeTensorReal expandingSympy t)) none := by
    refine ⟨?_, by simp⟩
    rintro t' ⟨⟩
    exact ⟨t, _, .entry (.dipole hD h1), .real, mem_generated (by simp)⟩
  have hfree : ∀ s, OccursIn freeMatrix s ∨ OccursIn freeMatrix s → s.isReal = some true ∧ s ≠ phi := by
    intro s hs
    have hs : OccursIn freeMatrix s := hs.elim id id
    obtain ⟨idx, _, hs⟩ := hs
    have e := List.mem_singleton.1 hs
    rw [e]
    refine ⟨rfl, fun h => ?_⟩
    have := congrArg (fun s : Sym => s.name.head?) h
    simp [phi] at this
  have h4 : Tabulated expandingSympy threefoldDiagonal none none := ⟨by simp, by simp⟩
  obtain ⟨eee', qee', a1, a2, a3⟩ := C99_selection expandingSympy expanding exRepr (theta := .num (1 / 2)) (n := 3) (by norm_num) h3 h4
    (by simp) (A3 := freeMatrix) (A4 := freeMatrix) rfl rfl hfree
  obtain ⟨eee'', qee'', b1, b2, hv, hphi, -⟩ := turned_facts expandingSympy h3 h4 (by simp) (A3 := freeMatrix) (A4 := freeMatrix) rfl rfl hfree
  rw [a1] at b1; cases b1
  rw [a2] at b2; cases b2
  have hq : qee' = none := by cases a2; rfl
  subst hq
  have hth : phi ∉ (Expr.num (1 / 2)).free := by simp [Expr.free]
  obtain ⟨form, hf, hd⟩ := formgen_ok expandingSympy expanding (theta := .num (1 / 2)) hv
  have hs : ∀ k e, form.getPc k = .ok e → Supported e := by
    intro k e hk
    have H := graded_trigSum expandingSympy expanding hth
    rcases formgen_graded H (d := 4) (.inl rfl) hv.shapes (tensors_trigSum hphi) hf hk with ⟨x, hx, rfl⟩ | ⟨x, y, hx, hy, rfl⟩
    · exact expandAll_supported hx
    · exact expandAll_supported (H.add2 (H.run hx) (H.run hy))
  obtain ⟨c, hc, -⟩ := formToFform_supported expandingSympy (formgen_reachable expandingSympy expanding hf) hs le_rfl
  have hF : FourierFormulas expandingSympy expanding exRepr (.num (1 / 2)) eee' none c :=
    .easy hf hs hth (fun r => ⟨((1 / 2 : ℚ) : ℝ), by simp [Expr.eval]⟩) hc
  have hval : HasValue freeMatrix (realVal faceValues) toFace111 := by
    intro i j
    fin_cases i <;> fin_cases j <;> rfl
  refine ⟨t, eee', c, h1, a1, hF, hval, fun p q => ?_⟩
  obtain ⟨f, g1, g2⟩ := (a3 c hF).2 p q 4 (by norm_num) (by norm_num)
  exact ⟨f, g1, g2 _ _ _ toFace111_orthogonal toFace111_orthogonal hval hval toFace111_threefold toFace111_threefold⟩

/-- The hypotheses of `C99_tables` are met by every entry and for example the quarter turn. -/
example (S : Sympy) : ∃ t t', Dict.get (quadrupole S) ['T', '_', 'd'] = .ok t ∧ transform (exprOps S) t quarterTurn = .ok t' ∧
    Describes 4 t' (turnedBy (PG.rotZ (Real.pi / 2)) (generated [rotoinversion4, threefoldDiagonal])) := by
  have hQ : ((['T', '_', 'd'] : Key), [PG.rotoinversion4, PG.threefoldDiagonal]) ∈ quadrupoleGroups := by
    simp [quadrupoleGroups, pointGroups]
  obtain ⟨t, h1, _⟩ := (C55_quadrupole S).2.1 _ _ hQ
  obtain ⟨t', h2, h3⟩ := C99_tables S (.quadrupole hQ h1) (A := quarterTurn) rfl (rotZ_orthogonal _) quarterTurn_value
  exact ⟨t, t', h1, h2, h3⟩

end Shgpy
