import Verif.Proofs.Formgen
import Verif.Proofs.Form

/-!
# Lemmas: the formulas built by `formgen`
-/

namespace Shgpy
open Spec
open scoped ComplexConjugate

set_option linter.unusedSectionVars false
set_option linter.unusedSimpArgs false

theorem assertRealParams_ok {t : Nd Expr} (h : ∀ s, OccursIn t s → s.isReal = some true) :
    assertRealParams t = .ok () := by
  refine if_pos (fun s hs => ?_)
  simp only [freeOfArray, Nd.flatten, List.mem_flatMap, List.mem_map] at hs
  obtain ⟨_, ⟨idx, hidx, rfl⟩, hs⟩ := hs
  exact h s ⟨idx, mem_tuples.1 hidx, hs⟩

theorem assertRealParams_error {t : Nd Expr} {s : Sym} (h : OccursIn t s) (hs : s.isReal ≠ some true) :
    assertRealParams t = .error .valueError := by
  refine if_neg (fun hall => hs (hall s ?_))
  obtain ⟨idx, hidx, h⟩ := h
  simp only [freeOfArray, Nd.flatten, List.mem_flatMap, List.mem_map]
  exact ⟨_, ⟨idx, mem_tuples.2 hidx, rfl⟩, h⟩

/-- The value of a symbolic vector. -/
noncomputable def evalV (v : Nd Expr) (r : Sym → ℝ) : CVec := fun i => (v.get [i.val]).eval (realVal r)

section
variable (S : Sympy) (ex : Rewriting) (theta : Expr)

theorem evalV_vec3 (a b c : Expr) (r : Sym → ℝ) :
    evalV (vec3 a b c) r = ![a.eval (realVal r), b.eval (realVal r), c.eval (realVal r)] := by
  funext i
  fin_cases i <;> rfl

theorem evalV_map (v : Nd Expr) (r : Sym → ℝ) : evalV (v.map ex.run) r = evalV v r := by
  funext i
  exact ex.eval_run _ _

variable {theta} {r : Sym → ℝ} {θ : ℝ}

theorem evalV_kin (hθ : theta.eval (realVal r) = (θ : ℂ)) : evalV (kinVec S theta) r = kIn θ := by
  rw [kinVec, evalV_vec3, S.eval_sin, S.eval_cos, hθ]
  simp [kIn, Expr.eval]

theorem evalV_kout (hθ : theta.eval (realVal r) = (θ : ℂ)) : evalV (koutVec S theta) r = kOut θ := by
  rw [koutVec, evalV_vec3, eval_neg, S.eval_sin, S.eval_cos, hθ]
  simp [kOut, Expr.eval]

theorem evalV_fp (hθ : theta.eval (realVal r) = (θ : ℂ)) : evalV (fpVec S theta) r = fieldIn θ .P := by
  rw [fpVec, evalV_vec3, eval_neg, S.eval_sin, S.eval_cos, hθ]
  simp [fieldIn, Expr.eval]

theorem evalV_fs : evalV fsVec r = fieldIn θ .S := by
  rw [fsVec, evalV_vec3]
  simp [fieldIn, Expr.eval]

theorem evalV_zero : evalV zeroVec r = 0 := by
  rw [zeroVec, evalV_vec3]
  funext i
  fin_cases i <;> simp [Expr.eval]

theorem eval_rotR (i a : Fin 3) : ((rotR S).get [i.val, a.val]).eval (realVal r) = rotZ (r phi) i a := by
  fin_cases i <;> fin_cases a <;>
    simp [rotR, rotZ, eval_neg, S.eval_cos, S.eval_sin, Expr.eval, realVal]

theorem evalV_add (a b : Nd Expr) : evalV (ndAdd S a b) r = fun i => evalV a r i + evalV b r i := by
  funext i
  exact S.eval_add _ _ _

theorem evalV_scaleI (a : Nd Expr) : evalV (ndScale S .I a) r = fun i => Complex.I * evalV a r i := by
  funext i
  exact (S.eval_mul _ _ _).trans (by rw [Expr.eval]; rfl)

theorem evalV_project {k v : Nd Expr} (hk : k.shape = [3]) :
    evalV (projectOut S k v) r = perp (evalV k r) (evalV v r) := by
  funext i
  show (S.sub _ _).eval _ = _
  rw [eval_sub, S.eval_mul, npDot, hk, show [3].getD 0 0 = 3 from rfl, eval_opsSum, ringSum3]
  simp only [S.eval_mul]
  rfl

variable (r)

theorem rotated3_ok {t : Nd Expr} (ht : IsTensor 3 3 t) :
    ∃ rt, rotated3 S t = .ok rt ∧ rt.shape = [3, 3, 3] ∧
      ∀ r, value3 rt (realVal r) = rot3 (rotZ (r phi)) (value3 t (realVal r)) := by
  obtain ⟨rt, h1, h2⟩ := contractProduct_ok S [rotR S, rotR S, rotR S, t] [[1, 6], [3, 7], [5, 8]]
    (P := fun σ y => y.shape = [3, 3, 3] ∧ ∀ i j k, y.get [i, j, k] = ∑ a : Fin 3, ∑ b : Fin 3, ∑ c : Fin 3,
        ((rotR S).get [i, a.val]).eval σ * ((rotR S).get [j, b.val]).eval σ * ((rotR S).get [k, c.val]).eval σ *
          (t.get [a.val, b.val, c.val]).eval σ)
    (fun σ => contract_rot3 (A := evalNd σ (rotR S)) (t := evalNd σ t) rfl ht)
  refine ⟨rt, h1, (h2 (fun _ => 0)).1, fun r => ?_⟩
  funext i j k
  have := (h2 (realVal r)).2 i j k
  simp only [eval_rotR] at this
  exact this

theorem rotated4_ok {t : Nd Expr} (ht : IsTensor 3 4 t) :
    ∃ rt, rotated4 S t = .ok rt ∧ rt.shape = [3, 3, 3, 3] ∧
      ∀ r, value4 rt (realVal r) = rot4 (rotZ (r phi)) (value4 t (realVal r)) := by
  obtain ⟨rt, h1, h2⟩ := contractProduct_ok S [rotR S, rotR S, rotR S, rotR S, t] [[1, 8], [3, 9], [5, 10], [7, 11]]
    (P := fun σ y => y.shape = [3, 3, 3, 3] ∧ ∀ i j k l, y.get [i, j, k, l] =
      ∑ a : Fin 3, ∑ b : Fin 3, ∑ c : Fin 3, ∑ d : Fin 3,
        ((rotR S).get [i, a.val]).eval σ * ((rotR S).get [j, b.val]).eval σ * ((rotR S).get [k, c.val]).eval σ *
          ((rotR S).get [l, d.val]).eval σ * (t.get [a.val, b.val, c.val, d.val]).eval σ)
    (fun σ => contract_rot4 (A := evalNd σ (rotR S)) (t := evalNd σ t) rfl ht)
  refine ⟨rt, h1, (h2 (fun _ => 0)).1, fun r => ?_⟩
  funext i j k l
  have := (h2 (realVal r)).2 i j k l
  simp only [eval_rotR] at this
  exact this

theorem dipoleMoment_ok {rt F : Nd Expr} (h : rt.shape = [3, 3, 3]) (hF : F.shape = [3]) :
    ∃ v, dipoleMoment S rt F = .ok v ∧ v.shape = [3] ∧
      ∀ r, evalV v r = quad (value3 rt (realVal r)) (evalV F r) := by
  obtain ⟨v, h1, h2⟩ := contractProduct_ok S [rt, F, F] [[1, 3], [2, 4]]
    (P := fun σ y => y.shape = [3] ∧ ∀ i, y.get [i] = ∑ j : Fin 3, ∑ k : Fin 3,
      (rt.get [i, j.val, k.val]).eval σ * (F.get [j.val]).eval σ * (F.get [k.val]).eval σ)
    (fun σ => contract_quad (rt := evalNd σ rt) (F := evalNd σ F) h hF)
  exact ⟨v, h1, (h2 (fun _ => 0)).1, fun r => funext (fun i => (h2 (realVal r)).2 i)⟩

theorem magneticMoment_ok {rt kin F : Nd Expr} (h : rt.shape = [3, 3, 3]) (hk : kin.shape = [3]) (hF : F.shape = [3]) :
    ∃ v, magneticMoment S rt kin F = .ok v ∧ v.shape = [3] ∧
      ∀ r, evalV v r = cross (evalV kin r) (quad (value3 rt (realVal r)) (evalV F r)) := by
  obtain ⟨v, h1, h2⟩ := contractProduct_ok S [genLeviCivita, kin, rt, F, F] [[1, 3], [2, 4], [5, 7], [6, 8]]
    (P := fun σ y => y.shape = [3] ∧ ∀ i, y.get [i] = ∑ a : Fin 3, ∑ b : Fin 3, ∑ j : Fin 3, ∑ k : Fin 3,
      (genLeviCivita.get [i, a.val, b.val]).eval σ * (kin.get [a.val]).eval σ *
      ((rt.get [b.val, j.val, k.val]).eval σ * (F.get [j.val]).eval σ * (F.get [k.val]).eval σ))
    (fun σ => contract_magnetic (z := evalNd σ genLeviCivita) (kin := evalNd σ kin) (rt := evalNd σ rt)
      (F := evalNd σ F) rfl hk h hF)
  refine ⟨v, h1, (h2 (fun _ => 0)).1, fun r => funext (fun i => ?_)⟩
  have := (h2 (realVal r)).2 i
  simp only [← Finset.mul_sum] at this
  refine (show evalV v r i = _ from this).trans ?_
  show ∑ a : Fin 3, ∑ b : Fin 3, (genLeviCivita.get [i.val, a.val, b.val]).eval (realVal r) * evalV kin r a *
    quad (value3 rt (realVal r)) (evalV F r) b = _
  generalize evalV kin r = K
  generalize quad (value3 rt (realVal r)) (evalV F r) = Q
  fin_cases i <;> simp [Fin.sum_univ_three, genLeviCivita, cross, Expr.eval] <;> ring

theorem quadrupoleMoment_ok {rt kin F : Nd Expr} (h : rt.shape = [3, 3, 3, 3]) (hk : kin.shape = [3])
    (hF : F.shape = [3]) :
    ∃ v, quadrupoleMoment S rt kin F = .ok v ∧ v.shape = [3] ∧
      ∀ r, evalV v r = quadGrad (value4 rt (realVal r)) (evalV kin r) (evalV F r) := by
  obtain ⟨v, h1, h2⟩ := contractProduct_ok S [rt, kin, F, F] [[1, 4], [2, 5], [3, 6]]
    (P := fun σ y => y.shape = [3] ∧ ∀ i, y.get [i] = ∑ j : Fin 3, ∑ a : Fin 3, ∑ b : Fin 3,
      (rt.get [i, j.val, a.val, b.val]).eval σ * (kin.get [j.val]).eval σ * (F.get [a.val]).eval σ *
        (F.get [b.val]).eval σ)
    (fun σ => contract_quadGrad (rt := evalNd σ rt) (kin := evalNd σ kin) (F := evalNd σ F) h hk hF)
  exact ⟨v, h1, (h2 (fun _ => 0)).1, fun r => funext (fun i => (h2 (realVal r)).2 i)⟩

theorem value3_map (t : Nd Expr) (r : Sym → ℝ) : value3 (t.map ex.run) (realVal r) = value3 t (realVal r) := by
  funext i j k; exact ex.eval_run _ _

theorem value4_map (t : Nd Expr) (r : Sym → ℝ) : value4 (t.map ex.run) (realVal r) = value4 t (realVal r) := by
  funext i j k l; exact ex.eval_run _ _

/-- The sources collected so far are the source of the crystal `X`, for both input polarizations. -/
def Collected (acc : Nd Expr × Nd Expr) (theta : Expr) (X : Valuation → Crystal) : Prop :=
  acc.1.shape = [3] ∧ acc.2.shape = [3] ∧
  ∀ (r : Sym → ℝ) (θ : ℝ), theta.eval (realVal r) = (θ : ℂ) →
    evalV acc.1 r = source ((X (realVal r)).turned (r phi)) (kIn θ) (fieldIn θ .P) ∧
    evalV acc.2 r = source ((X (realVal r)).turned (r phi)) (kIn θ) (fieldIn θ .S)

theorem collected_zero (theta : Expr) : Collected (zeroVec, zeroVec) theta (fun _ => ⟨0, 0, 0⟩) := by
  refine ⟨rfl, rfl, fun r θ _ => ?_⟩
  have h : ∀ E, source ((⟨0, 0, 0⟩ : Crystal).turned (r phi)) (kIn θ) E = 0 := by
    intro E
    funext i
    have h1 : ∀ v : CVec, cross v 0 = 0 := by
      intro v; funext i; fin_cases i <;> simp [cross]
    have h2 : quad (rot3 (rotZ (r phi)) 0) E = 0 := by
      funext i; simp [quad, rot3]
    have h3 : quadGrad (rot4 (rotZ (r phi)) 0) (kIn θ) E = 0 := by
      funext i; simp [quadGrad, rot4]
    simp [source, Crystal.turned, h1, h2, h3]
  exact ⟨by rw [evalV_zero, h], by rw [evalV_zero, h]⟩

theorem cross_add (k v w : CVec) : cross k (fun i => v i + w i) = fun i => cross k v i + cross k w i := by
  funext i; fin_cases i <;> simp [cross] <;> ring

theorem addDipole_ok {theta : Expr} {t : Nd Expr} (ht : IsTensor 3 3 t) (hr : ∀ s, OccursIn t s → s.isReal = some true)
    {acc : Nd Expr × Nd Expr} {X : Valuation → Crystal} (hX : ∀ σ, (X σ).eee = 0) (ha : Collected acc theta X) :
    ∃ acc', addDipole S ex theta t acc = .ok acc' ∧
      Collected acc' theta (fun σ => { X σ with eee := value3 t σ }) := by
  obtain ⟨rt, h1, h2, h3⟩ := rotated3_ok S ht
  obtain ⟨Ps, h4, h5, h6⟩ := dipoleMoment_ok S (rt := rt.map ex.run) (F := fsVec) h2 rfl
  obtain ⟨Pp, h7, h8, h9⟩ := dipoleMoment_ok S (rt := rt.map ex.run) (F := fpVec S theta) h2 rfl
  unfold addDipole
  rw [assertRealParams_ok hr, ok_bind, h1, ok_bind]
  dsimp only
  rw [h4, ok_bind, h7, ok_bind]
  refine ⟨_, rfl, ha.1, ha.2.1, fun r θ hθ => ?_⟩
  obtain ⟨hP, hS⟩ := ha.2.2 r θ hθ
  have h0 : ∀ E, quad (rot3 (rotZ (r phi)) 0) E = 0 := by
    intro E; funext i; simp [quad, rot3]
  refine ⟨?_, ?_⟩
  · rw [evalV_add, evalV_map, h9, hP, value3_map, h3, evalV_fp S hθ]
    funext i
    simp only [source, Crystal.turned, hX, h0]
    simp only [Pi.zero_apply]
    ring
  · rw [evalV_add, evalV_map, h6, hS, value3_map, h3, evalV_fs (θ := θ)]
    funext i
    simp only [source, Crystal.turned, hX, h0]
    simp only [Pi.zero_apply]
    ring

theorem addMagnetic_ok {theta : Expr} {t : Nd Expr} (ht : IsTensor 3 3 t)
    (hr : ∀ s, OccursIn t s → s.isReal = some true)
    {acc : Nd Expr × Nd Expr} {X : Valuation → Crystal} (hX : ∀ σ, (X σ).mee = 0) (ha : Collected acc theta X) :
    ∃ acc', addMagnetic S ex theta t acc = .ok acc' ∧
      Collected acc' theta (fun σ => { X σ with mee := value3 t σ }) := by
  obtain ⟨rt, h1, h2, h3⟩ := rotated3_ok S ht
  obtain ⟨Ps, h4, h5, h6⟩ := magneticMoment_ok S (rt := rt.map ex.run) (kin := kinVec S theta) (F := fsVec) h2 rfl rfl
  obtain ⟨Pp, h7, h8, h9⟩ := magneticMoment_ok S (rt := rt.map ex.run) (kin := kinVec S theta) (F := fpVec S theta)
    h2 rfl rfl
  unfold addMagnetic
  rw [assertRealParams_ok hr, ok_bind, h1, ok_bind]
  dsimp only
  rw [h4, ok_bind, h7, ok_bind]
  refine ⟨_, rfl, ha.1, ha.2.1, fun r θ hθ => ?_⟩
  obtain ⟨hP, hS⟩ := ha.2.2 r θ hθ
  have h0 : ∀ E, quad (rot3 (rotZ (r phi)) 0) E = 0 := by
    intro E; funext i; simp [quad, rot3]
  have h0' : ∀ v : CVec, cross v 0 = 0 := by
    intro v; funext i; fin_cases i <;> simp [cross]
  refine ⟨?_, ?_⟩
  · rw [evalV_add, evalV_map, h9, hP, value3_map, h3, evalV_fp S hθ, evalV_kin S hθ]
    funext i
    simp only [source, Crystal.turned, hX, h0, h0']
    simp only [Pi.zero_apply]
    ring
  · rw [evalV_add, evalV_map, h6, hS, value3_map, h3, evalV_fs (θ := θ), evalV_kin S hθ]
    funext i
    simp only [source, Crystal.turned, hX, h0, h0']
    simp only [Pi.zero_apply]
    ring

theorem addQuadrupole_ok {theta : Expr} {t : Nd Expr} (ht : IsTensor 3 4 t)
    (hr : ∀ s, OccursIn t s → s.isReal = some true)
    {acc : Nd Expr × Nd Expr} {X : Valuation → Crystal} (hX : ∀ σ, (X σ).qee = 0) (ha : Collected acc theta X) :
    ∃ acc', addQuadrupole S ex theta t acc = .ok acc' ∧
      Collected acc' theta (fun σ => { X σ with qee := value4 t σ }) := by
  obtain ⟨rt, h1, h2, h3⟩ := rotated4_ok S ht
  obtain ⟨Ps, h4, h5, h6⟩ := quadrupoleMoment_ok S (rt := rt.map ex.run) (kin := kinVec S theta) (F := fsVec) h2 rfl rfl
  obtain ⟨Pp, h7, h8, h9⟩ := quadrupoleMoment_ok S (rt := rt.map ex.run) (kin := kinVec S theta) (F := fpVec S theta)
    h2 rfl rfl
  unfold addQuadrupole
  rw [assertRealParams_ok hr, ok_bind, h1, ok_bind]
  dsimp only
  rw [h4, ok_bind, h7, ok_bind]
  refine ⟨_, rfl, ha.1, ha.2.1, fun r θ hθ => ?_⟩
  obtain ⟨hP, hS⟩ := ha.2.2 r θ hθ
  have h0 : ∀ E, quadGrad (rot4 (rotZ (r phi)) 0) (kIn θ) E = 0 := by
    intro E; funext i; simp [quadGrad, rot4]
  refine ⟨?_, ?_⟩
  · rw [evalV_add, evalV_map, evalV_scaleI, h9, hP, value4_map, h3, evalV_fp S hθ, evalV_kin S hθ]
    funext i
    simp only [source, Crystal.turned, hX, h0]
    simp only [Pi.zero_apply]
    ring
  · rw [evalV_add, evalV_map, evalV_scaleI, h6, hS, value4_map, h3, evalV_fs (θ := θ), evalV_kin S hθ]
    funext i
    simp only [source, Crystal.turned, hX, h0]
    simp only [Pi.zero_apply]
    ring

theorem genS_ok {theta : Expr} {eee mee qee : Option (Nd Expr)} (hv : ValidTensors eee mee qee) :
    ∃ Sp Ss, genS S ex theta eee mee qee = .ok (Sp, Ss) ∧
      ∀ (r : Sym → ℝ) (θ : ℝ), theta.eval (realVal r) = (θ : ℂ) →
        evalV Sp r = radiated (crystalOf eee mee qee (realVal r)) θ (r phi) .P ∧
        evalV Ss r = radiated (crystalOf eee mee qee (realVal r)) θ (r phi) .S := by
  have step1 : ∃ acc, ifGiven eee (addDipole S ex theta) (zeroVec, zeroVec) = .ok acc ∧
      Collected acc theta (fun σ => ⟨(eee.map (fun t => value3 t σ)).getD 0, 0, 0⟩) := by
    cases he : eee with
    | none => exact ⟨_, rfl, collected_zero theta⟩
    | some t =>
      obtain ⟨acc, h, c⟩ := addDipole_ok S ex (hv.eee3 t he) (hv.real t (by simp [he])) (fun _ => rfl)
        (collected_zero theta)
      exact ⟨acc, h, c⟩
  obtain ⟨acc1, e1, c1⟩ := step1
  have step2 : ∃ acc, ifGiven mee (addMagnetic S ex theta) acc1 = .ok acc ∧
      Collected acc theta (fun σ => ⟨(eee.map (fun t => value3 t σ)).getD 0, (mee.map (fun t => value3 t σ)).getD 0,
        0⟩) := by
    cases he : mee with
    | none => exact ⟨_, rfl, c1⟩
    | some t =>
      obtain ⟨acc, h, c⟩ := addMagnetic_ok S ex (hv.mee3 t he) (hv.real t (by simp [he])) (fun _ => rfl) c1
      exact ⟨acc, h, c⟩
  obtain ⟨acc2, e2, c2⟩ := step2
  have step3 : ∃ acc, ifGiven qee (addQuadrupole S ex theta) acc2 = .ok acc ∧
      Collected acc theta (crystalOf eee mee qee) := by
    cases he : qee with
    | none => exact ⟨_, rfl, c2⟩
    | some t =>
      obtain ⟨acc, h, c⟩ := addQuadrupole_ok S ex (hv.qee4 t he) (hv.real t (by simp [he])) (fun _ => rfl) c2
      exact ⟨acc, h, c⟩
  obtain ⟨acc3, e3, c3⟩ := step3
  unfold genS
  rw [if_neg, e1, ok_bind, e2, ok_bind, e3, ok_bind]
  · refine ⟨_, _, rfl, fun r θ hθ => ?_⟩
    obtain ⟨hP, hS⟩ := c3.2.2 r θ hθ
    exact ⟨by rw [evalV_map, evalV_project S rfl, evalV_kout S hθ, hP]; rfl,
      by rw [evalV_map, evalV_project S rfl, evalV_kout S hθ, hS]; rfl⟩
  · have := hv.some_given
    simp only [Bool.and_eq_true, Option.isNone_iff_eq_none]
    tauto

theorem eval_modSq (v : Nd Expr) (i : Fin 3) (r : Sym → ℝ) :
    (modSq S v i.val).eval (realVal r) = (Complex.normSq (evalV v r i) : ℂ) := by
  rw [modSq, S.eval_mul, Sympy.conj, S.eval_norm, eval_conj, Complex.mul_conj]
  rfl

theorem eval_modSq0 (v : Nd Expr) (r : Sym → ℝ) :
    (modSq S v 0).eval (realVal r) = (Complex.normSq (evalV v r 0) : ℂ) := eval_modSq S v 0 r
theorem eval_modSq1 (v : Nd Expr) (r : Sym → ℝ) :
    (modSq S v 1).eval (realVal r) = (Complex.normSq (evalV v r 1) : ℂ) := eval_modSq S v 1 r
theorem eval_modSq2 (v : Nd Expr) (r : Sym → ℝ) :
    (modSq S v 2).eval (realVal r) = (Complex.normSq (evalV v r 2) : ℂ) := eval_modSq S v 2 r

theorem fourForms_ok (PP PS SP SS : Expr) : fourForms S PP PS SP SS =
    .ok ⟨[(['P', 'P'], PP), (['P', 'S'], PS), (['S', 'P'], SP), (['S', 'S'], SS)]⟩ := by
  have := FormContainer.init_of_wf S (d := [(['P', 'P'], .sy PP), (['P', 'S'], .sy PS), (['S', 'P'], .sy SP),
    (['S', 'S'], .sy SS)]) (by simp [Dict.WF, Dict.keys])
  exact this

/-- Four formulas whose values are the intensities of the two fields describe the crystal. -/
theorem describes_of {theta : Expr} {X : Valuation → Crystal} {Sp Ss : Nd Expr} {PP PS SP SS : Expr}
    (hS : ∀ (r : Sym → ℝ) (θ : ℝ), theta.eval (realVal r) = (θ : ℂ) →
        evalV Sp r = radiated (X (realVal r)) θ (r phi) .P ∧
        evalV Ss r = radiated (X (realVal r)) θ (r phi) .S)
    (h1 : ∀ r : Sym → ℝ, PP.eval (realVal r) = (outIntensity (evalV Sp r) .P : ℂ))
    (h2 : ∀ r : Sym → ℝ, PS.eval (realVal r) = (outIntensity (evalV Sp r) .S : ℂ))
    (h3 : ∀ r : Sym → ℝ, SP.eval (realVal r) = (outIntensity (evalV Ss r) .P : ℂ))
    (h4 : ∀ r : Sym → ℝ, SS.eval (realVal r) = (outIntensity (evalV Ss r) .S : ℂ)) :
    Describes ⟨[(['P', 'P'], PP), (['P', 'S'], PS), (['S', 'P'], SP), (['S', 'S'], SS)]⟩ theta X := by
  refine ⟨rfl, fun p q => ?_⟩
  cases p <;> cases q
  · exact ⟨PP, rfl, fun r θ hθ => by rw [h1, (hS r θ hθ).1]; rfl⟩
  · exact ⟨PS, rfl, fun r θ hθ => by rw [h2, (hS r θ hθ).1]; rfl⟩
  · exact ⟨SP, rfl, fun r θ hθ => by rw [h3, (hS r θ hθ).2]; rfl⟩
  · exact ⟨SS, rfl, fun r θ hθ => by rw [h4, (hS r θ hθ).2]; rfl⟩

theorem formgen_ok {theta : Expr} {eee mee qee : Option (Nd Expr)} (hv : ValidTensors eee mee qee) :
    ∃ c, formgen S ex theta eee mee qee = .ok c ∧ Describes c theta (crystalOf eee mee qee) := by
  obtain ⟨Sp, Ss, h1, h2⟩ := genS_ok S ex (theta := theta) hv
  unfold formgen
  rw [h1, ok_bind]
  dsimp only
  rw [fourForms_ok]
  refine ⟨_, rfl, describes_of h2 ?_ ?_ ?_ ?_⟩ <;> intro r
  · rw [S.eval_add, ex.eval_run, ex.eval_run, eval_modSq0 S Sp, eval_modSq2 S Sp]
    simp [outIntensity]
  · rw [ex.eval_run, eval_modSq1 S Sp]
    simp [outIntensity]
  · rw [S.eval_add, ex.eval_run, ex.eval_run, eval_modSq0 S Ss, eval_modSq2 S Ss]
    simp [outIntensity]
  · rw [ex.eval_run, eval_modSq1 S Ss]
    simp [outIntensity]

theorem formsOf_ok {theta : Expr} {X : Valuation → Crystal} {Sp Ss : Nd Expr}
    (hS : ∀ (r : Sym → ℝ) (θ : ℝ), theta.eval (realVal r) = (θ : ℂ) →
        evalV Sp r = radiated (X (realVal r)) θ (r phi) .P ∧
        evalV Ss r = radiated (X (realVal r)) θ (r phi) .S) :
    ∃ c, formsOf S Sp Ss = .ok c ∧ Describes c theta X := by
  unfold formsOf
  rw [fourForms_ok]
  refine ⟨_, rfl, describes_of hS ?_ ?_ ?_ ?_⟩ <;> intro r
  · rw [S.eval_add, eval_modSq0 S Sp, eval_modSq2 S Sp]
    simp [outIntensity]
  · rw [eval_modSq1 S Sp]
    simp [outIntensity]
  · rw [S.eval_add, eval_modSq0 S Ss, eval_modSq2 S Ss]
    simp [outIntensity]
  · rw [eval_modSq1 S Ss]
    simp [outIntensity]

theorem perp_add (k v w : CVec) : perp k (fun i => v i + w i) = fun i => perp k v i + perp k w i := by
  funext i
  simp only [perp, dot, mul_add, Finset.sum_add_distrib]
  ring

theorem perp_smul (k : CVec) (c : ℂ) (v : CVec) : perp k (fun i => c * v i) = fun i => c * perp k v i := by
  funext i
  have : dot k (fun i => c * v i) = c * dot k v := by
    simp only [dot, Finset.mul_sum]
    exact Finset.sum_congr rfl (fun i _ => by ring)
  simp only [perp, this]
  ring

theorem dipoleFields_ok (theta : Expr) {t : Nd Expr} (ht : IsTensor 3 3 t) :
    ∃ P, dipoleFields S theta t = .ok P ∧ P.1.shape = [3] ∧ P.2.shape = [3] ∧
      ∀ (r : Sym → ℝ) (θ : ℝ), theta.eval (realVal r) = (θ : ℂ) →
        evalV P.1 r = radiated ⟨value3 t (realVal r), 0, 0⟩ θ (r phi) .P ∧
        evalV P.2 r = radiated ⟨value3 t (realVal r), 0, 0⟩ θ (r phi) .S := by
  obtain ⟨rt, h1, h2, h3⟩ := rotated3_ok S ht
  obtain ⟨Ps, h4, h5, h6⟩ := dipoleMoment_ok S (rt := rt) (F := fsVec) h2 rfl
  obtain ⟨Pp, h7, h8, h9⟩ := dipoleMoment_ok S (rt := rt) (F := fpVec S theta) h2 rfl
  unfold dipoleFields
  rw [h1, ok_bind, h4, ok_bind, h7, ok_bind]
  refine ⟨_, rfl, h8, h5, fun r θ hθ => ?_⟩
  have hs : ∀ (t : T3) E, source ((⟨t, 0, 0⟩ : Crystal).turned (r phi)) (kIn θ) E = quad (rot3 (rotZ (r phi)) t) E := by
    intro t E
    have h1 : ∀ v : CVec, cross v 0 = 0 := by
      intro v; funext i; fin_cases i <;> simp [cross]
    have h2 : quad (rot3 (rotZ (r phi)) 0) E = 0 := by
      funext i; simp [quad, rot3]
    have h3 : quadGrad (rot4 (rotZ (r phi)) 0) (kIn θ) E = 0 := by
      funext i; simp [quadGrad, rot4]
    funext i
    simp [source, Crystal.turned, h1, h2, h3]
  constructor
  · rw [evalV_project S rfl, evalV_kout S hθ, h9, h3, evalV_fp S hθ, radiated, hs]
  · rw [evalV_project S rfl, evalV_kout S hθ, h6, h3, evalV_fs (θ := θ), radiated, hs]

theorem quadrupoleFields_ok (theta : Expr) {t : Nd Expr} (ht : IsTensor 3 4 t) :
    ∃ Q, quadrupoleFields S theta t = .ok Q ∧ Q.1.shape = [3] ∧ Q.2.shape = [3] ∧
      ∀ (r : Sym → ℝ) (θ : ℝ), theta.eval (realVal r) = (θ : ℂ) →
        (fun i => Complex.I * evalV Q.1 r i) = radiated ⟨0, 0, value4 t (realVal r)⟩ θ (r phi) .P ∧
        (fun i => Complex.I * evalV Q.2 r i) = radiated ⟨0, 0, value4 t (realVal r)⟩ θ (r phi) .S := by
  obtain ⟨rt, h1, h2, h3⟩ := rotated4_ok S ht
  obtain ⟨Qs, h4, h5, h6⟩ := quadrupoleMoment_ok S (rt := rt) (kin := kinVec S theta) (F := fsVec) h2 rfl rfl
  obtain ⟨Qp, h7, h8, h9⟩ := quadrupoleMoment_ok S (rt := rt) (kin := kinVec S theta) (F := fpVec S theta) h2 rfl rfl
  unfold quadrupoleFields
  rw [h1, ok_bind, h4, ok_bind, h7, ok_bind]
  refine ⟨_, rfl, h8, h5, fun r θ hθ => ?_⟩
  have hs : ∀ (t : T4) E, source ((⟨0, 0, t⟩ : Crystal).turned (r phi)) (kIn θ) E =
      fun i => Complex.I * quadGrad (rot4 (rotZ (r phi)) t) (kIn θ) E i := by
    intro t E
    have h1 : ∀ v : CVec, cross v 0 = 0 := by
      intro v; funext i; fin_cases i <;> simp [cross]
    have h2 : quad (rot3 (rotZ (r phi)) 0) E = 0 := by
      funext i; simp [quad, rot3]
    funext i
    simp [source, Crystal.turned, h1, h2]
  constructor
  · rw [evalV_project S rfl, evalV_kout S hθ, h9, h3, evalV_fp S hθ, evalV_kin S hθ, radiated, hs, perp_smul]
  · rw [evalV_project S rfl, evalV_kout S hθ, h6, h3, evalV_fs (θ := θ), evalV_kin S hθ, radiated, hs, perp_smul]

theorem source_split (X : Crystal) (k E : CVec) : source X k E = fun i =>
    source ⟨X.eee, 0, 0⟩ k E i + (source ⟨0, X.mee, 0⟩ k E i + source ⟨0, 0, X.qee⟩ k E i) := by
  have h1 : ∀ v : CVec, cross v 0 = 0 := by
    intro v; funext i; fin_cases i <;> simp [cross]
  have h2 : quad 0 E = 0 := by
    funext i; simp [quad]
  have h3 : quadGrad 0 k E = 0 := by
    funext i; simp [quadGrad]
  funext i
  simp [source, h1, h2, h3]
  ring

end

end Shgpy
