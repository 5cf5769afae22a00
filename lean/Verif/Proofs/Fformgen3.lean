import Verif.Proofs.Fformgen2

/-!
# Lemmas: the contraction of the uncontracted terms with the tensors
-/

namespace Shgpy
open Spec
open scoped ComplexConjugate

set_option linter.unusedSectionVars false
set_option linter.unusedSimpArgs false

variable (S : Sympy)

/-- The four terms stored for one combination of polarizations. -/
def TermsOf (l : List FTensor) (G : Valuation → ℕ → ℕ → ℂ) (F κ : Valuation → ℕ → ℂ) : Prop :=
  ∃ h7 h9 h9' h10, l = [h7, h9, h9', h10] ∧
      Rep h7 [3, 3, 3, 3, 3, 3] 6 (h7f G F) ∧ Rep h9 [3, 3, 3, 3, 3, 3, 3] 7 (h9f G F κ) ∧
      Rep h9' [3, 3, 3, 3, 3, 3, 3] 7 (fun σ φ idx => -h9f G F κ σ φ idx) ∧
      Rep h10 [3, 3, 3, 3, 3, 3, 3, 3] 8 (h10f G F κ)

/-- `Σ χ_{cab} E_a E_b`. -/
noncomputable def Pf (χ : List ℕ → ℂ) (E : ℕ → ℂ) (c : ℕ) : ℂ :=
  ∑ a : Fin 3, ∑ b : Fin 3, χ [c, a, b] * E a * E b

/-- `Σ χ_{cjab} k_j E_a E_b`. -/
noncomputable def Qf (χ : List ℕ → ℂ) (k E : ℕ → ℂ) (c : ℕ) : ℂ :=
  ∑ a : Fin 3, ∑ b : Fin 3, ∑ j : Fin 3, χ [c, j, a, b] * k j * E a * E b

section
variable (G : Valuation → ℕ → ℕ → ℂ) (F κ : Valuation → ℕ → ℂ)

/-- `Σ_c h2_{cc'} v_c`. -/
noncomputable def Wf (v : ℕ → ℂ) (σ : Valuation) (φ : ℝ) (c' : ℕ) : ℂ := ∑ c : Fin 3, h2f G σ φ c c' * v c

/-- The value of a tensor of formulas. -/
noncomputable def evF (t : Nd Expr) (σ : Valuation) (idx : List ℕ) : ℂ := (t.get idx).eval σ

theorem term1 {h7 : FTensor} (R : Rep h7 [3, 3, 3, 3, 3, 3] 6 (h7f G F)) {c1 c2 : Nd Expr} (h1 : c1.shape = [3, 3, 3])
    (h2 : c2.shape = [3, 3, 3]) :
    ∃ C D, mapFreqs 16 (fun t => contractProduct (exprOps S) [t, c1] [[0, 6], [2, 7], [3, 8]]) h7 = .ok C ∧
      mapFreqs 16 (fun t => contractProduct (exprOps S) [t, c2] [[0, 3], [1, 4], [2, 5]]) C = .ok D ∧
      Rep D [] 6 (fun σ φ _ => ∑ c' : Fin 3, Wf G (Pf (evF c1 σ) (h3f F σ φ)) σ φ c' * Pf (evF c2 σ) (h3f F σ φ) c') := by
  obtain ⟨C, e1, R1⟩ := rep_contractProduct S (sh' := [3, 3, 3])
    (T' := fun σ φ idx => Wf G (Pf (evF c1 σ) (h3f F σ φ)) σ φ (idx.getD 0 0) * h3f F σ φ (idx.getD 1 0) *
      h3f F σ φ (idx.getD 2 0)) R h1
    (ps := [[0, 6], [2, 7], [3, 8]]) [(0, 6), (2, 7), (3, 8)] rfl ⟨by decide, by decide⟩ (by decide) (by
      intro σ φ idx hidx
      obtain ⟨i, j, k, rfl⟩ := idx3 hidx
      rw [contractFun_concrete (r := 9) rfl (show _ = [1, 4, 5] by decide) (by decide)]
      simp only [List.length_cons, List.length_nil, List.replicate_succ, List.replicate_zero, sum_tuples3, Wf, Pf,
        Finset.sum_mul, Finset.mul_sum]
      refine Finset.sum_congr rfl (fun a _ => Finset.sum_congr rfl (fun b _ => Finset.sum_congr rfl (fun c _ => ?_)))
      simp [Nd.tuples, axisValue, onAxes, List.range_succ, List.findIdx_cons, List.idxOf_cons, h7f, evF]
      ring)
  obtain ⟨D, e2, R2⟩ := rep_contractProduct S (sh' := [])
    (T' := fun σ φ _ => ∑ c' : Fin 3, Wf G (Pf (evF c1 σ) (h3f F σ φ)) σ φ c' * Pf (evF c2 σ) (h3f F σ φ) c')
    R1 h2 (ps := [[0, 3], [1, 4], [2, 5]]) [(0, 3), (1, 4), (2, 5)] rfl ⟨by decide, by decide⟩ (by decide) (by
      intro σ φ idx hidx
      obtain rfl := List.length_eq_zero_iff.mp hidx
      rw [contractFun_concrete (r := 6) rfl (show _ = [] by decide) (by decide)]
      simp only [List.length_cons, List.length_nil, List.replicate_succ, List.replicate_zero, sum_tuples3, Pf,
        Finset.mul_sum]
      refine Finset.sum_congr rfl (fun a _ => Finset.sum_congr rfl (fun b _ => Finset.sum_congr rfl (fun c _ => ?_)))
      simp [Nd.tuples, axisValue, onAxes, List.range_succ, List.findIdx_cons, List.idxOf_cons, evF, Pf]
      ring)
  exact ⟨C, D, e1, e2, R2⟩

theorem term2 {h9 : FTensor} (R : Rep h9 [3, 3, 3, 3, 3, 3, 3] 7 (h9f G F κ)) {c1 c2 : Nd Expr} (h1 : c1.shape = [3, 3, 3])
    (h2 : c2.shape = [3, 3, 3, 3]) :
    ∃ C D, mapFreqs 16 (fun t => contractProduct (exprOps S) [t, c1] [[0, 7], [2, 8], [3, 9]]) h9 = .ok C ∧
      mapFreqs 16 (fun t => contractProduct (exprOps S) [t, c2] [[0, 4], [1, 6], [2, 7], [3, 5]]) C = .ok D ∧
      Rep D [] 7 (fun σ φ _ => ∑ c' : Fin 3, Wf G (Pf (evF c1 σ) (h3f F σ φ)) σ φ c' *
        (-Complex.I * Qf (evF c2 σ) (h3f κ σ φ) (h3f F σ φ) c')) := by
  obtain ⟨C, e1, R1⟩ := rep_contractProduct S (sh' := [3, 3, 3, 3])
    (T' := fun σ φ idx => Wf G (Pf (evF c1 σ) (h3f F σ φ)) σ φ (idx.getD 0 0) * h3f F σ φ (idx.getD 1 0) *
      h3f F σ φ (idx.getD 2 0) * (-Complex.I * h3f κ σ φ (idx.getD 3 0))) R h1
    (ps := [[0, 7], [2, 8], [3, 9]]) [(0, 7), (2, 8), (3, 9)] rfl ⟨by decide, by decide⟩ (by decide) (by
      intro σ φ idx hidx
      obtain ⟨i, j, k, l, rfl⟩ := idx4 hidx
      rw [contractFun_concrete (r := 10) rfl (show _ = [1, 4, 5, 6] by decide) (by decide)]
      simp only [List.length_cons, List.length_nil, List.replicate_succ, List.replicate_zero, sum_tuples3, Wf, Pf,
        Finset.sum_mul, Finset.mul_sum]
      refine Finset.sum_congr rfl (fun a _ => Finset.sum_congr rfl (fun b _ => Finset.sum_congr rfl (fun c _ => ?_)))
      simp [Nd.tuples, axisValue, onAxes, List.range_succ, List.findIdx_cons, List.idxOf_cons, h9f, h7f, evF]
      ring)
  obtain ⟨D, e2, R2⟩ := rep_contractProduct S (sh' := [])
    (T' := fun σ φ _ => ∑ c' : Fin 3, Wf G (Pf (evF c1 σ) (h3f F σ φ)) σ φ c' *
        (-Complex.I * Qf (evF c2 σ) (h3f κ σ φ) (h3f F σ φ) c'))
    R1 h2 (ps := [[0, 4], [1, 6], [2, 7], [3, 5]]) [(0, 4), (1, 6), (2, 7), (3, 5)] rfl ⟨by decide, by decide⟩ (by decide) (by
      intro σ φ idx hidx
      obtain rfl := List.length_eq_zero_iff.mp hidx
      rw [contractFun_concrete (r := 8) rfl (show _ = [] by decide) (by decide)]
      simp only [List.length_cons, List.length_nil, List.replicate_succ, List.replicate_zero, sum_tuples3, Qf,
        Finset.mul_sum]
      refine Finset.sum_congr rfl (fun a _ => Finset.sum_congr rfl (fun b _ => Finset.sum_congr rfl (fun c _ =>
        Finset.sum_congr rfl (fun d _ => ?_))))
      simp [Nd.tuples, axisValue, onAxes, List.range_succ, List.findIdx_cons, List.idxOf_cons, evF]
      ring)
  exact ⟨C, D, e1, e2, R2⟩

theorem term3 {h9 : FTensor} (R : Rep h9 [3, 3, 3, 3, 3, 3, 3] 7 (fun σ φ idx => -h9f G F κ σ φ idx)) {c1 c2 : Nd Expr}
    (h1 : c1.shape = [3, 3, 3, 3]) (h2 : c2.shape = [3, 3, 3]) :
    ∃ C D, mapFreqs 16 (fun t => contractProduct (exprOps S) [t, c1] [[0, 7], [2, 9], [3, 10], [6, 8]]) h9 = .ok C ∧
      mapFreqs 16 (fun t => contractProduct (exprOps S) [t, c2] [[0, 3], [1, 4], [2, 5]]) C = .ok D ∧
      Rep D [] 7 (fun σ φ _ => ∑ c' : Fin 3, Wf G (fun c => Complex.I * Qf (evF c1 σ) (h3f κ σ φ) (h3f F σ φ) c) σ φ c' *
        Pf (evF c2 σ) (h3f F σ φ) c') := by
  obtain ⟨C, e1, R1⟩ := rep_contractProduct S (sh' := [3, 3, 3])
    (T' := fun σ φ idx => Wf G (fun c => Complex.I * Qf (evF c1 σ) (h3f κ σ φ) (h3f F σ φ) c) σ φ (idx.getD 0 0) *
      h3f F σ φ (idx.getD 1 0) * h3f F σ φ (idx.getD 2 0)) R h1
    (ps := [[0, 7], [2, 9], [3, 10], [6, 8]]) [(0, 7), (2, 9), (3, 10), (6, 8)] rfl ⟨by decide, by decide⟩ (by decide) (by
      intro σ φ idx hidx
      obtain ⟨i, j, k, rfl⟩ := idx3 hidx
      rw [contractFun_concrete (r := 11) rfl (show _ = [1, 4, 5] by decide) (by decide)]
      simp only [List.length_cons, List.length_nil, List.replicate_succ, List.replicate_zero, sum_tuples3, Wf, Qf,
        Finset.sum_mul, Finset.mul_sum]
      refine Finset.sum_congr rfl (fun a _ => Finset.sum_congr rfl (fun b _ => Finset.sum_congr rfl (fun c _ =>
        Finset.sum_congr rfl (fun d _ => ?_))))
      simp [Nd.tuples, axisValue, onAxes, List.range_succ, List.findIdx_cons, List.idxOf_cons, h9f, h7f, evF]
      ring)
  obtain ⟨D, e2, R2⟩ := rep_contractProduct S (sh' := [])
    (T' := fun σ φ _ => ∑ c' : Fin 3, Wf G (fun c => Complex.I * Qf (evF c1 σ) (h3f κ σ φ) (h3f F σ φ) c) σ φ c' *
        Pf (evF c2 σ) (h3f F σ φ) c')
    R1 h2 (ps := [[0, 3], [1, 4], [2, 5]]) [(0, 3), (1, 4), (2, 5)] rfl ⟨by decide, by decide⟩ (by decide) (by
      intro σ φ idx hidx
      obtain rfl := List.length_eq_zero_iff.mp hidx
      rw [contractFun_concrete (r := 6) rfl (show _ = [] by decide) (by decide)]
      simp only [List.length_cons, List.length_nil, List.replicate_succ, List.replicate_zero, sum_tuples3, Pf,
        Finset.mul_sum]
      refine Finset.sum_congr rfl (fun a _ => Finset.sum_congr rfl (fun b _ => Finset.sum_congr rfl (fun c _ => ?_)))
      simp [Nd.tuples, axisValue, onAxes, List.range_succ, List.findIdx_cons, List.idxOf_cons, evF]
      ring)
  exact ⟨C, D, e1, e2, R2⟩

theorem term4 {h10 : FTensor} (R : Rep h10 [3, 3, 3, 3, 3, 3, 3, 3] 8 (h10f G F κ)) {c1 c2 : Nd Expr}
    (h1 : c1.shape = [3, 3, 3, 3]) (h2 : c2.shape = [3, 3, 3, 3]) :
    ∃ C D, mapFreqs 16 (fun t => contractProduct (exprOps S) [t, c1] [[0, 8], [2, 10], [3, 11], [6, 9]]) h10 = .ok C ∧
      mapFreqs 16 (fun t => contractProduct (exprOps S) [t, c2] [[0, 4], [1, 6], [2, 7], [3, 5]]) C = .ok D ∧
      Rep D [] 8 (fun σ φ _ => ∑ c' : Fin 3, Wf G (fun c => Complex.I * Qf (evF c1 σ) (h3f κ σ φ) (h3f F σ φ) c) σ φ c' *
        (-Complex.I * Qf (evF c2 σ) (h3f κ σ φ) (h3f F σ φ) c')) := by
  obtain ⟨C, e1, R1⟩ := rep_contractProduct S (sh' := [3, 3, 3, 3])
    (T' := fun σ φ idx => Wf G (fun c => Complex.I * Qf (evF c1 σ) (h3f κ σ φ) (h3f F σ φ) c) σ φ (idx.getD 0 0) *
      h3f F σ φ (idx.getD 1 0) * h3f F σ φ (idx.getD 2 0) * (-Complex.I * h3f κ σ φ (idx.getD 3 0))) R h1
    (ps := [[0, 8], [2, 10], [3, 11], [6, 9]]) [(0, 8), (2, 10), (3, 11), (6, 9)] rfl ⟨by decide, by decide⟩ (by decide) (by
      intro σ φ idx hidx
      obtain ⟨i, j, k, l, rfl⟩ := idx4 hidx
      rw [contractFun_concrete (r := 12) rfl (show _ = [1, 4, 5, 7] by decide) (by decide)]
      simp only [List.length_cons, List.length_nil, List.replicate_succ, List.replicate_zero, sum_tuples3, Wf, Qf,
        Finset.sum_mul, Finset.mul_sum]
      refine Finset.sum_congr rfl (fun a _ => Finset.sum_congr rfl (fun b _ => Finset.sum_congr rfl (fun c _ =>
        Finset.sum_congr rfl (fun d _ => ?_))))
      simp [Nd.tuples, axisValue, onAxes, List.range_succ, List.findIdx_cons, List.idxOf_cons, h10f, h9f, h7f, evF]
      ring)
  obtain ⟨D, e2, R2⟩ := rep_contractProduct S (sh' := [])
    (T' := fun σ φ _ => ∑ c' : Fin 3, Wf G (fun c => Complex.I * Qf (evF c1 σ) (h3f κ σ φ) (h3f F σ φ) c) σ φ c' *
        (-Complex.I * Qf (evF c2 σ) (h3f κ σ φ) (h3f F σ φ) c'))
    R1 h2 (ps := [[0, 4], [1, 6], [2, 7], [3, 5]]) [(0, 4), (1, 6), (2, 7), (3, 5)] rfl ⟨by decide, by decide⟩ (by decide) (by
      intro σ φ idx hidx
      obtain rfl := List.length_eq_zero_iff.mp hidx
      rw [contractFun_concrete (r := 8) rfl (show _ = [] by decide) (by decide)]
      simp only [List.length_cons, List.length_nil, List.replicate_succ, List.replicate_zero, sum_tuples3,
        show ∀ c, Qf (evF c2 _) (h3f κ _ _) (h3f F _ _) c = _ from fun c => rfl, Finset.mul_sum]
      unfold Qf
      simp only [Finset.mul_sum]
      refine Finset.sum_congr rfl (fun a _ => Finset.sum_congr rfl (fun b _ => Finset.sum_congr rfl (fun c _ =>
        Finset.sum_congr rfl (fun d _ => ?_))))
      simp [Nd.tuples, axisValue, onAxes, List.range_succ, List.findIdx_cons, List.idxOf_cons, evF]
      ring)
  exact ⟨C, D, e1, e2, R2⟩

/-- What the sum of the four terms stands for. -/
noncomputable def totalF (c1 q1 c2 q2 : Nd Expr) (σ : Valuation) (φ : ℝ) : ℂ :=
  ∑ i : Fin 3, (∑ c : Fin 3, h1f G σ φ i c * (Pf (evF c1 σ) (h3f F σ φ) c + Complex.I * Qf (evF q1 σ) (h3f κ σ φ) (h3f F σ φ) c)) *
    ∑ c : Fin 3, h1f G σ φ i c * (Pf (evF c2 σ) (h3f F σ φ) c - Complex.I * Qf (evF q2 σ) (h3f κ σ φ) (h3f F σ φ) c)

theorem contractTerm_ok {h C D : FTensor} {c1 c2 : Nd Expr} {l1 l2 : List (List ℤ)} {B : ℕ} {T : Valuation → ℝ → List ℕ → ℂ}
    (h1 : mapFreqs 16 (fun t => contractProduct (exprOps S) [t, c1] l1) h = .ok C)
    (h2 : mapFreqs 16 (fun t => contractProduct (exprOps S) [t, c2] l2) C = .ok D) (R : Rep D [] B T) (hB : B ≤ 8) :
    ∃ g : ℤ → Expr, contractTerm S 16 h c1 c2 l1 l2 = .ok ((freqs 16).map g) ∧
      (∀ n : ℤ, 8 < |n| → ∀ σ, (g n).eval σ = 0) ∧
      ∀ σ φ, ∑ n ∈ Finset.Icc (-16 : ℤ) 16, (g n).eval σ * harmonic n φ = T σ φ [] := by
  obtain ⟨g, rfl, g1, g2, g3⟩ := R
  refine ⟨fun n => (g n).get [], ?_, fun n hn σ => g2 n ?_ σ [] rfl, fun σ φ => g3 σ φ [] rfl⟩
  · unfold contractTerm
    rw [h1, ok_bind, h2, ok_bind, List.map_map]
    rfl
  · omega

theorem replicate_eq_freqs' {α : Type} (M : ℕ) (t : α) : List.replicate (2 * M + 1) t = (freqs M).map (fun _ => t) := by
  rw [← length_freqs M, List.map_const']

theorem zipWith_freqs (f : Expr → Expr → Expr) (g g' : ℤ → Expr) (M : ℕ) :
    List.zipWith f ((freqs M).map g) ((freqs M).map g') = (freqs M).map (fun n => f (g n) (g' n)) := by
  induction freqs M with
  | nil => rfl
  | cons a l ih => simp [ih]

theorem foldlM4 {α : Type} {f : α → ℕ → Except Err α} {a0 a1 a2 a3 a4 : α} (h0 : f a0 0 = .ok a1) (h1 : f a1 1 = .ok a2)
    (h2 : f a2 2 = .ok a3) (h3 : f a3 3 = .ok a4) : [0, 1, 2, 3].foldlM f a0 = .ok a4 := by
  show (f a0 0 >>= fun a => f a 1 >>= fun a => f a 2 >>= fun a => f a 3 >>= fun a => pure a) = _
  rw [h0, ok_bind, h1, ok_bind, h2, ok_bind, h3, ok_bind]
  rfl

theorem contractAll_ok {l : List FTensor} (hl : TermsOf l G F κ) {chiD chiQ : Nd Expr} (hD : chiD.shape = [3, 3, 3])
    (hQ : chiQ.shape = [3, 3, 3, 3]) :
    ∃ g : ℤ → Expr, contractAll S 16 l chiD chiQ = .ok ((freqs 16).map g) ∧
      (∀ n : ℤ, 8 < |n| → ∀ σ, (g n).eval σ = 0) ∧
      ∀ σ φ, ∑ n ∈ Finset.Icc (-16 : ℤ) 16, (g n).eval σ * harmonic n φ =
        totalF G F κ chiD chiQ (conjugateTensor S chiD) (conjugateTensor S chiQ) σ φ := by
  obtain ⟨h7, h9, h9', h10, rfl, R7, R9, R9', R10⟩ := hl
  obtain ⟨C1, D1, a1, b1, r1⟩ := term1 S G F R7 hD (c2 := conjugateTensor S chiD) hD
  obtain ⟨C2, D2, a2, b2, r2⟩ := term2 S G F κ R9 hD (c2 := conjugateTensor S chiQ) hQ
  obtain ⟨C3, D3, a3, b3, r3⟩ := term3 S G F κ R9' hQ (c2 := conjugateTensor S chiD) hD
  obtain ⟨C4, D4, a4, b4, r4⟩ := term4 S G F κ R10 hQ (c2 := conjugateTensor S chiQ) hQ
  obtain ⟨g1, e1, z1, v1⟩ := contractTerm_ok S a1 b1 r1 (by norm_num)
  obtain ⟨g2, e2, z2, v2⟩ := contractTerm_ok S a2 b2 r2 (by norm_num)
  obtain ⟨g3, e3, z3, v3⟩ := contractTerm_ok S a3 b3 r3 (by norm_num)
  obtain ⟨g4, e4, z4, v4⟩ := contractTerm_ok S a4 b4 r4 (by norm_num)
  refine ⟨fun n => S.add (S.add (S.add (S.add (.num 0) (g1 n)) (g2 n)) (g3 n)) (g4 n), ?_, ?_, ?_⟩
  · unfold contractAll
    refine foldlM4 (a1 := (freqs 16).map (fun n => S.add (.num 0) (g1 n)))
      (a2 := (freqs 16).map (fun n => S.add (S.add (.num 0) (g1 n)) (g2 n)))
      (a3 := (freqs 16).map (fun n => S.add (S.add (S.add (.num 0) (g1 n)) (g2 n)) (g3 n))) ?_ ?_ ?_ ?_
    · show (contractTerm S 16 h7 chiD (conjugateTensor S chiD) [[0, 6], [2, 7], [3, 8]] [[0, 3], [1, 4], [2, 5]] >>= _) = _
      rw [e1, ok_bind, replicate_eq_freqs', zipWith_freqs]
      rfl
    · show (contractTerm S 16 h9 chiD (conjugateTensor S chiQ) [[0, 7], [2, 8], [3, 9]]
        [[0, 4], [1, 6], [2, 7], [3, 5]] >>= _) = _
      rw [e2, ok_bind, zipWith_freqs]
      rfl
    · show (contractTerm S 16 h9' chiQ (conjugateTensor S chiD) [[0, 7], [2, 9], [3, 10], [6, 8]]
        [[0, 3], [1, 4], [2, 5]] >>= _) = _
      rw [e3, ok_bind, zipWith_freqs]
      rfl
    · show (contractTerm S 16 h10 chiQ (conjugateTensor S chiQ) [[0, 8], [2, 10], [3, 11], [6, 9]]
        [[0, 4], [1, 6], [2, 7], [3, 5]] >>= _) = _
      rw [e4, ok_bind, zipWith_freqs]
      rfl
  · intro n hn σ
    simp [S.eval_add, z1 n hn σ, z2 n hn σ, z3 n hn σ, z4 n hn σ, Expr.eval]
  · intro σ φ
    simp only [S.eval_add, Expr.eval, Rat.cast_zero, zero_add, add_mul, Finset.sum_add_distrib, v1, v2, v3, v4]
    simp only [← Finset.sum_add_distrib]
    unfold totalF
    generalize Pf (evF chiD σ) (h3f F σ φ) = P
    generalize Pf (evF (conjugateTensor S chiD) σ) (h3f F σ φ) = P'
    generalize Qf (evF chiQ σ) (h3f κ σ φ) (h3f F σ φ) = Q
    generalize Qf (evF (conjugateTensor S chiQ) σ) (h3f κ σ φ) (h3f F σ φ) = Q'
    unfold Wf h2f
    generalize h1f G σ φ = h
    simp only [Fin.sum_univ_three]
    ring

end

end Shgpy
