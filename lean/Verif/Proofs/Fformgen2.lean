import Verif.Proofs.Fformgen

/-!
# Lemmas: what the arrays built by `fformgen` represent
-/

namespace Shgpy
open Spec
open scoped ComplexConjugate

set_option linter.unusedSectionVars false
set_option linter.unusedSimpArgs false

variable (S : Sympy)

/-- The rotation about `z`, with natural numbers as indices. -/
noncomputable def rZ (φ : ℝ) (a c : ℕ) : ℂ :=
  ([[(Real.cos φ : ℂ), -(Real.sin φ : ℂ), 0], [(Real.sin φ : ℂ), (Real.cos φ : ℂ), 0], [0, 0, 1]].getD a []).getD c 0

theorem rZ_fin (φ : ℝ) (a c : Fin 3) : rZ φ a c = rotZ φ a c := by
  fin_cases a <;> fin_cases c <;> rfl

theorem cos_harmonic (φ : ℝ) : (Real.cos φ : ℂ) = 1 / 2 * harmonic (-1) φ + 1 / 2 * harmonic 1 φ := by
  simp only [harmonic, Complex.ofReal_cos, Complex.cos]
  rw [show (φ : ℂ) * Complex.I = Complex.I * (((1 : ℤ) : ℂ) * φ) by push_cast; ring,
    show -(φ : ℂ) * Complex.I = Complex.I * (((-1 : ℤ) : ℂ) * φ) by push_cast; ring]
  ring

theorem sin_harmonic (φ : ℝ) : (Real.sin φ : ℂ) =
    1 / 2 * Complex.I * harmonic (-1) φ + -1 / 2 * Complex.I * harmonic 1 φ := by
  simp only [harmonic, Complex.ofReal_sin, Complex.sin]
  rw [show (φ : ℂ) * Complex.I = Complex.I * (((1 : ℤ) : ℂ) * φ) by push_cast; ring,
    show -(φ : ℂ) * Complex.I = Complex.I * (((-1 : ℤ) : ℂ) * φ) by push_cast; ring]
  ring

/-- The component of the rotation at frequency `m`. -/
def rRComp (m : ℤ) : Nd Expr :=
  if m = 1 then mat3 [[half, halfI, .num 0], [negHalfI, half, .num 0], [.num 0, .num 0, .num 0]]
  else if m = 0 then mat3 [[.num 0, .num 0, .num 0], [.num 0, .num 0, .num 0], [.num 0, .num 0, .num 1]]
  else if m = -1 then mat3 [[half, negHalfI, .num 0], [halfI, half, .num 0], [.num 0, .num 0, .num 0]]
  else zerosNd [3, 3]

theorem rRArr_eq {M : ℕ} (hM : 1 ≤ M) : rRArr M = .ok ((freqs M).map rRComp) := by
  unfold rRArr
  rw [replicate_eq_freqs]
  show (ftSet _ _ _ >>= _) = _
  rw [freqs16_split _ _ _ (by rw [mem_freqs]; omega), ok_bind, freqs16_split _ _ _ (zero_mem_freqs M), ok_bind,
    freqs16_split _ _ _ (by rw [mem_freqs]; omega)]
  rfl

theorem idx1 {idx : List ℕ} (h : idx.length = [3].length) : ∃ i, idx = [i] := by
  match idx, h with
  | [i], _ => exact ⟨i, rfl⟩
theorem idx2 {idx : List ℕ} (h : idx.length = [3, 3].length) : ∃ i j, idx = [i, j] := by
  match idx, h with
  | [i, j], _ => exact ⟨i, j, rfl⟩
theorem idx3 {idx : List ℕ} (h : idx.length = [3, 3, 3].length) : ∃ i j k, idx = [i, j, k] := by
  match idx, h with
  | [i, j, k], _ => exact ⟨i, j, k, rfl⟩
theorem idx4 {idx : List ℕ} (h : idx.length = [3, 3, 3, 3].length) : ∃ i j k l, idx = [i, j, k, l] := by
  match idx, h with
  | [i, j, k, l], _ => exact ⟨i, j, k, l, rfl⟩

theorem rep_rR : ∃ A, rRArr 16 = .ok A ∧ Rep A [3, 3] 1 (fun _ φ idx => rZ φ (idx.getD 0 0) (idx.getD 1 0)) := by
  refine ⟨_, rRArr_eq (by norm_num), rep_of ?_ ?_ ?_⟩
  · intro n _
    unfold rRComp
    split_ifs <;> rfl
  · intro n _ hn σ idx _
    have h1 : n ≠ 1 := by rintro rfl; simp at hn
    have h0 : n ≠ 0 := by rintro rfl; simp at hn
    have h2 : n ≠ -1 := by rintro rfl; simp at hn
    simp [rRComp, h1, h0, h2, zerosNd, Expr.eval]
  · intro σ φ idx hidx
    have hs : ∑ n ∈ Finset.Icc (-16 : ℤ) 16, ((rRComp n).get idx).eval σ * harmonic n φ =
        ∑ n ∈ ({-1, 0, 1} : Finset ℤ), ((rRComp n).get idx).eval σ * harmonic n φ := by
      symm
      refine Finset.sum_subset (by decide) (fun n _ hn => ?_)
      simp only [Finset.mem_insert, Finset.mem_singleton, not_or] at hn
      simp [rRComp, hn.1, hn.2.1, hn.2.2, zerosNd, Expr.eval]
    rw [hs, Finset.sum_insert (by decide), Finset.sum_insert (by decide), Finset.sum_singleton]
    have h0 : harmonic 0 φ = 1 := by simp [harmonic]
    rw [h0]
    simp only [rRComp, mat3, rZ, cos_harmonic, sin_harmonic]
    obtain ⟨a, c, rfl⟩ := idx2 hidx
    rcases a with _ | _ | _ | a <;> rcases c with _ | _ | _ | c <;>
      (simp [half, halfI, negHalfI, Expr.eval, Expr.evalProd]; try ring)

theorem contractFun_concrete {sh : List ℕ} {pairs : List (ℕ × ℕ)} {F : List ℕ → ℂ} {idx axes : List ℕ} {r : ℕ}
    (hr : sh.length = r) (ha : freeAxes r pairs = axes)
    (hb : pairs.map (fun pq => min (sh.getD pq.1 0) (sh.getD pq.2 0)) = List.replicate pairs.length 3) :
    contractFun sh pairs F idx = ((Nd.tuples (List.replicate pairs.length 3)).map
      (fun v => F ((List.range r).map (axisValue pairs v (onAxes axes idx))))).sum := by
  subst hr ha
  unfold contractFun
  rw [hb]

section
variable (G : Valuation → ℕ → ℕ → ℂ) (F κ : Valuation → ℕ → ℂ)

/-- `Σ_a G_{ia} R_{ac}`. -/
noncomputable def h1f (σ : Valuation) (φ : ℝ) (i c : ℕ) : ℂ := ∑ a : Fin 3, G σ i a * rZ φ a c
/-- `Σ_i h1_{ic} h1_{ic'}`. -/
noncomputable def h2f (σ : Valuation) (φ : ℝ) (c c' : ℕ) : ℂ := ∑ i : Fin 3, h1f G σ φ i c * h1f G σ φ i c'
/-- `Σ_a R_{ac} F_a`. -/
noncomputable def h3f (σ : Valuation) (φ : ℝ) (c : ℕ) : ℂ := ∑ a : Fin 3, rZ φ a c * F σ a

/-- The value of `h7`. -/
noncomputable def h7f (σ : Valuation) (φ : ℝ) (idx : List ℕ) : ℂ :=
  h2f G σ φ (idx.getD 0 0) (idx.getD 1 0) * h3f F σ φ (idx.getD 2 0) * h3f F σ φ (idx.getD 3 0) *
    h3f F σ φ (idx.getD 4 0) * h3f F σ φ (idx.getD 5 0)

/-- The value of `h9`. -/
noncomputable def h9f (σ : Valuation) (φ : ℝ) (idx : List ℕ) : ℂ :=
  h7f G F σ φ idx * (-Complex.I * h3f κ σ φ (idx.getD 6 0))

/-- The value of `h10`. -/
noncomputable def h10f (σ : Valuation) (φ : ℝ) (idx : List ℕ) : ℂ :=
  h9f G F κ σ φ idx * (Complex.I * h3f κ σ φ (idx.getD 7 0))

theorem terms_ok {r1 rR rF rkin : FTensor}
    (hr1 : Rep r1 [3, 3, 3, 3] 1 (fun σ φ idx => G σ (idx.getD 0 0) (idx.getD 1 0) * rZ φ (idx.getD 2 0) (idx.getD 3 0)))
    (hR : Rep rR [3, 3] 1 (fun _ φ idx => rZ φ (idx.getD 0 0) (idx.getD 1 0)))
    (hF : Rep rF [3] 0 (fun σ _ idx => F σ (idx.getD 0 0))) (hk : Rep rkin [3] 0 (fun σ _ idx => κ σ (idx.getD 0 0))) :
    ∃ h7 h9 h9' h10, uncontractedTerms S 16 r1 rR rF rkin = .ok [h7, h9, h9', h10] ∧
      Rep h7 [3, 3, 3, 3, 3, 3] 6 (h7f G F) ∧ Rep h9 [3, 3, 3, 3, 3, 3, 3] 7 (h9f G F κ) ∧
      Rep h9' [3, 3, 3, 3, 3, 3, 3] 7 (fun σ φ idx => -h9f G F κ σ φ idx) ∧
      Rep h10 [3, 3, 3, 3, 3, 3, 3, 3] 8 (h10f G F κ) := by
  obtain ⟨h1, e1, r1'⟩ := rep_contract S (sh' := [3, 3]) (T' := fun σ φ idx => h1f G σ φ (idx.getD 0 0) (idx.getD 1 0))
    hr1 (ps := [[1, 2]]) [(1, 2)] rfl ⟨by decide, by decide⟩ (by decide) (by
      intro σ φ idx hidx
      obtain ⟨i, c, rfl⟩ := idx2 hidx
      rw [contractFun_concrete (r := 4) rfl (show _ = [0, 3] by decide) (by decide)]
      simp only [List.length_cons, List.length_nil, List.replicate_succ, List.replicate_zero, sum_tuples3]
      refine Finset.sum_congr rfl (fun a _ => ?_)
      simp [Nd.tuples, axisValue, onAxes, List.range_succ, List.findIdx_cons, List.idxOf_cons])
  obtain ⟨r2, e2, r2'⟩ := rep_convolve S r1' r1' (by norm_num)
  obtain ⟨h2, e3, r3'⟩ := rep_contract S (sh' := [3, 3]) (T' := fun σ φ idx => h2f G σ φ (idx.getD 0 0) (idx.getD 1 0))
    r2' (ps := [[0, 2]]) [(0, 2)] rfl ⟨by decide, by decide⟩ (by decide) (by
      intro σ φ idx hidx
      obtain ⟨i, c, rfl⟩ := idx2 hidx
      rw [contractFun_concrete (r := 4) rfl (show _ = [1, 3] by decide) (by decide)]
      simp only [List.length_cons, List.length_nil, List.replicate_succ, List.replicate_zero, sum_tuples3]
      refine Finset.sum_congr rfl (fun a _ => ?_)
      simp [Nd.tuples, axisValue, onAxes, List.range_succ, List.findIdx_cons, List.idxOf_cons])
  obtain ⟨r3, e4, r4'⟩ := rep_convolve S hR hF (by norm_num)
  obtain ⟨h3, e5, r5'⟩ := rep_contract S (sh' := [3]) (T' := fun σ φ idx => h3f F σ φ (idx.getD 0 0))
    r4' (ps := [[0, 2]]) [(0, 2)] rfl ⟨by decide, by decide⟩ (by decide) (by
      intro σ φ idx hidx
      obtain ⟨i, rfl⟩ := idx1 hidx
      rw [contractFun_concrete (r := 3) rfl (show _ = [1] by decide) (by decide)]
      simp only [List.length_cons, List.length_nil, List.replicate_succ, List.replicate_zero, sum_tuples3]
      refine Finset.sum_congr rfl (fun a _ => ?_)
      simp [Nd.tuples, axisValue, onAxes, List.range_succ, List.findIdx_cons, List.idxOf_cons])
  obtain ⟨h4, e6, r6'⟩ := rep_convolve S r3' r5' (by norm_num)
  obtain ⟨h5, e7, r7'⟩ := rep_convolve S r6' r5' (by norm_num)
  obtain ⟨h6, e8, r8'⟩ := rep_convolve S r7' r5' (by norm_num)
  obtain ⟨h7, e9, r9'⟩ := rep_convolve S r8' r5' (by norm_num)
  have R7 : Rep h7 [3, 3, 3, 3, 3, 3] 6 (h7f G F) := by
    refine r9'.congr (fun σ φ idx hidx => ?_)
    match idx, hidx with
    | [a, b, c, d, e, f], _ => simp [h7f]
  have hk' := rep_scale S hk (.mul [.num (-1), .I])
  obtain ⟨r4, e10, r10'⟩ := rep_convolve S hR hk' (by norm_num)
  obtain ⟨h8, e11, r11'⟩ := rep_contract S (sh' := [3])
    (T' := fun σ φ idx => -Complex.I * h3f κ σ φ (idx.getD 0 0))
    r10' (ps := [[0, 2]]) [(0, 2)] rfl ⟨by decide, by decide⟩ (by decide) (by
      intro σ φ idx hidx
      obtain ⟨i, rfl⟩ := idx1 hidx
      rw [contractFun_concrete (r := 3) rfl (show _ = [1] by decide) (by decide)]
      simp only [List.length_cons, List.length_nil, List.replicate_succ, List.replicate_zero, sum_tuples3, h3f,
        Finset.mul_sum]
      refine Finset.sum_congr rfl (fun a _ => ?_)
      simp [Nd.tuples, axisValue, onAxes, List.range_succ, List.findIdx_cons, List.idxOf_cons, Expr.eval, Expr.evalProd]
      ring)
  obtain ⟨h9, e12, r12'⟩ := rep_convolve S R7 r11' (by norm_num)
  have R9 : Rep h9 [3, 3, 3, 3, 3, 3, 3] 7 (h9f G F κ) := by
    refine r12'.congr (fun σ φ idx hidx => ?_)
    match idx, hidx with
    | [a, b, c, d, e, f, g], _ => simp [h9f, h7f]
  have hn8 := rep_scale S r11' (.num (-1))
  obtain ⟨h10, e13, r13'⟩ := rep_convolve S R9 hn8 (by norm_num)
  have R10 : Rep h10 [3, 3, 3, 3, 3, 3, 3, 3] 8 (h10f G F κ) := by
    refine r13'.congr (fun σ φ idx hidx => ?_)
    match idx, hidx with
    | [a, b, c, d, e, f, g, h], _ => simp [h10f, h9f, h7f, Expr.eval]
  refine ⟨h7, h9, scaleFreqs S (.num (-1)) h9, h10, ?_, R7, R9,
    (rep_scale S R9 (.num (-1))).congr (fun σ φ idx _ => by simp [Expr.eval]), R10⟩
  unfold uncontractedTerms
  rw [e1, ok_bind, e2, ok_bind, e3, ok_bind, e4, ok_bind, e5, ok_bind, e6, ok_bind, e7, ok_bind, e8, ok_bind, e9, ok_bind,
    e10, ok_bind, e11, ok_bind, e12, ok_bind, e13, ok_bind]
  rfl

end

end Shgpy
