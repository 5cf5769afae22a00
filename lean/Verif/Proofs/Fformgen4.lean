import Verif.Proofs.Fformgen3
import Verif.Proofs.Intensity

/-!
# Lemmas: the physics of the arrays built by `fformgen`
-/

namespace Shgpy
open Spec
open scoped ComplexConjugate

set_option linter.unusedSectionVars false
set_option linter.unusedSimpArgs false

theorem sum_out3 (g : Fin 3 → Fin 3 → Fin 3 → ℂ) : ∑ j, ∑ k, ∑ a, g j k a = ∑ a, ∑ j, ∑ k, g j k a := by
  rw [Finset.sum_congr rfl (fun j _ => Finset.sum_comm (s := Finset.univ) (t := Finset.univ) (f := g j)), Finset.sum_comm]

theorem sum_out4 (g : Fin 3 → Fin 3 → Fin 3 → Fin 3 → ℂ) :
    ∑ j, ∑ k, ∑ l, ∑ a, g j k l a = ∑ a, ∑ j, ∑ k, ∑ l, g j k l a := by
  rw [Finset.sum_congr rfl (fun j _ => sum_out3 (g j)), Finset.sum_comm]

/-- The vector in the axes of the crystal. -/
noncomputable def pull (R : Fin 3 → Fin 3 → ℂ) (E : CVec) : CVec := fun b => ∑ j, R j b * E j

theorem quad_rot3 (R : Fin 3 → Fin 3 → ℂ) (t : T3) (E : CVec) (i : Fin 3) :
    quad (rot3 R t) E i = ∑ a, R i a * quad t (pull R E) a := by
  have h1 : quad (rot3 R t) E i =
      ∑ j, ∑ k, ∑ a, ∑ b, ∑ c, R i a * (R j b * E j) * (R k c * E k) * t a b c := by
    unfold quad rot3
    refine Finset.sum_congr rfl (fun j _ => Finset.sum_congr rfl (fun k _ => ?_))
    simp only [Finset.sum_mul]
    refine Finset.sum_congr rfl (fun a _ => Finset.sum_congr rfl (fun b _ => Finset.sum_congr rfl (fun c _ => ?_)))
    ring
  rw [h1, sum_out3]
  refine Finset.sum_congr rfl (fun a _ => ?_)
  rw [sum_out3, quad, Finset.mul_sum]
  refine Finset.sum_congr rfl (fun b _ => ?_)
  rw [sum_out3, Finset.mul_sum]
  refine Finset.sum_congr rfl (fun c _ => ?_)
  unfold pull
  rw [mul_assoc (t a b c), Finset.sum_mul_sum, Finset.mul_sum, Finset.mul_sum]
  refine Finset.sum_congr rfl (fun j _ => ?_)
  rw [Finset.mul_sum, Finset.mul_sum]
  refine Finset.sum_congr rfl (fun k _ => ?_)
  ring

theorem quadGrad_rot4 (R : Fin 3 → Fin 3 → ℂ) (t : T4) (v E : CVec) (i : Fin 3) :
    quadGrad (rot4 R t) v E i = ∑ a, R i a * quadGrad t (pull R v) (pull R E) a := by
  have h1 : quadGrad (rot4 R t) v E i =
      ∑ j, ∑ k, ∑ l, ∑ a, ∑ b, ∑ c, ∑ d, R i a * (R j b * v j) * (R k c * E k) * (R l d * E l) * t a b c d := by
    unfold quadGrad rot4
    refine Finset.sum_congr rfl (fun j _ => Finset.sum_congr rfl (fun k _ => Finset.sum_congr rfl (fun l _ => ?_)))
    simp only [Finset.sum_mul]
    refine Finset.sum_congr rfl (fun a _ => Finset.sum_congr rfl (fun b _ => Finset.sum_congr rfl (fun c _ =>
      Finset.sum_congr rfl (fun d _ => ?_))))
    ring
  rw [h1, sum_out4]
  refine Finset.sum_congr rfl (fun a _ => ?_)
  rw [sum_out4, quadGrad, Finset.mul_sum]
  refine Finset.sum_congr rfl (fun b _ => ?_)
  rw [sum_out4, Finset.mul_sum]
  refine Finset.sum_congr rfl (fun c _ => ?_)
  rw [sum_out4, Finset.mul_sum]
  refine Finset.sum_congr rfl (fun d _ => ?_)
  unfold pull
  rw [show R i a * (t a b c d * (∑ j, R j b * v j) * (∑ j, R j c * E j) * ∑ j, R j d * E j) =
    (∑ j, R i a * (R j b * v j)) * (∑ k, (R k c * E k)) * ∑ l, (R l d * E l) * t a b c d by
      rw [← Finset.mul_sum, ← Finset.sum_mul]; ring]
  rw [Finset.sum_mul_sum, Finset.sum_mul]
  refine Finset.sum_congr rfl (fun j _ => ?_)
  rw [Finset.sum_mul_sum]
  refine Finset.sum_congr rfl (fun k _ => Finset.sum_congr rfl (fun l _ => ?_))
  ring

/-- The source in the axes of the crystal. -/
noncomputable def innerSource (t : T3) (q : T4) (k E : CVec) : CVec := fun a =>
  quad t E a + Complex.I * quadGrad q k E a

theorem source_rot (t : T3) (q : T4) (φ : ℝ) (k E : CVec) (i : Fin 3) :
    source (Crystal.turned ⟨t, 0, q⟩ φ) k E i =
      ∑ a, rotZ φ i a * innerSource t q (pull (rotZ φ) k) (pull (rotZ φ) E) a := by
  have hz : rot3 (rotZ φ) (0 : T3) = 0 := by
    funext i j k
    simp [rot3]
  have hc : cross k (quad (0 : T3) E) i = 0 := by
    have : quad (0 : T3) E = 0 := by funext i; simp [quad]
    rw [this]
    fin_cases i <;> simp [cross]
  simp only [source, Crystal.turned, hz, hc, add_zero, quad_rot3, quadGrad_rot4, innerSource, mul_add,
    Finset.sum_add_distrib, Finset.mul_sum]
  congr 1
  exact Finset.sum_congr rfl (fun a _ => by ring)

/-- The vector turned by half a turn about `z`. -/
def flipV (v : CVec) : CVec := ![-v 0, -v 1, v 2]

theorem rotZ_pi (φ : ℝ) (i a : Fin 3) : rotZ (φ + Real.pi) i a = ![-rotZ φ 0 a, -rotZ φ 1 a, rotZ φ 2 a] i := by
  fin_cases i <;> fin_cases a <;> simp [rotZ, Real.cos_add_pi, Real.sin_add_pi]

theorem pull_flip (φ : ℝ) (E : CVec) : pull (rotZ φ) (flipV E) = pull (rotZ (φ + Real.pi)) E := by
  funext b
  simp only [pull, Fin.sum_univ_three, rotZ_pi]
  simp [flipV]

/-- Which components belong to the output polarization. -/
def seen : Pol → Fin 3 → Prop
  | .P, i => i ≠ 1
  | .S, i => i = 1

instance (q : Pol) (i : Fin 3) : Decidable (seen q i) := by cases q <;> unfold seen <;> infer_instance

theorem out_flip (θ : ℝ) (V : CVec) (s : Pol) :
    (∑ i, Complex.normSq (∑ a, (if seen s i then (if i = a then 1 else 0) - flipV (kOut θ) i * flipV (kOut θ) a else 0) *
      V a)) = outIntensity (perp (kOut θ) (flipV V)) s := by
  cases s
  · simp only [Fin.sum_univ_three, seen, outIntensity, perp, dot, flipV, kOut]
    simp
    congr 1
    · rw [← Complex.normSq_neg]
      congr 1
      ring
    · congr 1
      ring
  · simp only [Fin.sum_univ_three, seen, outIntensity, perp, dot, flipV, kOut]
    simp

theorem rot_flip (φ : ℝ) (u : CVec) :
    (fun i => ∑ c, rotZ (φ + Real.pi) i c * u c) = flipV (fun a => ∑ c, rotZ φ a c * u c) := by
  funext i
  simp only [Fin.sum_univ_three, rotZ_pi, flipV]
  fin_cases i <;> (simp; try ring)

theorem out_flipped (θ φ : ℝ) (t : T3) (q : T4) (p s : Pol) :
    (∑ i, Complex.normSq (∑ a, (if seen s i then (if i = a then 1 else 0) - flipV (kOut θ) i * flipV (kOut θ) a else 0) *
      ∑ c, rotZ φ a c * innerSource t q (pull (rotZ φ) (flipV (kIn θ))) (pull (rotZ φ) (flipV (fieldIn θ p))) c)) =
    intensity ⟨t, 0, q⟩ θ (φ + Real.pi) p s := by
  rw [out_flip θ (fun a => ∑ c, rotZ φ a c *
    innerSource t q (pull (rotZ φ) (flipV (kIn θ))) (pull (rotZ φ) (flipV (fieldIn θ p))) c), ← rot_flip, pull_flip, pull_flip]
  unfold intensity radiated
  congr 2
  funext i
  rw [source_rot]

/-- The vector is real. -/
def RealV (v : CVec) : Prop := ∀ i, conj (v i) = v i

theorem conj_rotZ (φ : ℝ) (i a : Fin 3) : conj (rotZ φ i a) = rotZ φ i a := by
  fin_cases i <;> fin_cases a <;> simp [rotZ, ← Complex.ofReal_sin, ← Complex.ofReal_cos, Complex.conj_ofReal]

theorem realV_pull (φ : ℝ) {v : CVec} (h : RealV v) : RealV (pull (rotZ φ) v) := by
  intro b
  simp only [pull, map_sum, map_mul, conj_rotZ, h _]

theorem realV_kOut (θ : ℝ) : RealV (kOut θ) := by
  intro i
  fin_cases i <;> simp [kOut, ← Complex.ofReal_sin, ← Complex.ofReal_cos, Complex.conj_ofReal]
theorem realV_kIn (θ : ℝ) : RealV (kIn θ) := by
  intro i
  fin_cases i <;> simp [kIn, ← Complex.ofReal_sin, ← Complex.ofReal_cos, Complex.conj_ofReal]
theorem realV_fieldIn (θ : ℝ) (p : Pol) : RealV (fieldIn θ p) := by
  intro i
  cases p <;> fin_cases i <;> simp [fieldIn, ← Complex.ofReal_sin, ← Complex.ofReal_cos, Complex.conj_ofReal]
theorem realV_flip {v : CVec} (h : RealV v) : RealV (flipV v) := by
  intro i
  fin_cases i <;> simp [flipV, h _]

section
variable (S : Sympy) (G : Valuation → ℕ → ℕ → ℂ) (F κ : Valuation → ℕ → ℂ)

theorem h3f_eq {F : Valuation → ℕ → ℂ} {σ : Valuation} {v : CVec} (h : ∀ a : Fin 3, F σ a = v a) (φ : ℝ) (b : Fin 3) :
    h3f F σ φ b = pull (rotZ φ) v b := by
  unfold h3f pull
  exact Finset.sum_congr rfl (fun a _ => by rw [rZ_fin, h])

theorem Pf_eq (t : Nd Expr) (σ : Valuation) {E : ℕ → ℂ} {v : CVec} (h : ∀ a : Fin 3, E a = v a) (c : Fin 3) :
    Pf (evF t σ) E c = quad (value3 t σ) v c := by
  unfold Pf quad value3 evF
  exact Finset.sum_congr rfl (fun a _ => Finset.sum_congr rfl (fun b _ => by rw [h, h]))

theorem Qf_eq (t : Nd Expr) (σ : Valuation) {E K : ℕ → ℂ} {v w : CVec} (h : ∀ a : Fin 3, E a = v a)
    (hk : ∀ a : Fin 3, K a = w a) (c : Fin 3) : Qf (evF t σ) K E c = quadGrad (value4 t σ) w v c := by
  unfold Qf quadGrad value4 evF
  rw [sum_out3]
  refine Finset.sum_congr rfl (fun j _ => Finset.sum_congr rfl (fun a _ => Finset.sum_congr rfl (fun b _ => ?_)))
  rw [h, h, hk]

theorem conj_quad (t : Nd Expr) (r : Sym → ℝ) {v : CVec} (h : RealV v) (c : Fin 3) :
    quad (value3 (conjugateTensor S t) (realVal r)) v c = conj (quad (value3 t (realVal r)) v c) := by
  simp only [quad, map_sum, map_mul, h _]
  refine Finset.sum_congr rfl (fun a _ => Finset.sum_congr rfl (fun b _ => ?_))
  congr 2
  show (S.norm _).eval _ = _
  rw [S.eval_norm, eval_conj]
  rfl

theorem conj_quadGrad (t : Nd Expr) (r : Sym → ℝ) {v w : CVec} (h : RealV v) (hw : RealV w) (c : Fin 3) :
    quadGrad (value4 (conjugateTensor S t) (realVal r)) w v c = conj (quadGrad (value4 t (realVal r)) w v c) := by
  simp only [quadGrad, map_sum, map_mul, h _, hw _]
  refine Finset.sum_congr rfl (fun j _ => Finset.sum_congr rfl (fun a _ => Finset.sum_congr rfl (fun b _ => ?_)))
  congr 3
  show (S.norm _).eval _ = _
  rw [S.eval_norm, eval_conj]
  rfl

theorem h1f_eq {G : Valuation → ℕ → ℕ → ℂ} {σ : Valuation} {M : Fin 3 → Fin 3 → ℂ} (h : ∀ i a : Fin 3, G σ i a = M i a) (φ : ℝ)
    (i : Fin 3) (u : CVec) : ∑ c : Fin 3, h1f G σ φ i c * u c = ∑ a, M i a * ∑ c, rotZ φ a c * u c := by
  have h1 : ∀ c : Fin 3, h1f G σ φ i c * u c = ∑ a, M i a * (rotZ φ a c * u c) := by
    intro c
    unfold h1f
    rw [Finset.sum_mul]
    exact Finset.sum_congr rfl (fun a _ => by rw [rZ_fin, h]; ring)
  rw [Finset.sum_congr rfl (fun c _ => h1 c), Finset.sum_comm]
  exact Finset.sum_congr rfl (fun a _ => by rw [Finset.mul_sum])

theorem totalF_eq {G : Valuation → ℕ → ℕ → ℂ} {F κ : Valuation → ℕ → ℂ} {r : Sym → ℝ} {θ : ℝ} {p s : Pol}
    (hG : ∀ i a : Fin 3, G (realVal r) i a =
      if seen s i then (if i = a then 1 else 0) - flipV (kOut θ) i * flipV (kOut θ) a else 0)
    (hF : ∀ a : Fin 3, F (realVal r) a = flipV (fieldIn θ p) a) (hκ : ∀ a : Fin 3, κ (realVal r) a = flipV (kIn θ) a)
    (chiD chiQ : Nd Expr) (φ : ℝ) :
    totalF G F κ chiD chiQ (conjugateTensor S chiD) (conjugateTensor S chiQ) (realVal r) φ =
      (intensity ⟨value3 chiD (realVal r), 0, value4 chiQ (realVal r)⟩ θ (φ + Real.pi) p s : ℂ) := by
  have hE := h3f_eq hF φ
  have hK := h3f_eq hκ φ
  have rE := realV_pull φ (realV_flip (realV_fieldIn θ p))
  have rK := realV_pull φ (realV_flip (realV_kIn θ))
  rw [← out_flipped]
  unfold totalF
  rw [Complex.ofReal_sum]
  refine Finset.sum_congr rfl (fun i _ => ?_)
  simp only [Pf_eq _ _ hE, Qf_eq _ _ hE hK, conj_quad S _ _ rE, conj_quadGrad S _ _ rE rK]
  rw [← Complex.mul_conj]
  have e1 := h1f_eq hG φ i (innerSource (value3 chiD (realVal r)) (value4 chiQ (realVal r))
    (pull (rotZ φ) (flipV (kIn θ))) (pull (rotZ φ) (flipV (fieldIn θ p))))
  have e2 := h1f_eq hG φ i (fun c => conj (innerSource (value3 chiD (realVal r)) (value4 chiQ (realVal r))
    (pull (rotZ φ) (flipV (kIn θ))) (pull (rotZ φ) (flipV (fieldIn θ p))) c))
  rw [← e1]
  congr 1
  rw [e1, map_sum]
  simp only [innerSource, map_add, map_mul, Complex.conj_I, neg_mul, ← sub_eq_add_neg] at e2 ⊢
  rw [e2]
  refine Finset.sum_congr rfl (fun a _ => ?_)
  congr 1
  · split_ifs <;> simp [realV_flip (realV_kOut θ) _]
  · rw [map_sum]
    refine Finset.sum_congr rfl (fun c _ => ?_)
    simp only [map_mul, map_add, conj_rotZ, Complex.conj_I, neg_mul, ← sub_eq_add_neg]

/-! ## The generators -/

/-- Rows of the projection. -/
noncomputable def rowF (kout : Nd Expr) (i : ℕ) (σ : Valuation) (a : ℕ) : ℂ :=
  (if i = a then 1 else 0) - (kout.get [i]).eval σ * (kout.get [a]).eval σ

/-- The projection for `P` output. -/
noncomputable def Gp (kout : Nd Expr) (σ : Valuation) (i a : ℕ) : ℂ :=
  [rowF kout 0 σ a, 0, rowF kout 2 σ a].getD i (rowF kout 0 σ a)

/-- The projection for `S` output. -/
noncomputable def Gs (kout : Nd Expr) (σ : Valuation) (i a : ℕ) : ℂ := [0, rowF kout 1 σ a, 0].getD i 0

/-- The components of a vector of formulas. -/
noncomputable def vecF (v : Nd Expr) (σ : Valuation) (a : ℕ) : ℂ := (v.get [a]).eval σ

theorem projArr_ok {kout : Nd Expr} (hk : kout.shape = [3]) : ∃ P, projArr S kout = .ok P ∧ P.shape = [3, 3] ∧
    ∀ σ i a, (P.get [i, a]).eval σ = rowF kout i σ a := by
  refine ⟨_, rfl, ?_, fun σ i a => ?_⟩
  · show kout.shape ++ kout.shape = _
    rw [hk]
    rfl
  · have h1 : kout.rank = 1 := by unfold Nd.rank; rw [hk]; rfl
    show (S.sub _ (S.mul (kout.get (List.take kout.rank [i, a])) (kout.get (List.drop kout.rank [i, a])))).eval σ = _
    rw [eval_sub, S.eval_mul, h1]
    unfold rowF
    congr 1
    by_cases h : i = a <;> simp [h, Expr.eval]

theorem both_ok {kout kin : Nd Expr} (hko : kout.shape = [3]) (hki : kin.shape = [3]) :
    ∃ p s, uncontractedBoth S 16 kout kin = .ok (p, s) ∧ TermsOf p (Gp kout) (vecF fieldSymbols) (vecF kin) ∧
      TermsOf s (Gs kout) (vecF fieldSymbols) (vecF kin) := by
  obtain ⟨P, e0, hP, vP⟩ := projArr_ok S hko
  have row : ∀ i, ∃ A, onlyZeroFreq 16 (ndRow P i) = .ok A ∧ Rep A [3] 0 (fun σ _ idx => rowF kout i σ (idx.getD 0 0)) := by
    intro i
    obtain ⟨A, h1, h2⟩ := rep_onlyZeroFreq (ndRow P i)
    have hs : (ndRow P i).shape = [3] := by
      show P.shape.drop 1 = _
      rw [hP]; rfl
    rw [hs] at h2
    refine ⟨A, h1, h2.congr (fun σ φ idx hidx => ?_)⟩
    obtain ⟨a, rfl⟩ := idx1 hidx
    exact vP σ i a
  obtain ⟨rx, ex, Rx⟩ := row 0
  obtain ⟨ry, ey, Ry⟩ := row 1
  obtain ⟨rz, ez, Rz⟩ := row 2
  obtain ⟨rR, eR, RR⟩ := rep_rR
  obtain ⟨rF, eF, RF⟩ := rep_onlyZeroFreq fieldSymbols
  obtain ⟨rk, ek, Rk⟩ := rep_onlyZeroFreq kin
  have RF' : Rep rF [3] 0 (fun σ _ idx => vecF fieldSymbols σ (idx.getD 0 0)) :=
    RF.congr (fun σ φ idx hidx => by obtain ⟨a, rfl⟩ := idx1 hidx; rfl)
  have Rk' : Rep rk [3] 0 (fun σ _ idx => vecF kin σ (idx.getD 0 0)) := by
    rw [hki] at Rk
    exact Rk.congr (fun σ φ idx hidx => by obtain ⟨a, rfl⟩ := idx1 hidx; rfl)
  obtain ⟨x1, ex1, Rx1⟩ := rep_convolve S Rx RR (by norm_num)
  obtain ⟨y1, ey1, Ry1⟩ := rep_convolve S Ry RR (by norm_num)
  obtain ⟨z1, ez1, Rz1⟩ := rep_convolve S Rz RR (by norm_num)
  have R0 := rep_zeros Rx1
  obtain ⟨ps, es, Rs⟩ := rep_stack R0 Ry1 R0
  obtain ⟨pp, ep, Rp⟩ := rep_stack Rx1 R0 Rz1
  have Rs' : Rep ps [3, 3, 3, 3] 1 (fun σ φ idx => Gs kout σ (idx.getD 0 0) (idx.getD 1 0) *
      rZ φ (idx.getD 2 0) (idx.getD 3 0)) := by
    refine Rs.congr (fun σ φ idx hidx => ?_)
    obtain ⟨i, a, b, c, rfl⟩ := idx4 hidx
    rcases i with _ | _ | _ | i <;> simp [Gs]
  have Rp' : Rep pp [3, 3, 3, 3] 1 (fun σ φ idx => Gp kout σ (idx.getD 0 0) (idx.getD 1 0) *
      rZ φ (idx.getD 2 0) (idx.getD 3 0)) := by
    refine Rp.congr (fun σ φ idx hidx => ?_)
    obtain ⟨i, a, b, c, rfl⟩ := idx4 hidx
    rcases i with _ | _ | _ | i <;> simp [Gp]
  obtain ⟨p7, p9, p9', p10, tp, tp1, tp2, tp3, tp4⟩ := terms_ok S (Gp kout) (vecF fieldSymbols) (vecF kin) Rp' RR RF' Rk'
  obtain ⟨s7, s9, s9', s10, ts, ts1, ts2, ts3, ts4⟩ := terms_ok S (Gs kout) (vecF fieldSymbols) (vecF kin) Rs' RR RF' Rk'
  refine ⟨_, _, ?_, ⟨p7, p9, p9', p10, rfl, tp1, tp2, tp3, tp4⟩, ⟨s7, s9, s9', s10, rfl, ts1, ts2, ts3, ts4⟩⟩
  unfold uncontractedBoth
  rw [e0, ok_bind, ex, ok_bind, ey, ok_bind, ez, ok_bind, eR, ok_bind, eF, ok_bind, ex1, ok_bind, ey1, ok_bind, ez1,
    ok_bind, ek, ok_bind]
  dsimp only
  rw [es, ok_bind, ep, ok_bind, tp, ok_bind, ts, ok_bind]
  rfl

theorem termsOf_subst {l : List FTensor} {G : Valuation → ℕ → ℕ → ℂ} {F κ : Valuation → ℕ → ℂ} (h : TermsOf l G F κ)
    (fx fy fz : Expr) :
    TermsOf (substTerms S fx fy fz l) (fun σ => G (substVal [(FxSym, fx), (FySym, fy), (FzSym, fz)] σ))
      (fun σ => F (substVal [(FxSym, fx), (FySym, fy), (FzSym, fz)] σ))
      (fun σ => κ (substVal [(FxSym, fx), (FySym, fy), (FzSym, fz)] σ)) := by
  obtain ⟨a, b, c, d, rfl, ha, hb, hc, hd⟩ := h
  exact ⟨_, _, _, _, rfl, rep_subst S ha _, rep_subst S hb _, rep_subst S hc _, rep_subst S hd _⟩

end

end Shgpy
