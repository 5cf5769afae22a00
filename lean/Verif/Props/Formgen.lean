import Verif.Proofs.Formgen3
import Verif.Proofs.Harmonics

/-!
# Theorems: `formgen` (C44 – C51, C65, C66)

`S` is the automatic evaluation of sympy and `ex` the composition `sp.expand(sp.expand_trig(...))`, both arbitrary sound
rewritings.
-/

namespace Shgpy
open Spec
open scoped ComplexConjugate

set_option linter.unusedSectionVars false
set_option linter.unusedSimpArgs false

variable (S : Sympy) (ex : Rewriting) {theta : Expr} {eee mee qee : Option (Nd Expr)}

/-! ## Example tensors -/

/-- A real symbol. -/
def xxxSym : Sym := ⟨['x', 'x', 'x'], 1⟩
/-- A real symbol. -/
def zxySym : Sym := ⟨['z', 'x', 'y'], 1⟩

/-- A rank 3 tensor with two free elements. -/
def sampleTensor : Nd Expr :=
  ⟨[3, 3, 3], fun idx => if idx = [0, 0, 0] then .sym xxxSym else if idx = [2, 0, 1] then .sym zxySym else .num 0⟩

/-- A rank 4 tensor with one free element, of complex value. -/
def sampleQuadrupole : Nd Expr :=
  ⟨[3, 3, 3, 3], fun idx => if idx = [0, 2, 0, 0] then .mul [.I, .sym xxxSym] else .num 0⟩

theorem occursIn_sampleTensor {s : Sym} (h : OccursIn sampleTensor s) : s = xxxSym ∨ s = zxySym := by
  obtain ⟨idx, _, hs⟩ := h
  simp only [sampleTensor] at hs
  split_ifs at hs
  · left; simpa [Expr.free] using hs
  · right; simpa [Expr.free] using hs
  · simp [Expr.free] at hs

theorem occursIn_sampleQuadrupole {s : Sym} (h : OccursIn sampleQuadrupole s) : s = xxxSym := by
  obtain ⟨idx, _, hs⟩ := h
  simp only [sampleQuadrupole] at hs
  split_ifs at hs
  · simpa [Expr.free, Expr.freeL] using hs
  · simp [Expr.free] at hs

theorem sample_valid : ValidTensors (some sampleTensor) (some sampleTensor) (some sampleQuadrupole) := by
  refine ⟨?_, ?_, ?_, by simp, ?_⟩
  · rintro t h; cases h; rfl
  · rintro t h; cases h; rfl
  · rintro t h; cases h; rfl
  · rintro t (h | h | h) s hs <;> cases h
    · rcases occursIn_sampleTensor hs with rfl | rfl <;> rfl
    · rcases occursIn_sampleTensor hs with rfl | rfl <;> rfl
    · rw [occursIn_sampleQuadrupole hs]; rfl

theorem sample_no_phi : ¬ OccursInSome (some sampleTensor) (some sampleTensor) (some sampleQuadrupole) phi := by
  rintro ⟨t, h | h | h, hs⟩ <;> cases h
  · rcases occursIn_sampleTensor hs with h | h <;> exact absurd h (by decide)
  · rcases occursIn_sampleTensor hs with h | h <;> exact absurd h (by decide)
  · exact absurd (occursIn_sampleQuadrupole hs) (by decide)

/-! ## C44 -/

/-- **C44.**  `formgen` returns formulas for the four combinations `PP`, `PS`, `SP`, `SS`, and these evaluate to the
intensities of the crystal whose tensors are given, for all real values of the symbols (the tensors may have complex
values). -/
theorem C44_formgen (hv : ValidTensors eee mee qee) :
    ∃ c, formgen S ex theta eee mee qee = .ok c ∧ Describes c theta (crystalOf eee mee qee) :=
  formgen_ok S ex hv

/-- **C44, values are real and not negative.** -/
theorem C44_real_nonneg (hv : ValidTensors eee mee qee) {c : FormContainer}
    (hc : formgen S ex theta eee mee qee = .ok c) (p q : Pol) :
    ∃ e, c.getPc (combo p q) = .ok e ∧ ∀ (r : Sym → ℝ) (θ : ℝ), theta.eval (realVal r) = (θ : ℂ) →
      ∃ x : ℝ, 0 ≤ x ∧ e.eval (realVal r) = (x : ℂ) := by
  obtain ⟨c', h1, h2⟩ := formgen_ok S ex (theta := theta) hv
  rw [hc] at h1; cases h1
  obtain ⟨e, he, hval⟩ := h2.2 p q
  exact ⟨e, he, fun r θ hθ => ⟨_, outIntensity_nonneg _ _, hval r θ hθ⟩⟩

/-- **C44, the radiated field.**  `gen_S` returns the fields radiated for the two input polarizations; they are
perpendicular to the outgoing wave vector. -/
theorem C44_fields (hv : ValidTensors eee mee qee) :
    ∃ Sp Ss, genS S ex theta eee mee qee = .ok (Sp, Ss) ∧
      ∀ (r : Sym → ℝ) (θ : ℝ), theta.eval (realVal r) = (θ : ℂ) → ∀ pv ∈ [(Pol.P, Sp), (Pol.S, Ss)],
        (∀ i : Fin 3, (pv.2.get [i.val]).eval (realVal r) =
          radiated (crystalOf eee mee qee (realVal r)) θ (r phi) pv.1 i) ∧
        ((Real.sin θ : ℂ) * (pv.2.get [0]).eval (realVal r) - (Real.cos θ : ℂ) * (pv.2.get [2]).eval (realVal r) = 0) := by
  obtain ⟨Sp, Ss, h1, h2⟩ := genS_ok S ex (theta := theta) hv
  refine ⟨Sp, Ss, h1, fun r θ hθ pv hpv => ?_⟩
  have hd : ∀ p v, evalV v r = radiated (crystalOf eee mee qee (realVal r)) θ (r phi) p →
      (Real.sin θ : ℂ) * (v.get [0]).eval (realVal r) - (Real.cos θ : ℂ) * (v.get [2]).eval (realVal r) = 0 := by
    intro p v hv
    have := dot_perp (kOut_unit θ) (source ((crystalOf eee mee qee (realVal r)).turned (r phi)) (kIn θ) (fieldIn θ p))
    rw [← radiated, ← hv] at this
    have h3 : dot (kOut θ) (evalV v r) = (Real.sin θ : ℂ) * (v.get [0]).eval (realVal r) -
        (Real.cos θ : ℂ) * (v.get [2]).eval (realVal r) := by
      simp only [dot, kOut, Fin.sum_univ_three, evalV]
      simp
      ring
    rw [← h3, this]
  simp only [List.mem_cons, List.not_mem_nil, or_false] at hpv
  rcases hpv with rfl | rfl
  · exact ⟨fun i => congrFun (h2 r θ hθ).1 i, hd _ _ (h2 r θ hθ).1⟩
  · exact ⟨fun i => congrFun (h2 r θ hθ).2 i, hd _ _ (h2 r θ hθ).2⟩

/-- **C44, meaning of the `P` output.**  The sum of the squares of the `x` and `z` components is the squared modulus of
the component along the direction `(cos θ, 0, sin θ)`, which is perpendicular to the outgoing wave vector and in the plane
of incidence. -/
theorem C44_p_component (X : Crystal) (θ φ : ℝ) (p : Pol) : intensity X θ φ p .P =
    Complex.normSq (Real.cos θ * radiated X θ φ p 0 + Real.sin θ * radiated X θ φ p 2) := by
  have h := dot_perp (kOut_unit θ) (source (X.turned φ) (kIn θ) (fieldIn θ p))
  rw [← radiated] at h
  simp only [intensity, outIntensity]
  generalize hv : radiated X θ φ p = v at h
  have h1 : (Real.sin θ : ℂ) * v 0 - Real.cos θ * v 2 = 0 := by
    rw [← h]
    simp only [dot, kOut, Fin.sum_univ_three]
    simp
    ring
  have h2 := Real.sin_sq_add_cos_sq θ
  have hr : Real.sin θ * (v 0).re = Real.cos θ * (v 2).re := by
    have := congrArg Complex.re h1
    simp only [Complex.sub_re, Complex.re_ofReal_mul, Complex.zero_re] at this
    linarith
  have hi : Real.sin θ * (v 0).im = Real.cos θ * (v 2).im := by
    have := congrArg Complex.im h1
    simp only [Complex.sub_im, Complex.im_ofReal_mul, Complex.zero_im] at this
    linarith
  simp only [Complex.normSq_apply, Complex.add_re, Complex.add_im, Complex.re_ofReal_mul, Complex.im_ofReal_mul]
  generalize Real.sin θ = s at *
  generalize Real.cos θ = c at *
  generalize (v 0).re = a at *
  generalize (v 0).im = b at *
  generalize (v 2).re = a' at *
  generalize (v 2).im = b' at *
  have e1 : (s * a - c * a') ^ 2 = 0 := by rw [hr]; ring
  have e2 : (s * b - c * b') ^ 2 = 0 := by rw [hi]; ring
  calc a * a + b * b + (a' * a' + b' * b') = (a * a + b * b + (a' * a' + b' * b')) * (s ^ 2 + c ^ 2) := by rw [h2]; ring
    _ = (s * a - c * a') ^ 2 + (s * b - c * b') ^ 2 +
        ((c * a + s * a') * (c * a + s * a') + (c * b + s * b') * (c * b + s * b')) := by ring
    _ = _ := by rw [e1, e2]; ring

/-- The hypotheses are met, and the intensities are not all zero: the tensor `xxx` alone gives the intensity `xxx²` for `PP`
at normal incidence and azimuth 0. -/
example : (∃ c, formgen S ex (.num 0) (some sampleTensor) (some sampleTensor) (some sampleQuadrupole) = .ok c) ∧
    ∀ x : ℝ, intensity ⟨fun i j k => if i = 0 ∧ j = 0 ∧ k = 0 then x else 0, 0, 0⟩ 0 0 .P .P = x ^ 2 := by
  refine ⟨⟨_, (C44_formgen S ex sample_valid).choose_spec.1⟩, fun x => ?_⟩
  have h0 : rotZ 0 = fun i j => if i = j then 1 else 0 := by
    funext i j; fin_cases i <;> fin_cases j <;> simp [rotZ]
  have h4 : rot4 (rotZ 0) 0 = 0 := by funext i j k l; simp [rot4]
  have h3 : rot3 (rotZ 0) 0 = 0 := by funext i j k; simp [rot3]
  have h3' : ∀ t : T3, rot3 (rotZ 0) t = t := by
    intro t
    funext i j k
    simp [rot3, h0]
  simp only [intensity, outIntensity, radiated, Crystal.turned, h4, h3, h3']
  simp [perp, dot, source, quad, cross, quadGrad, kOut, kIn, fieldIn, Fin.sum_univ_three, sq]

/-! ## C45 -/

/-- `transform(t, A)` for a tensor that may be `None`. -/
def transformGiven (A : Nd Expr) : Option (Nd Expr) → Except Err (Option (Nd Expr))
  | none => .ok none
  | some t => (transform (exprOps S) t A).map some

theorem transformGiven3 {A : Nd Expr} (hA : IsMatrix 3 3 A) {t : Option (Nd Expr)} (ht : ∀ u, t = some u → IsTensor 3 3 u) :
    ∃ t', transformGiven S A t = .ok t' ∧ (t' = none ↔ t = none) ∧ (∀ u, t' = some u → IsTensor 3 3 u) ∧
      (∀ u' s, t' = some u' → OccursIn u' s → (∃ u, t = some u ∧ OccursIn u s) ∨ OccursIn A s) ∧
      ∀ σ : Valuation, (t'.map (fun t => value3 t σ)).getD 0 =
        rot3 (fun i a => (A.get [i.val, a.val]).eval σ) ((t.map (fun t => value3 t σ)).getD 0) := by
  cases t with
  | none =>
    refine ⟨none, rfl, by simp, by simp, by simp, fun σ => ?_⟩
    funext i j k
    simp [rot3]
  | some t =>
    obtain ⟨y, h1, h2, h3⟩ := transform3_ok S hA (ht t rfl)
    refine ⟨some y, by simp [transformGiven, h1, Except.map], by simp, ?_, ?_, fun σ => h3 σ⟩
    · rintro u hu; cases hu; exact h2
    · rintro u s hu hs
      cases hu
      rcases occursIn_transform S h1 hs with h | h
      · exact Or.inl ⟨t, rfl, h⟩
      · exact Or.inr h

theorem transformGiven4 {A : Nd Expr} (hA : IsMatrix 3 3 A) {t : Option (Nd Expr)} (ht : ∀ u, t = some u → IsTensor 3 4 u) :
    ∃ t', transformGiven S A t = .ok t' ∧ (t' = none ↔ t = none) ∧ (∀ u, t' = some u → IsTensor 3 4 u) ∧
      (∀ u' s, t' = some u' → OccursIn u' s → (∃ u, t = some u ∧ OccursIn u s) ∨ OccursIn A s) ∧
      ∀ σ : Valuation, (t'.map (fun t => value4 t σ)).getD 0 =
        rot4 (fun i a => (A.get [i.val, a.val]).eval σ) ((t.map (fun t => value4 t σ)).getD 0) := by
  cases t with
  | none =>
    refine ⟨none, rfl, by simp, by simp, by simp, fun σ => ?_⟩
    funext i j k l
    simp [rot4]
  | some t =>
    obtain ⟨y, h1, h2, h3⟩ := transform4_ok S hA (ht t rfl)
    refine ⟨some y, by simp [transformGiven, h1, Except.map], by simp, ?_, ?_, fun σ => h3 σ⟩
    · rintro u hu; cases hu; exact h2
    · rintro u s hu hs
      cases hu
      rcases occursIn_transform S h1 hs with h | h
      · exact Or.inl ⟨t, rfl, h⟩
      · exact Or.inr h

/-- **C45.**  Let `A` be a matrix of expressions in real symbols.  `formgen` of the tensors transformed by `A` succeeds,
and wherever the value of `A` is the rotation by `α` about `z`, its formulas at the azimuth `phi` have the values of the
formulas of the original tensors at the azimuth `phi + α` (the tensors and the angle of incidence not depending on
`phi`). -/
theorem C45_rotation (hv : ValidTensors eee mee qee) (hphi : ¬ OccursInSome eee mee qee phi) (hth : phi ∉ theta.free)
    {A : Nd Expr} (hA : IsMatrix 3 3 A) (hAreal : ∀ s, OccursIn A s → s.isReal = some true) :
    ∃ c eee' mee' qee' c', formgen S ex theta eee mee qee = .ok c ∧
      transformGiven S A eee = .ok eee' ∧ transformGiven S A mee = .ok mee' ∧ transformGiven S A qee = .ok qee' ∧
      formgen S ex theta eee' mee' qee' = .ok c' ∧
      ∀ (r : Sym → ℝ) (θ α : ℝ), theta.eval (realVal r) = (θ : ℂ) →
        (∀ i a : Fin 3, (A.get [i.val, a.val]).eval (realVal r) = rotZ α i a) →
        ∀ p q, Related c' c r (withPhi r (r phi + α)) p q p q (· = ·) := by
  obtain ⟨c, hc, hd⟩ := formgen_ok S ex (theta := theta) hv
  obtain ⟨eee', a1, a2, a3, a4, a5⟩ := transformGiven3 S hA hv.eee3
  obtain ⟨mee', b1, b2, b3, b4, b5⟩ := transformGiven3 S hA hv.mee3
  obtain ⟨qee', d1, d2, d3, d4, d5⟩ := transformGiven4 S hA hv.qee4
  have hv' : ValidTensors eee' mee' qee' := by
    refine ⟨a3, b3, d3, ?_, ?_⟩
    · rintro ⟨h1, h2, h3⟩
      exact hv.some_given ⟨a2.1 h1, b2.1 h2, d2.1 h3⟩
    · rintro t (h | h | h) s hs
      · rcases a4 t s h hs with ⟨u, hu, hus⟩ | h
        · exact hv.real u (Or.inl hu) s hus
        · exact hAreal s h
      · rcases b4 t s h hs with ⟨u, hu, hus⟩ | h
        · exact hv.real u (Or.inr (Or.inl hu)) s hus
        · exact hAreal s h
      · rcases d4 t s h hs with ⟨u, hu, hus⟩ | h
        · exact hv.real u (Or.inr (Or.inr hu)) s hus
        · exact hAreal s h
  obtain ⟨c', hc', hd'⟩ := formgen_ok S ex (theta := theta) hv'
  refine ⟨c, eee', mee', qee', c', hc, a1, b1, d1, hc', fun r θ α hθ hrot p q => ?_⟩
  obtain ⟨e, he, hval⟩ := hd.2 p q
  obtain ⟨e', he', hval'⟩ := hd'.2 p q
  refine ⟨e', e, he', he, ?_⟩
  rw [hval' r θ hθ, hval (withPhi r (r phi + α)) θ (by rw [eval_withPhi hth, hθ]), crystalOf_withPhi hv.shapes hphi]
  have hX : crystalOf eee' mee' qee' (realVal r) = (crystalOf eee mee qee (realVal r)).turned α := by
    have hm : (fun i a : Fin 3 => (A.get [i.val, a.val]).eval (realVal r)) = rotZ α := by
      funext i a; exact hrot i a
    have h1 := a5 (realVal r)
    have h2 := b5 (realVal r)
    have h3 := d5 (realVal r)
    rw [hm] at h1 h2 h3
    exact Crystal.ext h1 h2 h3
  rw [hX, intensity_turned]
  simp [withPhi]

/-- **C45, periodicity.**  If the crystal is unchanged by the rotation by `α` about `z`, the values of the formulas are
unchanged when `phi` is increased by `α`. -/
theorem C45_periodic (hv : ValidTensors eee mee qee) (hphi : ¬ OccursInSome eee mee qee phi) (hth : phi ∉ theta.free)
    {c : FormContainer} (hc : formgen S ex theta eee mee qee = .ok c) (r : Sym → ℝ) (θ α : ℝ)
    (hθ : theta.eval (realVal r) = (θ : ℂ))
    (hinv : (crystalOf eee mee qee (realVal r)).turned α = crystalOf eee mee qee (realVal r)) (p q : Pol) :
    Related c c r (withPhi r (r phi + α)) p q p q (· = ·) := by
  obtain ⟨c', h1, h2⟩ := formgen_ok S ex (theta := theta) hv
  rw [hc] at h1; cases h1
  obtain ⟨e, he, hval⟩ := h2.2 p q
  refine ⟨e, e, he, he, ?_⟩
  rw [hval r θ hθ, hval (withPhi r (r phi + α)) θ (by rw [eval_withPhi hth, hθ]), crystalOf_withPhi hv.shapes hphi]
  conv_lhs => rw [← hinv]
  rw [intensity_turned]
  simp [withPhi]

/-- The rotation by a symbolic angle about `z`. -/
def symbolicRotation (a : Sym) : Nd Expr :=
  ⟨[3, 3], fun idx => ([[.cos (.sym a), .mul [.num (-1), .sin (.sym a)], .num 0],
    [.sin (.sym a), .cos (.sym a), .num 0], [.num 0, .num 0, .num 1]].getD (idx.getD 0 0) []).getD (idx.getD 1 0) (.num 0)⟩

/-- The hypotheses of `C45_rotation` are met by the rotation by a symbolic real angle, whatever the value of the angle. -/
example (a : Sym) (ha : a.isReal = some true) : IsMatrix 3 3 (symbolicRotation a) ∧
    (∀ s, OccursIn (symbolicRotation a) s → s.isReal = some true) ∧
    ∀ (r : Sym → ℝ) (i j : Fin 3), ((symbolicRotation a).get [i.val, j.val]).eval (realVal r) = rotZ (r a) i j := by
  refine ⟨rfl, ?_, fun r i j => ?_⟩
  · rintro s ⟨idx, hidx, hs⟩
    cases hidx with
    | @cons i _ l _ hi hl =>
      cases hl with
      | @cons j _ l _ hj hl =>
        cases hl
        have hs' : s = a := by
          interval_cases i <;> interval_cases j <;> simp [symbolicRotation, Expr.free, Expr.freeL] at hs <;> exact hs
        rw [hs', ha]
  · fin_cases i <;> fin_cases j <;> simp [symbolicRotation, rotZ, Expr.eval, Expr.evalProd, realVal]

/-- A crystal that is unchanged by a half turn about `z`: all elements with an odd number of indices `x` or `y` vanish. -/
example : (⟨fun i j k => if i = 2 ∧ j = 0 ∧ k = 1 then 1 else 0, 0, 0⟩ : Crystal).turned Real.pi =
    ⟨fun i j k => if i = 2 ∧ j = 0 ∧ k = 1 then 1 else 0, 0, 0⟩ := by
  have h4 : rot4 (rotZ Real.pi) 0 = 0 := by funext i j k l; simp [rot4]
  have h3 : rot3 (rotZ Real.pi) 0 = 0 := by funext i j k; simp [rot3]
  simp only [Crystal.turned, h3, h4, Crystal.mk.injEq, and_true]
  funext i j k
  fin_cases i <;> fin_cases j <;> fin_cases k <;> simp [rot3, rotZ, Fin.sum_univ_three]

/-! ## C46 -/

/-- Both containers hold the four combinations, with equal values for all real values of the symbols for which the angle
of incidence is real. -/
def SameIntensities (c c' : FormContainer) (theta : Expr) : Prop :=
  c.getKeys = [combo .P .P, combo .P .S, combo .S .P, combo .S .S] ∧ c'.getKeys = c.getKeys ∧
  ∀ p q, ∃ e e', c.getPc (combo p q) = .ok e ∧ c'.getPc (combo p q) = .ok e' ∧
    ∀ (r : Sym → ℝ) (θ : ℝ), theta.eval (realVal r) = (θ : ℂ) → e.eval (realVal r) = e'.eval (realVal r)

theorem sameIntensities_of {c c' : FormContainer} {X : Valuation → Crystal} (h : Describes c theta X)
    (h' : Describes c' theta X) : SameIntensities c c' theta := by
  refine ⟨h.1, h'.1.trans h.1.symm, fun p q => ?_⟩
  obtain ⟨e, he, hv⟩ := h.2 p q
  obtain ⟨e', he', hv'⟩ := h'.2 p q
  exact ⟨e, e', he, he', fun r θ hθ => by rw [hv r θ hθ, hv' r θ hθ]⟩

theorem valid_dipole {t : Nd Expr} (h3 : IsTensor 3 3 t) (hr : ∀ s, OccursIn t s → s.isReal = some true) :
    ValidTensors (some t) none none := by
  refine ⟨?_, by simp, by simp, by simp, ?_⟩
  · rintro u hu; cases hu; exact h3
  · rintro u (hu | hu | hu) <;> cases hu; exact hr

theorem valid_dipole_quadrupole {t q : Nd Expr} (h3 : IsTensor 3 3 t) (h4 : IsTensor 3 4 q)
    (hr : ∀ s, OccursIn t s → s.isReal = some true) (hq : ∀ s, OccursIn q s → s.isReal = some true) :
    ValidTensors (some t) none (some q) := by
  refine ⟨?_, by simp, ?_, by simp, ?_⟩
  · rintro u hu; cases hu; exact h3
  · rintro u hu; cases hu; exact h4
  · rintro u (hu | hu | hu) <;> cases hu
    · exact hr
    · exact hq

/-- **C46, dipole.**  `formgen_just_dipole` and `formgen` give the same intensities. -/
theorem C46_just_dipole {t : Nd Expr} (h3 : IsTensor 3 3 t) (hr : ∀ s, OccursIn t s → s.isReal = some true) :
    ∃ c c', formgen S ex theta (some t) none none = .ok c ∧ formgenJustDipole S theta t = .ok c' ∧
      SameIntensities c c' theta := by
  obtain ⟨c, hc, hd⟩ := formgen_ok S ex (theta := theta) (valid_dipole h3 hr)
  obtain ⟨P, h1, _, _, h2⟩ := dipoleFields_ok S theta h3
  obtain ⟨c', hc', hd'⟩ := formsOf_ok S (theta := theta) (X := crystalOf (some t) none none) (Sp := P.1) (Ss := P.2)
    (fun r θ hθ => h2 r θ hθ)
  refine ⟨c, c', hc, ?_, sameIntensities_of hd hd'⟩
  unfold formgenJustDipole
  rw [assertRealParams_ok hr, ok_bind, h1, ok_bind, hc']

theorem radiated_split (t : T3) (q : T4) (θ φ : ℝ) (p : Pol) : radiated ⟨t, 0, q⟩ θ φ p = fun i =>
    radiated ⟨t, 0, 0⟩ θ φ p i + radiated ⟨0, 0, q⟩ θ φ p i := by
  unfold radiated
  rw [← perp_add]
  congr 1
  have h4 : rot4 (rotZ φ) 0 = 0 := by funext i j k l; simp [rot4]
  have h3 : rot3 (rotZ φ) 0 = 0 := by funext i j k; simp [rot3]
  have h1 : ∀ v : CVec, cross v 0 = 0 := by
    intro v; funext i; fin_cases i <;> simp [cross]
  have h2 : ∀ E, quad 0 E = 0 := by
    intro E; funext i; simp [quad]
  have h5 : ∀ k E, quadGrad 0 k E = 0 := by
    intro k E; funext i; simp [quadGrad]
  funext i
  simp only [source, Crystal.turned, h4, h3, h2, h1, h5]
  simp

/-- The legacy quadrupole fields, combined as `P + 1j*Q`. -/
theorem legacy_fields {t q : Nd Expr} (h3 : IsTensor 3 3 t) (h4 : IsTensor 3 4 q) :
    ∃ P Q, dipoleFields S theta t = .ok P ∧ quadrupoleFields S theta q = .ok Q ∧
      ∃ c', formsOf S (ndAdd S P.1 (ndScale S .I Q.1)) (ndAdd S P.2 (ndScale S .I Q.2)) = .ok c' ∧
        Describes c' theta (crystalOf (some t) none (some q)) := by
  obtain ⟨P, h1, _, _, h2⟩ := dipoleFields_ok S theta h3
  obtain ⟨Q, g1, _, _, g2⟩ := quadrupoleFields_ok S theta h4
  refine ⟨P, Q, h1, g1, formsOf_ok S (fun r θ hθ => ?_)⟩
  rw [evalV_add, evalV_scaleI, evalV_add, evalV_scaleI, (h2 r θ hθ).1, (h2 r θ hθ).2, (g2 r θ hθ).1, (g2 r θ hθ).2]
  exact ⟨(radiated_split _ _ _ _ _).symm, (radiated_split _ _ _ _ _).symm⟩

/-- **C46, dipole and quadrupole.**  When sympy knows that the angle of incidence is real, `formgen_dipole_quadrupole` and
`formgen` give the same intensities; otherwise the former raises `ValueError` (and the latter does not). -/
theorem C46_dipole_quadrupole (isReal : Expr → Bool) {t q : Nd Expr} (h3 : IsTensor 3 3 t) (h4 : IsTensor 3 4 q)
    (hr : ∀ s, OccursIn t s → s.isReal = some true) (hq : ∀ s, OccursIn q s → s.isReal = some true) :
    ∃ c, formgen S ex theta (some t) none (some q) = .ok c ∧
      (isReal theta = true → ∃ c', formgenDipoleQuadrupole S theta isReal t q = .ok c' ∧ SameIntensities c c' theta) ∧
      (isReal theta = false → formgenDipoleQuadrupole S theta isReal t q = .error .valueError) := by
  obtain ⟨c, hc, hd⟩ := formgen_ok S ex (theta := theta) (valid_dipole_quadrupole h3 h4 hr hq)
  obtain ⟨P, Q, h1, g1, c', hc', hd'⟩ := legacy_fields S (theta := theta) h3 h4
  refine ⟨c, hc, fun hreal => ⟨c', ?_, sameIntensities_of hd hd'⟩, fun hreal => ?_⟩
  · unfold formgenDipoleQuadrupole
    rw [assertRealParams_ok hr, ok_bind, assertRealParams_ok hq, ok_bind, if_pos hreal, h1, ok_bind, g1, ok_bind, hc']
  · unfold formgenDipoleQuadrupole
    rw [assertRealParams_ok hr, ok_bind, assertRealParams_ok hq, ok_bind, if_neg (by simp [hreal])]

example : IsTensor 3 3 sampleTensor ∧ IsTensor 3 4 sampleQuadrupole ∧
    (∀ s, OccursIn sampleTensor s → s.isReal = some true) ∧
    (∀ s, OccursIn sampleQuadrupole s → s.isReal = some true) :=
  ⟨rfl, rfl, fun s hs => sample_valid.real _ (by simp) s hs, fun s hs => sample_valid.real _ (by simp) s hs⟩

/-! ## C65 -/

/-- All symbols are declared real. -/
abbrev RealSym (s : Sym) : Prop := s.isReal = some true

theorem dipoleFields_real {t : Nd Expr} {P : Nd Expr × Nd Expr} (h3 : IsTensor 3 3 t)
    (hr : ∀ s, OccursIn t s → s.isReal = some true) (hth : ∀ s ∈ theta.free, s.isReal = some true)
    (h1 : dipoleFields S theta t = .ok P) : FreePair RealSym P := by
  have hphi : RealSym phi := rfl
  have h := h1
  obtain ⟨rt, hrt, h⟩ := bind_ok h
  obtain ⟨Ps, hs, h⟩ := bind_ok h
  obtain ⟨Pp, hp, h⟩ := bind_ok h
  cases h
  obtain ⟨_, e1, e2, _⟩ := rotated3_ok S h3
  rw [hrt] at e1; cases e1
  have hrt' := rotated3_free S hphi (t := t) (fun idx hidx s hs => hr s ⟨idx, hidx, hs⟩) hrt
  obtain ⟨v, f1, f2, _⟩ := dipoleMoment_ok S (rt := rt) (F := fsVec) e2 rfl
  rw [hs] at f1; cases f1
  obtain ⟨v, k1, k2, _⟩ := dipoleMoment_ok S (rt := rt) (F := fpVec S theta) e2 rfl
  rw [hp] at k1; cases k1
  have hk : AllGet (FreeIn RealSym) (koutVec S theta) := allGet_of (kout_free S hth) rfl
  exact ⟨allGet_project S hk rfl (allGet_of (dipoleMoment_free S hrt' (fp_free S hth) hp) k2),
    allGet_project S hk rfl (allGet_of (dipoleMoment_free S hrt' fs_free hs) f2)⟩

theorem quadrupoleFields_real {q : Nd Expr} {Q : Nd Expr × Nd Expr} (h4 : IsTensor 3 4 q)
    (hq : ∀ s, OccursIn q s → s.isReal = some true) (hth : ∀ s ∈ theta.free, s.isReal = some true)
    (g1 : quadrupoleFields S theta q = .ok Q) : FreePair RealSym Q := by
  have hphi : RealSym phi := rfl
  have h := g1
  obtain ⟨rt, hrt, h⟩ := bind_ok h
  obtain ⟨Ps, hs, h⟩ := bind_ok h
  obtain ⟨Pp, hp, h⟩ := bind_ok h
  cases h
  obtain ⟨_, e1, e2, _⟩ := rotated4_ok S h4
  rw [hrt] at e1; cases e1
  have hrt' := rotated4_free S hphi (t := q) (fun idx hidx s hs => hq s ⟨idx, hidx, hs⟩) hrt
  obtain ⟨v, f1, f2, _⟩ := quadrupoleMoment_ok S (rt := rt) (kin := kinVec S theta) (F := fsVec) e2 rfl rfl
  rw [hs] at f1; cases f1
  obtain ⟨v, k1, k2, _⟩ := quadrupoleMoment_ok S (rt := rt) (kin := kinVec S theta) (F := fpVec S theta) e2 rfl rfl
  rw [hp] at k1; cases k1
  have hk : AllGet (FreeIn RealSym) (koutVec S theta) := allGet_of (kout_free S hth) rfl
  exact ⟨allGet_project S hk rfl (allGet_of (quadrupoleMoment_free S hrt' (kin_free S hth) (fp_free S hth) hp) k2),
    allGet_project S hk rfl (allGet_of (quadrupoleMoment_free S hrt' (kin_free S hth) fs_free hs) f2)⟩

theorem assertRealMoment_ok (v : Nd Expr) (hv : v.shape = [3]) (hf : AllGet (FreeIn RealSym) v) :
    assertRealMoment (.arr v) = .ok v := by
  show (assertRealParams v >>= fun _ => pure v) = .ok v
  rw [assertRealParams_ok]
  · rfl
  · rintro s ⟨idx, hidx, hs⟩
    rw [hv] at hidx
    cases hidx with
    | cons hi hl => cases hl; exact hf _ hi s hs

/-- **C65.**  The fields of `gen_P_dipole_quadrupole` make the intensities of `formgen`, provided that sympy knows all
symbols in them to be real. -/
theorem C65_fields_to_form_partial {t q : Nd Expr} (h3 : IsTensor 3 3 t) (h4 : IsTensor 3 4 q)
    (hr : ∀ s, OccursIn t s → s.isReal = some true) (hq : ∀ s, OccursIn q s → s.isReal = some true)
    (hth : ∀ s ∈ theta.free, s.isReal = some true) :
    ∃ c Pp Ps Qp Qs c', formgen S ex theta (some t) none (some q) = .ok c ∧
      genPDipoleQuadrupole S theta t q = .ok (Pp, Ps, Qp, Qs) ∧ makeFormFromPAndQ S Pp Ps Qp Qs = .ok c' ∧
      SameIntensities c c' theta := by
  obtain ⟨c, hc, hd⟩ := formgen_ok S ex (theta := theta) (valid_dipole_quadrupole h3 h4 hr hq)
  obtain ⟨P, Q, h1, g1, c', hc', hd'⟩ := legacy_fields S (theta := theta) h3 h4
  refine ⟨c, .arr P.1, .arr P.2, .arr Q.1, .arr Q.2, c', hc, ?_, ?_, sameIntensities_of hd hd'⟩
  · unfold genPDipoleQuadrupole
    rw [assertRealParams_ok hr, ok_bind, assertRealParams_ok hq, ok_bind, h1, ok_bind, g1, ok_bind]
    rfl
  · have hP := dipoleFields_real S h3 hr hth h1
    have hQ := quadrupoleFields_real S h4 hq hth g1
    have sh := assertRealMoment_ok
    obtain ⟨P', p1, p2, p3, _⟩ := dipoleFields_ok S theta h3
    rw [h1] at p1; cases p1
    obtain ⟨Q', q1, q2, q3, _⟩ := quadrupoleFields_ok S theta h4
    rw [g1] at q1; cases q1
    unfold makeFormFromPAndQ
    rw [sh _ p2 hP.1, ok_bind, sh _ p3 hP.2, ok_bind, sh _ q2 hQ.1, ok_bind, sh _ q3 hQ.2, ok_bind, hc']

/-- **C65 fails for a dipole alone.**  The result of `gen_P_just_dipole` is not accepted by `make_form_from_P_and_Q`: its
number `0` for the quadrupole has no `flatten`, and `AttributeError` is raised. -/
theorem C65_just_dipole_broken {t : Nd Expr} (h3 : IsTensor 3 3 t) (hr : ∀ s, OccursIn t s → s.isReal = some true) :
    ∃ Pp Ps Qp Qs, genPJustDipole S theta t = .ok (Pp, Ps, Qp, Qs) ∧
      ((∀ s ∈ theta.free, s.isReal = some true) → makeFormFromPAndQ S Pp Ps Qp Qs = .error .attributeError) := by
  obtain ⟨P, h1, p2, p3, _⟩ := dipoleFields_ok S theta h3
  refine ⟨.arr P.1, .arr P.2, .zero, .zero, ?_, fun hth => ?_⟩
  · unfold genPJustDipole
    rw [assertRealParams_ok hr, ok_bind, h1, ok_bind]
    rfl
  · have hP := dipoleFields_real S h3 hr hth h1
    unfold makeFormFromPAndQ
    rw [assertRealMoment_ok _ p2 hP.1, ok_bind, assertRealMoment_ok _ p3 hP.2, ok_bind]
    rfl

/-! ## C47 -/

/-- `lam * t` for a tensor that may be `None`. -/
def scaleGiven (lam : Expr) (t : Option (Nd Expr)) : Option (Nd Expr) := t.map (fun t => t.map (S.mul lam))

theorem occursIn_scale {lam : Expr} {t : Nd Expr} {s : Sym} (h : OccursIn (t.map (S.mul lam)) s) :
    s ∈ lam.free ∨ OccursIn t s := by
  obtain ⟨idx, hidx, hs⟩ := h
  have h1 := FreeIn.mulS S (F := fun s => s ∈ lam.free ∨ OccursIn t s) (a := lam) (b := t.get idx)
    (fun s hs => Or.inl hs) (fun s hs => Or.inr ⟨idx, hidx, hs⟩)
  exact h1 s hs

theorem valid_scaled (hv : ValidTensors eee mee qee) {lam : Expr} (hl : ∀ s ∈ lam.free, s.isReal = some true) :
    ValidTensors (scaleGiven S lam eee) (scaleGiven S lam mee) (scaleGiven S lam qee) := by
  have key : ∀ {t : Option (Nd Expr)}, (∀ u, t = some u → ∀ s, OccursIn u s → s.isReal = some true) →
      ∀ u, scaleGiven S lam t = some u → ∀ s, OccursIn u s → s.isReal = some true := by
    intro t ht u hu s hs
    cases t with
    | none => cases hu
    | some v =>
      cases hu
      rcases occursIn_scale S hs with h | h
      · exact hl s h
      · exact ht v rfl s h
  have shape : ∀ {n : ℕ} {t : Option (Nd Expr)}, (∀ u, t = some u → IsTensor 3 n u) →
      ∀ u, scaleGiven S lam t = some u → IsTensor 3 n u := by
    intro n t ht u hu
    cases t with
    | none => cases hu
    | some v => cases hu; exact ht v rfl
  refine ⟨shape hv.eee3, shape hv.mee3, shape hv.qee4, ?_, ?_⟩
  · rintro ⟨h1, h2, h3⟩
    simp only [scaleGiven, Option.map_eq_none_iff] at h1 h2 h3
    exact hv.some_given ⟨h1, h2, h3⟩
  · rintro u (hu | hu | hu)
    · exact key (fun u hu => hv.real u (Or.inl hu)) u hu
    · exact key (fun u hu => hv.real u (Or.inr (Or.inl hu))) u hu
    · exact key (fun u hu => hv.real u (Or.inr (Or.inr hu))) u hu

theorem crystalOf_scaled (lam : Expr) (σ : Valuation) :
    crystalOf (scaleGiven S lam eee) (scaleGiven S lam mee) (scaleGiven S lam qee) σ =
      (crystalOf eee mee qee σ).scaled (lam.eval σ) := by
  unfold crystalOf Crystal.scaled
  congr 1
  · cases eee with
    | none => funext i j k; simp [scaleGiven]
    | some t => funext i j k; exact S.eval_mul σ _ _
  · cases mee with
    | none => funext i j k; simp [scaleGiven]
    | some t => funext i j k; exact S.eval_mul σ _ _
  · cases qee with
    | none => funext i j k l; simp [scaleGiven]
    | some t => funext i j k l; exact S.eval_mul σ _ _

/-- **C47.**  Multiplying all tensors by an expression `lam` (in real symbols, of complex value) multiplies the values of
all formulas by the square of its modulus. -/
theorem C47_quadratic (hv : ValidTensors eee mee qee) {lam : Expr} (hl : ∀ s ∈ lam.free, s.isReal = some true) :
    ∃ c c', formgen S ex theta eee mee qee = .ok c ∧
      formgen S ex theta (scaleGiven S lam eee) (scaleGiven S lam mee) (scaleGiven S lam qee) = .ok c' ∧
      ∀ (r : Sym → ℝ) (θ : ℝ), theta.eval (realVal r) = (θ : ℂ) → ∀ p q,
        Related c c' r r p q p q (fun x x' => x' = (‖lam.eval (realVal r)‖ ^ 2 : ℝ) * x) := by
  obtain ⟨c, hc, hd⟩ := formgen_ok S ex (theta := theta) hv
  obtain ⟨c', hc', hd'⟩ := formgen_ok S ex (theta := theta) (valid_scaled S hv hl)
  refine ⟨c, c', hc, hc', fun r θ hθ p q => ?_⟩
  obtain ⟨e, he, h⟩ := hd.2 p q
  obtain ⟨e', he', h'⟩ := hd'.2 p q
  refine ⟨e, e', he, he', ?_⟩
  rw [h r θ hθ, h' r θ hθ, crystalOf_scaled, intensity_scaled, Complex.normSq_eq_norm_sq]
  push_cast
  ring

/-- In particular a sign, or the factor `I`, is not observable. -/
theorem C47_phase (hv : ValidTensors eee mee qee) {lam : Expr} (hlam : lam = .num (-1) ∨ lam = .I) :
    ∃ c c', formgen S ex theta eee mee qee = .ok c ∧
      formgen S ex theta (scaleGiven S lam eee) (scaleGiven S lam mee) (scaleGiven S lam qee) = .ok c' ∧
      ∀ (r : Sym → ℝ) (θ : ℝ), theta.eval (realVal r) = (θ : ℂ) → ∀ p q, Related c c' r r p q p q (fun x x' => x' = x) := by
  have hl : ∀ s ∈ lam.free, s.isReal = some true := by
    rcases hlam with rfl | rfl <;> simp [Expr.free]
  obtain ⟨c, c', h1, h2, h3⟩ := C47_quadratic S ex (theta := theta) hv hl
  refine ⟨c, c', h1, h2, fun r θ hθ p q => ?_⟩
  obtain ⟨e, e', he, he', h⟩ := h3 r θ hθ p q
  refine ⟨e, e', he, he', ?_⟩
  rw [h]
  rcases hlam with rfl | rfl <;> simp [Expr.eval]

/-! ## C48 -/

theorem intensity_degree (X : Crystal) (θ : ℝ) (p q : Pol) : TrigDegree 8 (fun x => (intensity X θ x p q : ℂ)) :=
  trigDegree_of_mem (H_outIntensity (d := 4) (H_radiated X θ p) q)

theorem intensity_degree_dipole (X : Crystal) (hq : X.qee = 0) (θ : ℝ) (p q : Pol) :
    TrigDegree 6 (fun x => (intensity X θ x p q : ℂ)) :=
  trigDegree_of_mem (H_outIntensity (d := 3) (H_radiated_dipole X hq θ p) q)

/-- The value of a formula as a function of the azimuth. -/
noncomputable def ofPhi (e : Expr) (r : Sym → ℝ) (x : ℝ) : ℂ := e.eval (realVal (withPhi r x))

/-- **C48.**  As a function of `phi` every formula is a trigonometric polynomial of degree at most 8, and at most 6 without
a quadrupole tensor; its Fourier coefficients beyond the degree vanish and it is the sum of the others. -/
theorem C48_degree (hv : ValidTensors eee mee qee) (hphi : ¬ OccursInSome eee mee qee phi) (hth : phi ∉ theta.free)
    {c : FormContainer} (hc : formgen S ex theta eee mee qee = .ok c) (p q : Pol) :
    ∃ e, c.getPc (combo p q) = .ok e ∧ ∀ (r : Sym → ℝ) (θ : ℝ), theta.eval (realVal r) = (θ : ℂ) →
      ∀ d : ℕ, (d = 8 ∨ d = 6 ∧ qee = none) →
        TrigDegree d (ofPhi e r) ∧ (∀ n : ℤ, (d : ℤ) < |n| → integralCoeff (ofPhi e r) n = 0) ∧
        ∀ x, ofPhi e r x = ∑ n ∈ Finset.Icc (-(d : ℤ)) d, integralCoeff (ofPhi e r) n * harmonic n x := by
  obtain ⟨c', h1, h2⟩ := formgen_ok S ex (theta := theta) hv
  rw [hc] at h1; cases h1
  obtain ⟨e, he, hval⟩ := h2.2 p q
  refine ⟨e, he, fun r θ hθ d hd => ?_⟩
  have hf : ofPhi e r = fun x => (intensity (crystalOf eee mee qee (realVal r)) θ x p q : ℂ) := by
    funext x
    unfold ofPhi
    rw [hval (withPhi r x) θ (by rw [eval_withPhi hth, hθ]), crystalOf_withPhi hv.shapes hphi]
    simp [withPhi]
  have hdeg : TrigDegree d (ofPhi e r) := by
    rw [hf]
    rcases hd with rfl | ⟨rfl, rfl⟩
    · exact intensity_degree _ _ _ _
    · exact intensity_degree_dipole _ rfl _ _ _
  exact ⟨hdeg, fun n hn => TrigDegree.coeff_zero hdeg hn, fun x => TrigDegree.series hdeg x⟩

example : ValidTensors (some sampleTensor) (some sampleTensor) (some sampleQuadrupole) ∧
    ¬ OccursInSome (some sampleTensor) (some sampleTensor) (some sampleQuadrupole) phi ∧
    phi ∉ (Expr.sym ⟨['t'], 1⟩).free ∧ ∀ r : Sym → ℝ, (Expr.sym ⟨['t'], 1⟩).eval (realVal r) = (r ⟨['t'], 1⟩ : ℂ) :=
  ⟨sample_valid, sample_no_phi, by simp [Expr.free, phi], fun r => by simp [Expr.eval, realVal]⟩

/-! ## C49 -/

/-- **C49.**  At normal incidence, turning the crystal by a quarter turn exchanges the two polarizations:
`SS(phi + π/2) = PP(phi)`, `PP(phi + π/2) = SS(phi)`, `SP(phi + π/2) = PS(phi)` and `PS(phi + π/2) = SP(phi)`. -/
theorem C49_normal_incidence (hv : ValidTensors eee mee qee) (hphi : ¬ OccursInSome eee mee qee phi)
    (hth : phi ∉ theta.free) {c : FormContainer} (hc : formgen S ex theta eee mee qee = .ok c) (r : Sym → ℝ)
    (h0 : theta.eval (realVal r) = 0) :
    Related c c r (withPhi r (r phi + Real.pi / 2)) .P .P .S .S (· = ·) ∧
    Related c c r (withPhi r (r phi + Real.pi / 2)) .S .S .P .P (· = ·) ∧
    Related c c r (withPhi r (r phi + Real.pi / 2)) .P .S .S .P (· = ·) ∧
    Related c c r (withPhi r (r phi + Real.pi / 2)) .S .P .P .S (· = ·) := by
  obtain ⟨c', h1, h2⟩ := formgen_ok S ex (theta := theta) hv
  rw [hc] at h1; cases h1
  have h0' : theta.eval (realVal r) = ((0 : ℝ) : ℂ) := by rw [h0]; simp
  have key : ∀ p q p' q', intensity (crystalOf eee mee qee (realVal r)) 0 (r phi) p q =
      intensity (crystalOf eee mee qee (realVal r)) 0 (r phi + Real.pi / 2) p' q' →
      Related c c r (withPhi r (r phi + Real.pi / 2)) p q p' q' (· = ·) := by
    intro p q p' q' h
    obtain ⟨e, he, hval⟩ := h2.2 p q
    obtain ⟨e', he', hval'⟩ := h2.2 p' q'
    refine ⟨e, e', he, he', ?_⟩
    rw [hval r 0 h0', hval' (withPhi r (r phi + Real.pi / 2)) 0 (by rw [eval_withPhi hth, h0']),
      crystalOf_withPhi hv.shapes hphi, h]
    simp [withPhi]
  obtain ⟨f1, f2⟩ := normal_fields (crystalOf eee mee qee (realVal r)) (r phi)
  have z1 := normal_z (crystalOf eee mee qee (realVal r)) (r phi) .P
  have z2 := normal_z (crystalOf eee mee qee (realVal r)) (r phi) .S
  refine ⟨key _ _ _ _ ?_, key _ _ _ _ ?_, key _ _ _ _ ?_, key _ _ _ _ ?_⟩ <;>
    simp only [intensity, outIntensity, f1, f2, z1, z2] <;> simp

/-! ## C50 -/

/-- **C50.**  Two triples of tensors with the same symmetric part in the last two indices have the same intensities: in
particular, symmetrizing the tensors changes no intensity. -/
theorem C50_symmetric_part {eee' mee' qee' : Option (Nd Expr)} (hv : ValidTensors eee mee qee)
    (hv' : ValidTensors eee' mee' qee') :
    ∃ c c', formgen S ex theta eee mee qee = .ok c ∧ formgen S ex theta eee' mee' qee' = .ok c' ∧
      ∀ (r : Sym → ℝ) (θ : ℝ), theta.eval (realVal r) = (θ : ℂ) →
        (crystalOf eee' mee' qee' (realVal r)).symmetrized = (crystalOf eee mee qee (realVal r)).symmetrized →
        ∀ p q, Related c c' r r p q p q (fun x x' => x' = x) := by
  obtain ⟨c, hc, hd⟩ := formgen_ok S ex (theta := theta) hv
  obtain ⟨c', hc', hd'⟩ := formgen_ok S ex (theta := theta) hv'
  refine ⟨c, c', hc, hc', fun r θ hθ hs p q => ?_⟩
  obtain ⟨e, he, h⟩ := hd.2 p q
  obtain ⟨e', he', h'⟩ := hd'.2 p q
  refine ⟨e, e', he, he', ?_⟩
  show e'.eval (realVal r) = e.eval (realVal r)
  rw [h r θ hθ, h' r θ hθ, ← intensity_symmetrized, hs, intensity_symmetrized]

/-- Symmetrizing does not change the symmetric part, so `C50_symmetric_part` applies to a tensor and its
symmetrization. -/
theorem C50_idempotent (X : Crystal) : X.symmetrized.symmetrized = X.symmetrized := by
  unfold Crystal.symmetrized
  congr 1
  · funext i j k; ring
  · funext i j k; ring
  · funext i j k l; ring

/-- A tensor element and its mirror image: the tensor with `t[0,1,2] = 1` and the tensor with `t[0,2,1] = 1` differ but have
the same symmetric part. -/
example : ∃ X Y : Crystal, X ≠ Y ∧ X.symmetrized = Y.symmetrized := by
  refine ⟨⟨fun i j k => if i = 0 ∧ j = 1 ∧ k = 2 then 1 else 0, 0, 0⟩,
    ⟨fun i j k => if i = 0 ∧ j = 2 ∧ k = 1 then 1 else 0, 0, 0⟩, ?_, ?_⟩
  · intro h
    have := congrFun (congrFun (congrFun (congrArg Crystal.eee h) 0) 1) 2
    simp at this
  · unfold Crystal.symmetrized
    simp only [Crystal.mk.injEq, and_true]
    funext i j k
    fin_cases i <;> fin_cases j <;> fin_cases k <;> simp

/-! ## C51 -/

/-- **C51.**  For tensors of the right shapes, `formgen` raises `ValueError` exactly when no tensor is given or some tensor
contains a symbol that is not declared real; otherwise it returns a container. -/
theorem C51_errors (hs : RightShapes eee mee qee) :
    (formgen S ex theta eee mee qee = .error .valueError ↔
      (eee = none ∧ mee = none ∧ qee = none) ∨ ∃ s, OccursInSome eee mee qee s ∧ s.isReal ≠ some true) ∧
    (formgen S ex theta eee mee qee ≠ .error .valueError → ∃ c, formgen S ex theta eee mee qee = .ok c) := by
  by_cases hv : ValidTensors eee mee qee
  · obtain ⟨c, hc, _⟩ := formgen_ok S ex (theta := theta) hv
    refine ⟨⟨fun h => (by rw [hc] at h; cases h), ?_⟩, fun _ => ⟨c, hc⟩⟩
    rintro (h | ⟨s, ⟨t, ht, hst⟩, hn⟩)
    · exact absurd h hv.some_given
    · exact absurd (hv.real t ht s hst) hn
  · have he : formgen S ex theta eee mee qee = .error .valueError := by
      unfold formgen
      rw [genS_error S ex hs hv]
      rfl
    refine ⟨⟨fun _ => ?_, fun _ => he⟩, fun h => absurd he h⟩
    by_contra hc
    push Not at hc
    refine hv ⟨hs.eee3, hs.mee3, hs.qee4, fun h => hc.1 h.1 h.2.1 h.2.2, fun t ht s hst => hc.2 s ⟨t, ht, hst⟩⟩

/-- The check also rejects symbols without assumptions and symbols declared not real. -/
example : Sym.isReal ⟨['a'], 0⟩ ≠ some true ∧ Sym.isReal ⟨['a'], 2⟩ ≠ some true ∧ Sym.isReal ⟨['a'], 1⟩ = some true := by
  decide

/-! ## C66 -/

/-- **C66.**  `formgen` invents no symbols: those of its formulas are `phi`, those of the angle of incidence and those of the
tensors. -/
theorem C66_symbols (hs : RightShapes eee mee qee) {c : FormContainer} (hc : formgen S ex theta eee mee qee = .ok c)
    (s : Sym) (h : Occurs c s) : s = phi ∨ s ∈ theta.free ∨ OccursInSome eee mee qee s :=
  formgen_free S ex (F := fun s => s = phi ∨ s ∈ theta.free ∨ OccursInSome eee mee qee s) hs (Or.inl rfl)
    (fun _ h => Or.inr (Or.inl h)) (fun _ h => Or.inr (Or.inr h)) hc s h

end Shgpy
