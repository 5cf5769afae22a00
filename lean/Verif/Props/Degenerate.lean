import Verif.Spec.Simulated
import Verif.Props.Selection
import Verif.Props.FFormFitCases

/-!
# What a fit cannot determine: C84
-/

set_option linter.unusedSectionVars false
set_option linter.unusedSimpArgs false
set_option linter.unusedVariables false

namespace Shgpy
open Spec

/-! ## Lemmas -/

theorem crystal_multiplied {lam : ℂ} {eee qee : Option (Nd Expr)} {r r' : Sym → ℝ} (hv : ValidTensors eee none qee)
    (h : Multiplied lam eee qee r r') :
    crystalOf eee none qee (realVal r') = (crystalOf eee none qee (realVal r)).scaled lam := by
  unfold crystalOf Crystal.scaled
  congr 1
  · cases eee with
    | none => funext i j k; simp
    | some t =>
      funext i j k
      refine h t (.inl rfl) _ ?_
      have := hv.eee3 t rfl
      rw [show t.shape = List.replicate 3 3 from this, inRange_replicate]
      exact ⟨rfl, by simp⟩
  · funext i j k; simp
  · cases qee with
    | none => funext i j k l; simp
    | some t =>
      funext i j k l
      refine h t (.inr rfl) _ ?_
      have := hv.qee4 t rfl
      rw [show t.shape = List.replicate 4 3 from this, inRange_replicate]
      exact ⟨rfl, by simp⟩

theorem ofTable_homogeneous {S : Sympy} {r : ℕ} {t : Nd Expr} {G : Set PG.SymOp} (h : OfTable S r t G) (lam : ℂ) {σ τ : Valuation}
    (idx : List ℕ) (hστ : ∀ s ∈ (t.get idx).free, τ s = lam * σ s) : (t.get idx).eval τ = lam * (t.get idx).eval σ := by
  have key : ∀ (pre : Key) (r : ℕ) (flat : List (List ℤ)), ((tensorArray S pre r flat).get idx).eval (fun s => lam * σ s) =
      lam * ((tensorArray S pre r flat).get idx).eval σ := by
    intro pre r flat
    have hval : ∀ (w : ℕ → ℂ) (l : TensorDef.LF), TensorDef.LF.val (fun n => lam * w n) l = lam * TensorDef.LF.val w l := by
      intro w l
      induction l with
      | nil => simp [TensorDef.LF.val]
      | cons x l ih => rw [TensorDef.LF.val_cons, TensorDef.LF.val_cons, ih]; ring
    rw [TensorDef.get_tensorArray, TensorDef.eval_elementExpr, TensorDef.eval_elementExpr, hval]
  have hc : (t.get idx).eval τ = (t.get idx).eval (fun s => lam * σ s) := Expr.eval_congr _ hστ
  rw [hc]
  cases h with
  | dipole _ ht => obtain ⟨flat, -, rfl, -⟩ := TensorDef.get_mapVals_ok ht; exact key _ _ _
  | surface _ ht => obtain ⟨flat, -, rfl, -⟩ := TensorDef.get_mapVals_ok ht; exact key _ _ _
  | quadrupole _ ht => obtain ⟨flat, -, rfl, -⟩ := TensorDef.get_mapVals_ok ht; exact key _ _ _
  | isotropic ht => obtain ⟨flat, -, rfl, -⟩ := TensorDef.get_mapVals_ok ht; exact key _ _ _

theorem fromTable_homogeneous {S : Sympy} {r : ℕ} {t : Nd Expr} {G : Set PG.SymOp} (h : FromTable S r t G) (lam : ℂ) {σ τ : Valuation}
    (idx : List ℕ) (hστ : ∀ s ∈ (t.get idx).free, τ s = lam * σ s) : (t.get idx).eval τ = lam * (t.get idx).eval σ := by
  rw [Expr.eval_congr (τ := fun s => lam * σ s) _ hστ]
  exact fromTable_equivariant S (m := fun z => lam * z) (fun h σ idx => ofTable_homogeneous h lam idx (fun _ _ => rfl)) h σ idx

variable (S : Sympy) (ex : Rewriting) (R : Repr) (C : Compiler)

theorem fourierFormulas_reachable {theta : Expr} {eee qee : Option (Nd Expr)} {c : FFormContainer}
    (h : FourierFormulas S ex R theta eee qee c) : c.Reachable S := by
  have hload : ∀ {fs : Files} {name : Key}, loadFform S R fs name = .ok c → c.Reachable S := by
    intro fs name h
    unfold loadFform at h
    cases hf : fs name with
    | none => rw [hf] at h; cases h
    | some d =>
      rw [hf] at h
      obtain ⟨d', _, h⟩ := bind_ok h
      exact ⟨_, _, _, [], h, rfl⟩
  cases h with
  | easy hf hs hth hθ hc =>
    unfold formToFform at hc
    obtain ⟨it, _, hc⟩ := bind_ok hc
    exact ⟨_, _, _, [], hc, rfl⟩
  | hard hh =>
    cases hh with
    | num _ _ h => exact hload h
    | symb _ _ h => exact hload h

/-- The components, for real parameters, with the angle of incidence. -/
theorem fourier_components_angle {theta : Expr} {eee qee : Option (Nd Expr)} {c : FFormContainer}
    (h : FourierFormulas S ex R theta eee qee c) (hv : ValidTensors eee none qee) (hphi : ¬ OccursInSome eee none qee phi) :
    c.getKeys = [combo .P .P, combo .P .S, combo .S .P, combo .S .S] ∧ c.getM = 16 ∧
    ∃ (θ : (Sym → ℝ) → ℝ) (β : ℝ), (∀ r, theta.eval (realVal r) = (θ r : ℂ)) ∧ ∀ p q m, -16 ≤ m ∧ m ≤ 16 →
      RealComponent c (combo p q) m (fun r => integralCoeff (fun x =>
        (intensity (crystalOf eee none qee (realVal r)) (θ r) (x + β) p q : ℂ)) m) := by
  cases h with
  | easy hf hs hth hθ hc =>
    obtain ⟨form', hf', hd⟩ := formgen_ok S ex (theta := theta) hv
    rw [hf] at hf'; cases hf'
    obtain ⟨c', h1, h2, h3, h4⟩ := formToFform_supported S (formgen_reachable S ex hf) hs le_rfl
    rw [hc] at h1; cases h1
    choose θ hθ using hθ
    refine ⟨h2.trans hd.1, h3, θ, 0, hθ, fun p q m hm => ?_⟩
    obtain ⟨e, he, hval⟩ := hd.2 p q
    obtain ⟨a, o, ha, ho, hv'⟩ := h4 _ e he m hm
    refine ⟨a, o, ha, ho, fun r => ?_⟩
    rw [hv']
    dsimp only
    congr 1
    funext x
    rw [ofAngle_real, hval (withPhi r x) (θ r) (by rw [eval_withPhi hth, hθ]), crystalOf_withPhi hv.shapes hphi]
    simp [withPhi]
  | hard hh =>
    obtain ⟨_, θ, hθ, hk, h2, h3⟩ := hard_components S R hv hh
    exact ⟨hk, h2, θ, Real.pi, hθ, h3⟩

theorem coeff_scaled {lam : ℂ} (hlam : ‖lam‖ = 1) (X : Crystal) (θ β : ℝ) (p q : Pol) (m : ℤ) :
    integralCoeff (fun x => (intensity (X.scaled lam) θ (x + β) p q : ℂ)) m =
      integralCoeff (fun x => (intensity X θ (x + β) p q : ℂ)) m := by
  have : ∀ x : ℝ, intensity (X.scaled lam) θ x p q = intensity X θ x p q := by
    intro x
    rw [intensity_scaled, Complex.normSq_eq_norm_sq, hlam, one_pow, one_mul]
  simp only [this]

theorem formulaIs_exists {c : FFormContainer} (hc : c.Reachable S) : ∃ F, FormulaIs c F := by
  classical
  have h : ∀ (k : Key) (m : ℤ), ∃ f : Valuation → ℂ, k ∈ c.getKeys → -(c.getM : ℤ) ≤ m → m ≤ c.getM → FRepresents c k m f := by
    intro k m
    by_cases hk : k ∈ c.getKeys ∧ -(c.getM : ℤ) ≤ m ∧ m ≤ c.getM
    · obtain ⟨a, ha⟩ := Dict.mem_keys.1 hk.1
      have hlen : a.objs.length = 2 * c.getM + 1 := hc.good.len _ ha
      have hlt : (m + c.getM).toNat < a.objs.length := by omega
      exact ⟨fun σ => objValue σ (a.objs[(m + c.getM).toNat]), fun _ _ _ => ⟨a, _, get_of_mem hc.good.wf ha,
        ⟨hk.2, List.getElem?_eq_getElem hlt⟩, fun _ => rfl⟩⟩
    · exact ⟨fun _ => 0, fun h1 h2 h3 => absurd ⟨h1, h2, h3⟩ hk⟩
  choose F hF using h
  exact ⟨F, fun k hk m h1 h2 => hF k m hk h1 h2⟩

/-! ## C84 -/

section
variable {theta : Expr} {eee qee : Option (Nd Expr)} {c : FFormContainer} {r r' : Sym → ℝ} {fdat : FDataContainer} {D : Key → ℤ → ℂ}
  {arguments : Option (List Sym)} {l : List Sym}

/-- C84.  For every set of data, the cost function of the Fourier formulas of a crystal has equal values at two points at which the
tensors differ by a common factor of modulus one, and the angle of incidence is the same. -/
theorem C84_phase (hc : FourierFormulas S ex R theta eee qee c) (hv : ValidTensors eee none qee)
    (hphi : ¬ OccursInSome eee none qee phi) {lam : ℂ} (hlam : ‖lam‖ = 1)
    (hθ : theta.eval (realVal r') = theta.eval (realVal r)) (hX : Multiplied lam eee qee r r')
    (hM : fdat.getM = 16) (hD : DataIs c fdat D) (hl : ArgumentOrder S c arguments l) (d : Disk) (chunk : Bool) (save : Option Key) :
    ∃ f d', genCostFunc S C d c fdat arguments chunk save = .ok (f, d') ∧ f (l.map r') = f (l.map r) := by
  have hcr := fourierFormulas_reachable S ex R hc
  obtain ⟨hk, hcM, θ, β, hθ', hcomp⟩ := fourier_components_angle S ex R hc hv hphi
  obtain ⟨F, hF⟩ := formulaIs_exists S hcr
  obtain ⟨f, d', g1, g2⟩ := C57_cost S C d hcr hl (by rw [hM, hcM]) hF hD chunk (fun _ => by rw [hk]; simp) save
  refine ⟨f, d', g1, ?_⟩
  rw [g2, g2]
  unfold misfit
  congr 1
  refine List.map_congr_left (fun k hkk => ?_)
  refine Finset.sum_congr rfl (fun m hm => ?_)
  rw [Finset.mem_Icc] at hm
  have hm16 : -16 ≤ m ∧ m ≤ 16 := by
    have : (c.getM : ℤ) = 16 := by rw [hcM]; rfl
    omega
  have hpq : ∃ p q, k = combo p q := by
    rw [hk] at hkk
    simp only [List.mem_cons, List.not_mem_nil, or_false] at hkk
    rcases hkk with h | h | h | h <;> exact ⟨_, _, h⟩
  obtain ⟨p, q, rfl⟩ := hpq
  obtain ⟨a, o, ha, ho, hval⟩ := hF _ hkk m hm.1 hm.2
  obtain ⟨a', o', ha', ho', hval'⟩ := hcomp p q m hm16
  rw [ha] at ha'; cases ha'
  have : o = o' := Option.some.inj (ho.2.symm.trans ho'.2)
  subst this
  have heq : F (combo p q) m (realVal r') = F (combo p q) m (realVal r) := by
    have hth : θ r' = θ r := by
      have := (hθ' r').symm.trans (hθ.trans (hθ' r))
      exact_mod_cast this
    have h1 := coeff_scaled hlam (crystalOf eee none qee (realVal r)) (θ r) β p q m
    rw [← crystal_multiplied hv hX] at h1
    rw [← hval, ← hval, hval' r', hval' r]
    dsimp only
    rw [hth]
    exact h1
  rw [heq]

theorem fromTables_tabulated (h : FromTables S eee qee) : Tabulated S 1 eee qee := by
  have h1 : ∀ {r : ℕ} {t : Nd Expr} {G : Set PG.SymOp}, FromTable S r t G → (1 : PG.SymOp) ∈ G := by
    intro r t G h
    obtain ⟨t₀, h, -⟩ := fromTable_cases S h
    cases h with
    | dipole _ _ => exact Submonoid.one_mem _
    | surface _ _ => exact Submonoid.one_mem _
    | quadrupole _ _ => exact Submonoid.one_mem _
    | isotropic _ => exact ⟨by simp, by simp⟩
  refine ⟨fun t ht => ?_, fun t ht => ?_⟩
  · obtain ⟨t₀, G, a, b⟩ := h.eee3 t ht
    exact ⟨t₀, G, a, b, h1 a⟩
  · obtain ⟨t₀, G, a, b⟩ := h.qee4 t ht
    exact ⟨t₀, G, a, b, h1 a⟩

/-- C84, sign.  With tensors from the tables (made real or complex), changing the sign of all parameters of the tensors does not
change the cost. -/
theorem C84_sign (ht : FromTables S eee qee) (hg : ¬ (eee = none ∧ qee = none)) (hc : FourierFormulas S ex R theta eee qee c)
    (hθ : ∀ s ∈ theta.free, r' s = r s) (hr : ∀ s, OccursInSome eee none qee s → r' s = -r s)
    (hM : fdat.getM = 16) (hD : DataIs c fdat D) (hl : ArgumentOrder S c arguments l) (d : Disk) (chunk : Bool) (save : Option Key) :
    ∃ f d', genCostFunc S C d c fdat arguments chunk save = .ok (f, d') ∧ f (l.map r') = f (l.map r) := by
  obtain ⟨hv, hphi, _⟩ := tabulated_facts (fromTables_tabulated S ht) hg
  refine C84_phase S ex R C hc hv hphi (lam := -1) (by simp) (Expr.eval_congr _ (fun s hs => by simp [realVal, hθ s hs])) ?_ hM hD hl
    d chunk save
  have key : ∀ {n : ℕ} {t₀ t : Nd Expr} {G : Set PG.SymOp}, FromTable S n t₀ G → MadeReal S t₀ t →
      (∀ s, OccursIn t s → r' s = -r s) → ∀ idx, Nd.InRange t.shape idx →
      (t.get idx).eval (realVal r') = -1 * (t.get idx).eval (realVal r) := by
    intro n t₀ t G h1 h2 h3 idx hidx
    obtain ⟨b1, _, b3⟩ := fromTable_facts S h1
    have hp : PlainSymbols t₀ := fun s hs _ => (b3 s hs).1
    have hcong : (t.get idx).eval (realVal r') = (t.get idx).eval (fun s => -1 * realVal r s) :=
      Expr.eval_congr _ (fun s hs => by rw [realVal, h3 s ⟨idx, hidx, hs⟩]; simp [realVal])
    rw [hcong]
    cases h2 with
    | real =>
      obtain ⟨a1, a2, _⟩ := C43_real S t₀ hp
      rw [a1] at hidx
      rw [a2 idx hidx, a2 idx hidx]
      refine fromTable_homogeneous h1 (-1) idx (fun s hs => ?_)
      simp [realified, tableSym_real (b3 s ⟨idx, hidx, hs⟩)]
    | complex pr pi sr si =>
      obtain ⟨a1, a2⟩ := C43_complex S pr pi sr si t₀ hp
      rw [a1] at hidx
      rw [a2 idx hidx, a2 idx hidx]
      refine fromTable_homogeneous h1 (-1) idx (fun s hs => ?_)
      simp [complexified, tableSym_real (b3 s ⟨idx, hidx, hs⟩)]
      ring
  rintro t (h | h) idx hidx
  · obtain ⟨t₀, G, h1, h2⟩ := ht.eee3 t h
    exact key h1 h2 (fun s hs => hr s ⟨t, .inl h, hs⟩) idx hidx
  · obtain ⟨t₀, G, h1, h2⟩ := ht.qee4 t h
    exact key h1 h2 (fun s hs => hr s ⟨t, .inr (.inr h), hs⟩) idx hidx

/-- C84, phase.  With complex tensors from the tables there are equally good fits for every angle `α`: turning the pairs of real
and imaginary parts of all parameters by the angle `α` does not change the cost. -/
theorem C84_turned {pr pi sr si : Key} (ht : ComplexFromTables S pr pi sr si eee qee) (hg : ¬ (eee = none ∧ qee = none))
    (hc : FourierFormulas S ex R theta eee qee c) (α : ℝ)
    (hθ : ∀ s ∈ theta.free, r' s = r s)
    (hr : ∀ n : Key,
      r' (realSym (pr ++ n ++ sr)) = Real.cos α * r (realSym (pr ++ n ++ sr)) - Real.sin α * r (realSym (pi ++ n ++ si)) ∧
      r' (realSym (pi ++ n ++ si)) = Real.sin α * r (realSym (pr ++ n ++ sr)) + Real.cos α * r (realSym (pi ++ n ++ si)))
    (hM : fdat.getM = 16) (hD : DataIs c fdat D) (hl : ArgumentOrder S c arguments l) (d : Disk) (chunk : Bool) (save : Option Key) :
    ∃ f d', genCostFunc S C d c fdat arguments chunk save = .ok (f, d') ∧ f (l.map r') = f (l.map r) := by
  have hft : FromTables S eee qee := by
    refine ⟨fun t h => ?_, fun t h => ?_⟩
    · obtain ⟨t₀, G, h1, rfl⟩ := ht.eee3 t h
      exact ⟨t₀, G, h1, .complex _ _ _ _⟩
    · obtain ⟨t₀, G, h1, rfl⟩ := ht.qee4 t h
      exact ⟨t₀, G, h1, .complex _ _ _ _⟩
  obtain ⟨hv, hphi, _⟩ := tabulated_facts (fromTables_tabulated S hft) hg
  refine C84_phase S ex R C hc hv hphi (lam := Complex.exp (α * Complex.I)) (Complex.norm_exp_ofReal_mul_I α)
    (Expr.eval_congr _ (fun s hs => by simp [realVal, hθ s hs])) ?_ hM hD hl d chunk save
  have key : ∀ {n : ℕ} {t₀ : Nd Expr} {G : Set PG.SymOp}, FromTable S n t₀ G → ∀ idx, Nd.InRange t₀.shape idx →
      ((makeTensorComplex S pr pi sr si t₀).get idx).eval (realVal r') =
        Complex.exp (α * Complex.I) * ((makeTensorComplex S pr pi sr si t₀).get idx).eval (realVal r) := by
    intro n t₀ G h1 idx hidx
    obtain ⟨b1, _, b3⟩ := fromTable_facts S h1
    have hp : PlainSymbols t₀ := fun s hs _ => (b3 s hs).1
    obtain ⟨a1, a2⟩ := C43_complex S pr pi sr si t₀ hp
    rw [a2 idx hidx, a2 idx hidx]
    refine fromTable_homogeneous h1 _ idx (fun s hs => ?_)
    obtain ⟨q1, q2⟩ := hr s.name
    simp only [complexified, tableSym_real (b3 s ⟨idx, hidx, hs⟩), if_true, realVal, q1, q2, Complex.exp_mul_I]
    push_cast
    linear_combination (Complex.sin α * (r (realSym (pi ++ s.name ++ si)) : ℂ)) * (-Complex.I_mul_I)
  rintro t (h | h) idx hidx
  · obtain ⟨t₀, G, h1, rfl⟩ := ht.eee3 t h
    exact key h1 idx hidx
  · obtain ⟨t₀, G, h1, rfl⟩ := ht.qee4 t h
    exact key h1 idx hidx

end

/-! ## Concrete cases -/

theorem zero_data {c : FFormContainer} (hM : c.getM = 16) (hw : Dict.WF c.fform) :
    ∃ fdat : FDataContainer, fdat.getM = 16 ∧ DataIs c fdat (fun _ _ => 0) := by
  refine ⟨⟨c.fform.mapVals (fun _ => List.replicate 33 0), 16, 1, .num 0⟩, rfl, fun k hk m h1 h2 => ⟨?_, 0, 0, by simp⟩⟩
  rw [hM] at h1 h2
  obtain ⟨a, ha⟩ := Dict.mem_keys.1 hk
  refine ⟨List.replicate 33 0, ?_, ⟨h1, h2⟩, ?_⟩
  · show Dict.get _ k = _
    rw [Dict.get_ok_iff, Dict.get?_mapVals, (Dict.get?_eq_some_iff hw).2 ha]
    rfl
  · rw [List.getElem?_replicate]
    exact if_pos (by show (m + (16 : ℕ)).toNat < 33; omega)

/-- The hypotheses of `C84_turned` and of `C84_sign` are met: complex dipole and quadrupole tensors, a number for the angle of
incidence, and the value 1 for every parameter. -/
example (α : ℝ) : ∃ tD tQ c, ∃ fdat : FDataContainer, ∃ r' : Sym → ℝ, ComplexFromTables expandingSympy ['r'] ['i'] [] [] (some tD) (some tQ) ∧
    FromTables expandingSympy (some tD) (some tQ) ∧
    FourierFormulas expandingSympy expanding exRepr (.num (1 / 2)) (some tD) (some tQ) c ∧
    fdat.getM = 16 ∧ DataIs c fdat (fun _ _ => 0) ∧ (∃ l, ArgumentOrder expandingSympy c none l) ∧
    (∀ n : Key,
      r' (realSym (['r'] ++ n ++ [])) = Real.cos α * 1 - Real.sin α * 1 ∧
      r' (realSym (['i'] ++ n ++ [])) = Real.sin α * 1 + Real.cos α * 1) := by
  have hD : ((['C', '_', '4', 'v'] : Key), [PG.fourfoldZ, PG.mirrorX]) ∈ PG.pointGroups := by simp [PG.pointGroups]
  have hQ : ((['O', '_', 'h'] : Key), [PG.fourfoldZ, PG.threefoldDiagonal, PG.inversion]) ∈ PG.quadrupoleGroups := by
    simp [PG.quadrupoleGroups, PG.pointGroups]
  obtain ⟨tD, h1, _⟩ := (C55_dipole expandingSympy).2 _ _ hD
  obtain ⟨tQ, h2, _⟩ := (C55_quadrupole expandingSympy).2.1 _ _ hQ
  have hct : ComplexFromTables expandingSympy ['r'] ['i'] [] [] (some (makeTensorComplex expandingSympy ['r'] ['i'] [] [] tD))
      (some (makeTensorComplex expandingSympy ['r'] ['i'] [] [] tQ)) := by
    refine ⟨?_, ?_⟩
    · rintro t ⟨⟩
      exact ⟨tD, _, .entry (.dipole hD h1), rfl⟩
    · rintro t ⟨⟩
      exact ⟨tQ, _, .entry (.quadrupole hQ h2), rfl⟩
  have hft : FromTables expandingSympy (some (makeTensorComplex expandingSympy ['r'] ['i'] [] [] tD))
      (some (makeTensorComplex expandingSympy ['r'] ['i'] [] [] tQ)) := by
    refine ⟨?_, ?_⟩
    · rintro t ⟨⟩
      exact ⟨tD, _, .entry (.dipole hD h1), .complex _ _ _ _⟩
    · rintro t ⟨⟩
      exact ⟨tQ, _, .entry (.quadrupole hQ h2), .complex _ _ _ _⟩
  obtain ⟨hv, hphi, _⟩ := tabulated_facts (fromTables_tabulated expandingSympy hft) (by simp)
  have hs := C67_expanding (theta := .num (1 / 2)) hv hphi (by simp [Expr.free])
  obtain ⟨easy, ⟨form, hf, he⟩, _⟩ := C67_easy_way expandingSympy expanding hv hphi (by simp [Expr.free])
    (θ := fun _ => ((1 / 2 : ℚ) : ℝ)) (fun r => by simp [Expr.eval]) hs
  have hff : FourierFormulas expandingSympy expanding exRepr (.num (1 / 2))
      (some (makeTensorComplex expandingSympy ['r'] ['i'] [] [] tD))
      (some (makeTensorComplex expandingSympy ['r'] ['i'] [] [] tQ)) easy :=
    .easy hf (hs form hf) (by simp [Expr.free]) (fun r => ⟨((1 / 2 : ℚ) : ℝ), by simp [Expr.eval]⟩) he
  obtain ⟨hgood, hM, hnat, _⟩ := formToFform_symbols expandingSympy (formgen_reachable expandingSympy expanding hf).wf he
  obtain ⟨fdat, d1, d2⟩ := zero_data hM hgood.wf
  obtain ⟨l, hl, _⟩ := FFormContainer.getFreeSymbols_ok expandingSympy hgood hnat
  refine ⟨_, _, easy, fdat, fun s : Sym => if s.name.head? = some 'r' then Real.cos α * 1 - Real.sin α * 1 else
    Real.sin α * 1 + Real.cos α * 1, hct, hft, hff, d1, d2, ⟨_, .inr ⟨rfl, hl⟩⟩, fun n => ⟨?_, ?_⟩⟩
  · simp [realSym]
  · simp [realSym]

end Shgpy
