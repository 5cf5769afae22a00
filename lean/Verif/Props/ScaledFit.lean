import Verif.Props.Degenerate
import Verif.Props.FData

/-!
# Scaling the data scales the fit: C109
-/

set_option linter.unusedSectionVars false
set_option linter.unusedSimpArgs false
set_option linter.unusedVariables false

namespace Shgpy
open Spec

variable (S : Sympy) (ex : Rewriting) (R : Repr) (C : Compiler)

section
variable {theta : Expr} {eee qee : Option (Nd Expr)} {c : FFormContainer} {r r' : Sym → ℝ} {fdat fdat' : FDataContainer}
  {D : Key → ℤ → ℂ} {F : Key → ℤ → Valuation → ℂ} {arguments : Option (List Sym)} {l : List Sym}

/-- Multiplying all tensors by `lam` multiplies all components by the square of its modulus. -/
theorem scaled_components (hc : FourierFormulas S ex R theta eee qee c) (hv : ValidTensors eee none qee)
    (hphi : ¬ OccursInSome eee none qee phi) (hF : FormulaIs c F) {lam : ℂ}
    (hθ : theta.eval (realVal r') = theta.eval (realVal r)) (hX : Multiplied lam eee qee r r') {k : Key} (hkk : k ∈ c.getKeys)
    {m : ℤ} (hm1 : -(c.getM : ℤ) ≤ m) (hm2 : m ≤ c.getM) :
    F k m (realVal r') = (‖lam‖ ^ 2 : ℝ) * F k m (realVal r) := by
  obtain ⟨hk, hcM, θ, β, hθ', hcomp⟩ := fourier_components_angle S ex R hc hv hphi
  have hm16 : -16 ≤ m ∧ m ≤ 16 := by
    have : (c.getM : ℤ) = 16 := by rw [hcM]; rfl
    omega
  have hpq : ∃ p q, k = combo p q := by
    rw [hk] at hkk
    simp only [List.mem_cons, List.not_mem_nil, or_false] at hkk
    rcases hkk with h | h | h | h <;> exact ⟨_, _, h⟩
  obtain ⟨p, q, rfl⟩ := hpq
  obtain ⟨a, o, ha, ho, hval⟩ := hF _ hkk m hm1 hm2
  obtain ⟨a', o', ha', ho', hval'⟩ := hcomp p q m hm16
  rw [ha] at ha'; cases ha'
  have : o = o' := Option.some.inj (ho.2.symm.trans ho'.2)
  subst this
  have hth : θ r' = θ r := by
    have := (hθ' r').symm.trans (hθ.trans (hθ' r))
    exact_mod_cast this
  rw [← hval, ← hval, hval' r', hval' r]
  dsimp only
  rw [hth, crystal_multiplied hv hX, ← integralCoeff_const_mul]
  congr 1
  funext x
  rw [intensity_scaled, Complex.normSq_eq_norm_sq]
  push_cast
  ring

/-- C109.  If all tensors are multiplied by `lam`, and the data by the square of the modulus of `lam`, the cost is multiplied by the
fourth power of the modulus. -/
theorem C109_multiplied (hc : FourierFormulas S ex R theta eee qee c) (hv : ValidTensors eee none qee)
    (hphi : ¬ OccursInSome eee none qee phi) {lam : ℂ}
    (hM : fdat.getM = 16) (hD : DataIs c fdat D)
    (hM' : fdat'.getM = 16) (hD' : DataIs c fdat' (fun k m => (‖lam‖ ^ 2 : ℝ) * D k m))
    (hl : ArgumentOrder S c arguments l) (d : Disk) (chunk : Bool) (save : Option Key) :
    ∃ f d₁ f' d₂, genCostFunc S C d c fdat arguments chunk save = .ok (f, d₁) ∧
      genCostFunc S C d c fdat' arguments chunk save = .ok (f', d₂) ∧
      ∀ r r', theta.eval (realVal r') = theta.eval (realVal r) → Multiplied lam eee qee r r' →
        f' (l.map r') = (‖lam‖ ^ 2) ^ 2 * f (l.map r) := by
  have hcr := fourierFormulas_reachable S ex R hc
  obtain ⟨hk, hcM, _⟩ := fourier_components_angle S ex R hc hv hphi
  obtain ⟨F, hF⟩ := formulaIs_exists S hcr
  obtain ⟨f, d₁, g1, g2⟩ := C57_cost S C d hcr hl (by rw [hM, hcM]) hF hD chunk (fun _ => by rw [hk]; simp) save
  obtain ⟨f', d₂, g3, g4⟩ := C57_cost S C d hcr hl (by rw [hM', hcM]) hF hD' chunk (fun _ => by rw [hk]; simp) save
  refine ⟨f, d₁, f', d₂, g1, g3, fun r r' hθ hX => ?_⟩
  rw [g2, g4]
  unfold misfit
  rw [← List.sum_map_mul_left]
  congr 1
  refine List.map_congr_left (fun k hkk => ?_)
  rw [Finset.mul_sum]
  refine Finset.sum_congr rfl (fun m hm => ?_)
  rw [Finset.mem_Icc] at hm
  rw [scaled_components S ex R hc hv hphi hF hθ hX hkk hm.1 hm.2, ← mul_sub, norm_mul, mul_pow, Complex.norm_real, Real.norm_eq_abs,
    sq_abs]

/-- The parameters of tensors from the tables enter linearly. -/
theorem tables_multiplied (ht : FromTables S eee qee) (a : ℝ) (hr : ∀ s, OccursInSome eee none qee s → r' s = a * r s) :
    Multiplied a eee qee r r' := by
  have key : ∀ {n : ℕ} {t₀ t : Nd Expr} {G : Set PG.SymOp}, FromTable S n t₀ G → MadeReal S t₀ t →
      (∀ s, OccursIn t s → r' s = a * r s) → ∀ idx, Nd.InRange t.shape idx →
      (t.get idx).eval (realVal r') = a * (t.get idx).eval (realVal r) := by
    intro n t₀ t G h1 h2 h3 idx hidx
    obtain ⟨b1, _, b3⟩ := fromTable_facts S h1
    have hp : PlainSymbols t₀ := fun s hs _ => (b3 s hs).1
    have hcong : (t.get idx).eval (realVal r') = (t.get idx).eval (fun s => a * realVal r s) :=
      Expr.eval_congr _ (fun s hs => by rw [realVal, h3 s ⟨idx, hidx, hs⟩]; simp [realVal])
    rw [hcong]
    cases h2 with
    | real =>
      obtain ⟨a1, a2, _⟩ := C43_real S t₀ hp
      rw [a1] at hidx
      rw [a2 idx hidx, a2 idx hidx]
      refine fromTable_homogeneous h1 a idx (fun s hs => ?_)
      simp [realified, tableSym_real (b3 s ⟨idx, hidx, hs⟩)]
    | complex pr pi sr si =>
      obtain ⟨a1, a2⟩ := C43_complex S pr pi sr si t₀ hp
      rw [a1] at hidx
      rw [a2 idx hidx, a2 idx hidx]
      refine fromTable_homogeneous h1 a idx (fun s hs => ?_)
      simp [complexified, tableSym_real (b3 s ⟨idx, hidx, hs⟩)]
      ring
  rintro t (h | h) idx hidx
  · obtain ⟨t₀, G, h1, h2⟩ := ht.eee3 t h
    exact key h1 h2 (fun s hs => hr s ⟨t, .inl h, hs⟩) idx hidx
  · obtain ⟨t₀, G, h1, h2⟩ := ht.qee4 t h
    exact key h1 h2 (fun s hs => hr s ⟨t, .inr (.inr h), hs⟩) idx hidx

/-- `scale_fdata` multiplies every component. -/
theorem scaled_data {q : ℚ} (hq : 0 ≤ q) (hD : DataIs c fdat D) :
    (FDataContainer.step fdat (.scale (q : ℝ))).2 = none ∧ (FDataContainer.step fdat (.scale (q : ℝ))).1.getM = fdat.getM ∧
    DataIs c (FDataContainer.step fdat (.scale (q : ℝ))).1 (fun k m => ((q : ℝ) : ℂ) * D k m) := by
  have hq' : ¬ (q : ℝ) < 0 := not_lt.2 (by exact_mod_cast hq)
  rw [FDataContainer.step_scale, if_neg hq']
  refine ⟨rfl, rfl, fun k hk m h1 h2 => ?_⟩
  obtain ⟨⟨v, e1, e2, e3⟩, a, b, e4⟩ := hD k hk m h1 h2
  refine ⟨⟨v.map (fun z => ((q : ℝ) : ℂ) * z), ?_, e2, ?_⟩, q * a, q * b, ?_⟩
  · show Dict.get _ k = _
    rw [Dict.get_ok_iff, Dict.get?_mapVals, Dict.get_ok_iff.1 e1]
    rfl
  · have e5 : v[(m + fdat.getM).toNat]? = some (D k m) := e3
    show (v.map _)[(m + fdat.getM).toNat]? = _
    rw [List.getElem?_map, e5]
    rfl
  · dsimp only
    rw [e4]
    push_cast
    ring

/-- C109.  With tensors from the tables, `scale_fdata(q)` on the data has the effect of multiplying the parameters of the tensors by
the square root of `q`: the cost at the multiplied parameters is `q²` times the cost at the original ones for the original data. -/
theorem C109_scaled (ht : FromTables S eee qee) (hg : ¬ (eee = none ∧ qee = none)) (hc : FourierFormulas S ex R theta eee qee c)
    (hM : fdat.getM = 16) (hD : DataIs c fdat D) {q : ℚ} (hq : 0 ≤ q)
    (hl : ArgumentOrder S c arguments l) (d : Disk) (chunk : Bool) (save : Option Key) :
    ∃ f d₁ f' d₂, genCostFunc S C d c fdat arguments chunk save = .ok (f, d₁) ∧
      genCostFunc S C d c (FDataContainer.step fdat (.scale (q : ℝ))).1 arguments chunk save = .ok (f', d₂) ∧
      ∀ r r' : Sym → ℝ, (∀ s ∈ theta.free, r' s = r s) → (∀ s, OccursInSome eee none qee s → r' s = √q * r s) →
        f' (l.map r') = q ^ 2 * f (l.map r) := by
  obtain ⟨hv, hphi, _⟩ := tabulated_facts (fromTables_tabulated S ht) hg
  obtain ⟨_, s2, s3⟩ := scaled_data hq hD
  have hq' : (0 : ℝ) ≤ q := by exact_mod_cast hq
  have hlam : ‖((√(q : ℝ) : ℝ) : ℂ)‖ ^ 2 = q := by
    rw [Complex.norm_real, Real.norm_eq_abs, sq_abs, Real.sq_sqrt hq']
  obtain ⟨f, d₁, f', d₂, h1, h2, h3⟩ := C109_multiplied S ex R C hc hv hphi (lam := ((√(q : ℝ) : ℝ) : ℂ)) hM hD (s2.trans hM)
    (by rw [hlam]; exact s3) hl d chunk save
  refine ⟨f, d₁, f', d₂, h1, h2, fun r r' hθ hr => ?_⟩
  rw [h3 r r' (Expr.eval_congr _ (fun s hs => by simp [realVal, hθ s hs])) (tables_multiplied S ht _ hr), hlam]

/-- C109, best fits.  The best fits of the scaled data are those of the original data with the parameters of the tensors multiplied
by the square root of the scale: the ratios of the fitted tensor elements do not depend on the units of the intensity. -/
theorem C109_best (ht : FromTables S eee qee) (hg : ¬ (eee = none ∧ qee = none)) (hc : FourierFormulas S ex R theta eee qee c)
    (hth : ∀ s ∈ theta.free, ¬ OccursInSome eee none qee s)
    (hM : fdat.getM = 16) (hD : DataIs c fdat D) {q : ℚ} (hq : 0 < q)
    (hl : ArgumentOrder S c arguments l) (d : Disk) (chunk : Bool) (save : Option Key) :
    ∃ f d₁ f' d₂, genCostFunc S C d c fdat arguments chunk save = .ok (f, d₁) ∧
      genCostFunc S C d c (FDataContainer.step fdat (.scale (q : ℝ))).1 arguments chunk save = .ok (f', d₂) ∧
      ∀ r r' : Sym → ℝ, (∀ s ∈ theta.free, r' s = r s) → (∀ s, OccursInSome eee none qee s → r' s = √q * r s) →
        ((∀ y : Sym → ℝ, f (l.map r) ≤ f (l.map y)) ↔ ∀ y : Sym → ℝ, f' (l.map r') ≤ f' (l.map y)) := by
  classical
  obtain ⟨f, d₁, f', d₂, h1, h2, h3⟩ := C109_scaled S ex R C ht hg hc hM hD hq.le hl d chunk save
  have hq' : (0 : ℝ) < q := by exact_mod_cast hq
  have hpos : (0 : ℝ) < (q : ℝ) ^ 2 := by positivity
  have hs : (0 : ℝ) < √(q : ℝ) := Real.sqrt_pos.2 hq'
  refine ⟨f, d₁, f', d₂, h1, h2, fun r r' hθ hr => ⟨fun h y => ?_, fun h y => ?_⟩⟩
  · have e := h3 (fun s => if OccursInSome eee none qee s then (√(q : ℝ))⁻¹ * y s else y s) y
      (fun s hs' => by simp [hth s hs']) (fun s hs' => by simp [hs', mul_inv_cancel_left₀ hs.ne'])
    rw [h3 r r' hθ hr, e]
    exact mul_le_mul_of_nonneg_left (h _) hpos.le
  · have e := h3 y (fun s => if OccursInSome eee none qee s then √(q : ℝ) * y s else y s)
      (fun s hs' => by simp [hth s hs']) (fun s hs' => by simp [hs'])
    have := h (fun s => if OccursInSome eee none qee s then √(q : ℝ) * y s else y s)
    rw [h3 r r' hθ hr, e] at this
    exact le_of_mul_le_mul_left this hpos

end

/-! ## A concrete case -/

/-- The hypotheses of `C109_scaled` and `C109_best` are met: real dipole and quadrupole tensors, a number for the angle of incidence, and data that
are 2 in every component, scaled by 1/4. -/
example (d : Disk) : ∃ tD tQ c, ∃ fdat : FDataContainer, ∃ (l : List Sym), ∃ f d₁ f' d₂, ArgumentOrder expandingSympy c none l ∧
    FourierFormulas expandingSympy expanding exRepr (.num (1 / 2)) (some tD) (some tQ) c ∧
    genCostFunc expandingSympy FitCases.compiler d c fdat none false none = .ok (f, d₁) ∧
    genCostFunc expandingSympy FitCases.compiler d c (FDataContainer.step fdat (.scale ((1 / 4 : ℚ) : ℝ))).1 none false none = .ok (f', d₂) ∧
    f' (List.map (fun _ => 3 / 2) l) = (1 / 4) ^ 2 * f (List.map (fun _ => 3) l) := by
  have hD : ((['C', '_', '4', 'v'] : Key), [PG.fourfoldZ, PG.mirrorX]) ∈ PG.pointGroups := by simp [PG.pointGroups]
  have hQ : ((['O', '_', 'h'] : Key), [PG.fourfoldZ, PG.threefoldDiagonal, PG.inversion]) ∈ PG.quadrupoleGroups := by
    simp [PG.quadrupoleGroups, PG.pointGroups]
  obtain ⟨tQ, h2, _⟩ := (C55_quadrupole expandingSympy).2.1 _ _ hQ
  obtain ⟨tD, h1, _⟩ := (C55_dipole expandingSympy).2 _ _ hD
  have hft : FromTables expandingSympy (some (makeTensorReal expandingSympy tD))
      (some (makeTensorReal expandingSympy tQ)) := by
    refine ⟨?_, ?_⟩
    · rintro t ⟨⟩
      exact ⟨tD, _, .entry (.dipole hD h1), .real⟩
    · rintro t ⟨⟩
      exact ⟨tQ, _, .entry (.quadrupole hQ h2), .real⟩
  obtain ⟨hv, hphi, _⟩ := tabulated_facts (fromTables_tabulated expandingSympy hft) (by simp)
  have hs := C67_expanding (theta := .num (1 / 2)) hv hphi (by simp [Expr.free])
  obtain ⟨easy, ⟨form, hf, he⟩, _⟩ := C67_easy_way expandingSympy expanding hv hphi (by simp [Expr.free])
    (θ := fun _ => ((1 / 2 : ℚ) : ℝ)) (fun r => by simp [Expr.eval]) hs
  have hff : FourierFormulas expandingSympy expanding exRepr (.num (1 / 2))
      (some (makeTensorReal expandingSympy tD)) (some (makeTensorReal expandingSympy tQ)) easy :=
    .easy hf (hs form hf) (by simp [Expr.free]) (fun r => ⟨((1 / 2 : ℚ) : ℝ), by simp [Expr.eval]⟩) he
  obtain ⟨hgood, hM, hnat, _⟩ := formToFform_symbols expandingSympy (formgen_reachable expandingSympy expanding hf).wf he
  obtain ⟨l, hl, _⟩ := FFormContainer.getFreeSymbols_ok expandingSympy hgood hnat
  have hdat : DataIs easy ⟨easy.fform.mapVals (fun _ => List.replicate 33 2), 16, 1, .num 0⟩ (fun _ _ => 2) := by
    refine fun k hk m h1 h2 => ⟨?_, 2, 0, by simp⟩
    rw [show easy.getM = 16 from hM] at h1 h2
    obtain ⟨a, ha⟩ := Dict.mem_keys.1 hk
    refine ⟨List.replicate 33 2, ?_, ⟨h1, h2⟩, ?_⟩
    · show Dict.get _ k = _
      rw [Dict.get_ok_iff, Dict.get?_mapVals, (Dict.get?_eq_some_iff hgood.wf).2 ha]
      rfl
    · rw [List.getElem?_replicate]
      exact if_pos (by show (m + (16 : ℕ)).toNat < 33; omega)
  obtain ⟨f, d₁, f', d₂, g1, g2, g3⟩ := C109_scaled expandingSympy expanding exRepr FitCases.compiler hft (by simp) hff rfl hdat
    (q := 1 / 4) (by norm_num) (.inr ⟨rfl, hl⟩) d false none
  have hsq : √(((1 / 4 : ℚ) : ℝ)) = 1 / 2 := by
    rw [show (((1 / 4 : ℚ) : ℝ)) = (1 / 2) ^ 2 by norm_num, Real.sqrt_sq (by norm_num)]
  refine ⟨_, _, easy, _, _, f, d₁, f', d₂, .inr ⟨rfl, hl⟩, hff, g1, g2, ?_⟩
  rw [g3 (fun _ => 3) (fun _ => 3 / 2) (by simp [Expr.free]) (fun s _ => by rw [hsq]; norm_num)]
  norm_num

end Shgpy
