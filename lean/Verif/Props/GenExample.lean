import Verif.Spec.GenExample
import Verif.Props.Lowered
import Verif.Props.Orientation
import Verif.Props.Degenerate
import Verif.Props.FitExample
import Verif.Props.CostExample
import Verif.Props.SaveFform

/-!
# C115: the scripts that generate formulas describe the crystals of the point group
-/

namespace Shgpy
open Spec PG TensorDef

section
variable (S : Sympy) (ex : Rewriting) (Rp : Repr) (C : Compiler)

theorem numMatrix_shape (R : Fin 3 → Fin 3 → ℚ) : IsMatrix 3 3 (numMatrix R) := rfl

theorem numMatrix_value (R : Fin 3 → Fin 3 → ℚ) (σ : Sym → ℂ) : HasValue (numMatrix R) σ (realMatrix R) := by
  intro i j
  simp [numMatrix, realMatrix, Expr.eval]

theorem numMatrix_free (R : Fin 3 → Fin 3 → ℚ) (s : Sym) : ¬ OccursIn (numMatrix R) s := by
  rintro ⟨idx, -, hs⟩
  unfold numMatrix at hs
  dsimp only at hs
  split_ifs at hs <;> cases hs

/-- The symbols of a tensor of a table that was made real. -/
theorem made_real_symbols {n : ℕ} {t : Nd Expr} {G : Set SymOp} (h : FromTable S n t G) {s : Sym} (hs : OccursIn (makeTensorReal S t) s) :
    ∃ s', OccursIn t s' ∧ s = realSym s'.name := by
  obtain ⟨h1, h2, h3⟩ := fromTable_facts S h
  have hreal := (prepared_facts h .real).2.2.1 s hs
  obtain ⟨idx, hidx, hs⟩ := hs
  rcases free_replace hs with hs | ⟨s', hs', hu⟩
  · rw [tableSym_real (h3 _ ⟨idx, hidx, hs⟩)] at hreal
    cases hreal
  · simp only [Expr.free, List.mem_singleton] at hu
    exact ⟨s', ⟨idx, hidx, hs'⟩, hu⟩

/-- Every real tensor of the crystal is a value of the tensor of the table; the parameters are elements of it. -/
theorem real_reaches_elements {n : ℕ} {u : Nd Expr} {G : Set SymOp} (h : TableTensor S n u G) {T : Tens n} (hT : T ∈ realTensors n G) :
    ∃ r : Sym → ℝ, (∀ s, OccursIn (makeTensorReal S u) s → ∃ j, (r s : ℂ) = T j) ∧ valueOf n (makeTensorReal S u) (realVal r) = T := by
  obtain ⟨hi, hsym, him⟩ := hT
  obtain ⟨h1, h2, h3⟩ := fromTable_facts S (tableTensor_from S h)
  obtain ⟨a1, a2, a3⟩ := C43_real S u (fun s hs _ => (h3 s hs).1)
  obtain ⟨σ, e, hj⟩ := tableTensor_reaches S h hi (.inl hsym)
  have e0 : ∀ s, OccursIn u s → (⟨s.name, 0⟩ : Sym) = s := by
    intro s hs
    obtain ⟨nm, tg⟩ := s
    obtain ⟨rfl, -⟩ := h3 _ hs
    rfl
  have e1 : ∀ s, OccursIn u s → ((σ s).re : ℂ) = σ s := by
    intro s hs
    obtain ⟨j, hj⟩ := hj s hs
    rw [hj]
    exact Complex.ext rfl (by rw [him j]; rfl)
  refine ⟨fun v => (σ ⟨v.name, 0⟩).re, fun s hs => ?_, ?_⟩
  · obtain ⟨s', hs', rfl⟩ := made_real_symbols S (tableTensor_from S h) hs
    obtain ⟨j, hj⟩ := hj s' hs'
    refine ⟨j, ?_⟩
    rw [← hj]
    show ((σ ⟨s'.name, 0⟩).re : ℂ) = _
    rw [e0 s' hs', e1 s' hs']
  · rw [← e]
    funext i
    have hr : Nd.InRange u.shape (List.ofFn (fun k => (i k).val)) := by rw [h1]; exact inRange_index i
    unfold valueOf
    rw [a2 _ hr]
    refine Expr.eval_congr _ (fun s hs => ?_)
    have hs' : OccursIn u s := ⟨_, hr, hs⟩
    simp only [realified, tableSym_real (h3 s hs'), if_true, realVal, realSym]
    rw [e0 s hs', e1 s hs']

/-- What the scripts know of their tensor. -/
theorem scriptTensor_facts {solve : Solver} (hsolve : GoodSolver S solve) {n : ℕ} (hn : n = 3 ∨ n = 4) {table : Dict Key (Nd Expr)} {g : Key}
    {t₀ t : Nd Expr} {G : Set SymOp} (h0 : Dict.get table g = .ok t₀) (ht : OfTable S n t₀ G) {R : Fin 3 → Fin 3 → ℚ}
    (h : scriptTensor S solve table g R = .ok t) :
    IsTensor 3 n t ∧ (∀ s, OccursIn t s → s.isReal = some true ∧ ∃ c ∈ s.name, c = 'x' ∨ c = 'y' ∨ c = 'z') ∧
      (∀ r : Sym → ℝ, ∃ T ∈ realTensors n G, valueOf n t (realVal r) = act (realMatrix R) T) ∧
      ∀ T ∈ realTensors n G, ∀ r₀ : Sym → ℝ, ∃ r : Sym → ℝ, (∀ s, ¬ OccursIn t s → r s = r₀ s) ∧
        (∀ s, OccursIn t s → ∃ j, (r s : ℂ) = T j) ∧ valueOf n t (realVal r) = act (realMatrix R) T := by
  unfold scriptTensor at h
  rw [h0, ok_bind] at h
  obtain ⟨u, hu, h⟩ := bind_ok h
  have htt : TableTensor S n u G := .particularized ht hsolve hu
  obtain ⟨p1, p2, p3, p4⟩ := prepared_facts (tableTensor_from S htt) .real
  obtain ⟨t', e1, e2, e3⟩ := transform_act S hn (numMatrix_shape R) p1
  rw [h] at e1
  cases e1
  have hocc : ∀ s, OccursIn t s → OccursIn (makeTensorReal S u) s := fun s hs =>
    (occursIn_transform S h hs).resolve_right (numMatrix_free R s)
  refine ⟨e2, fun s hs => ⟨p3 s (hocc s hs), ?_⟩, fun r => ⟨_, ?_, e3 _ _ (numMatrix_value R _)⟩, fun T hT r₀ => ?_⟩
  · obtain ⟨s', hs', rfl⟩ := made_real_symbols S (tableTensor_from S htt) (hocc s hs)
    exact ((fromTable_facts S (tableTensor_from S htt)).2.2 s' hs').2
  · obtain ⟨h1, h2, h3⟩ := fromTable_facts S (tableTensor_from S htt)
    obtain ⟨a1, a2, a3⟩ := C43_real S u (fun s hs _ => (h3 s hs).1)
    have hval : valueOf n (makeTensorReal S u) (realVal r) = valueOf n u (realified (realVal r)) := by
      funext i
      exact a2 _ (by rw [h1]; exact inRange_index i) _
    refine ⟨p2 _, ?_, fun i => ?_⟩
    · rw [hval]
      exact (((C55_particularized S hsolve.sound hsolve.complete ht [] hu).2 _).2 ⟨_, rfl⟩).2
    · exact Complex.conj_eq_iff_im.1 (made_real_conj S (tableTensor_from S htt) r i)
  · classical
    obtain ⟨r, b1, b2⟩ := real_reaches_elements S htt hT
    refine ⟨fun s => if OccursIn t s then r s else r₀ s, fun s hs => if_neg hs, fun s hs => ?_, ?_⟩
    · obtain ⟨j, hj⟩ := b1 s (hocc s hs)
      exact ⟨j, by dsimp only; rw [if_pos hs, hj]⟩
    · rw [← b2, ← e3 _ _ (numMatrix_value R _)]
      exact valueOf_congr e2 (fun s hs => by simp [realVal, hs])

/-- The script gets its tensor, if `particularize` succeeds. -/
theorem scriptTensor_ok {solve : Solver} {n : ℕ} (hn : n = 3 ∨ n = 4) {table : Dict Key (Nd Expr)} {g : Key} {t₀ u : Nd Expr}
    {G : Set SymOp} (h0 : Dict.get table g = .ok t₀) (ht : OfTable S n t₀ G) (hu : particularize S solve [] false t₀ = .ok u)
    (R : Fin 3 → Fin 3 → ℚ) : ∃ t, scriptTensor S solve table g R = .ok t := by
  have hsh : t₀.shape = List.replicate n 3 := (ofTable_facts ht).1
  have hsu : IsTensor 3 n (makeTensorReal S u) := by
    obtain ⟨m, rfl⟩ : ∃ m, n = m + 2 := by rcases hn with rfl | rfl <;> exact ⟨_, rfl⟩
    rcases particularize_cases S hsh hu with rfl | ⟨_, _, _, _, rfl, _⟩ <;> exact hsh
  obtain ⟨t', e1, -⟩ := transform_act S hn (numMatrix_shape R) hsu
  refine ⟨t', ?_⟩
  unfold scriptTensor
  rw [h0, ok_bind, hu, ok_bind, e1]

theorem pattern_coeff {d M : ℕ} (hd : d ≤ M) {f : ℝ → ℂ} (h : TrigDegree d f) (x : ℝ) : pattern M (fun m => integralCoeff f m) x = f x := by
  rw [TrigDegree.series h x]
  unfold pattern
  symm
  refine Finset.sum_subset (Finset.Icc_subset_Icc (by omega) (by omega)) (fun m hm hm' => ?_)
  rw [TrigDegree.coeff_zero h, zero_mul]
  rw [Finset.mem_Icc] at hm hm'
  rw [lt_abs]
  omega

theorem crystalOf_dipole {t : Nd Expr} {σ : Valuation} {T : Tens 3} (h : valueOf 3 t σ = T) :
    crystalOf (some t) none none σ = dipoleCrystal T := by
  refine Crystal.ext ?_ rfl rfl
  funext i j k
  show value3 t σ i j k = T ![i, j, k]
  rw [← h, valueOf3_eq]
  rfl

/-- The stored formula: its patterns for given values of the parameters. -/
theorem generated_patterns {theta : Expr} (hth : phi ∉ theta.free) {θ : ℝ} (hθ : ∀ r : Sym → ℝ, theta.eval (realVal r) = (θ : ℂ))
    (hex : ExpandsForms S ex theta) (hRp : ReadsNumbers Rp) {t : Nd Expr} (ht : IsTensor 3 3 t)
    (hreal : ∀ s, OccursIn t s → s.isReal = some true) (hphi : ¬ OccursIn t phi) (fs : Files) (save : Key) :
    ∃ form fform c, formgen S ex theta (some t) none none = .ok form ∧ formToFform S form 16 = .ok fform ∧
      loadFform S Rp (saveFform Rp fs fform save) save = .ok c ∧
      c.getKeys = [combo .P .P, combo .P .S, combo .S .P, combo .S .S] ∧ c.getM = 16 ∧
      ∀ F, FormulaIs c F → ∀ r, formulaPatterns F r = crystalPatterns (crystalOf (some t) none none (realVal r)) θ := by
  have hv : ValidTensors (some t) none none := valid_dipole ht hreal
  have hphi' : ¬ OccursInSome (some t) none none phi := by
    rintro ⟨u, hu | hu | hu, hs⟩ <;> cases hu
    exact hphi hs
  obtain ⟨form, hf, -⟩ := formgen_ok S ex (theta := theta) hv
  obtain ⟨fform, h1, h2, h3, h4⟩ := formToFform_supported S (formgen_reachable S ex hf) (hex t form ht hphi hf) le_rfl
  have hff : FourierFormulas S ex Rp theta (some t) none fform :=
    .easy hf (hex t form ht hphi hf) hth (fun r => ⟨θ, hθ r⟩) h1
  have hr := fourierFormulas_reachable S ex Rp hff
  obtain ⟨c, c1, c2, c3, c4, c5⟩ := C33_numeric_arrays_partial S Rp fs save hr h3 hRp
  obtain ⟨form', hf', hd⟩ := formgen_ok S ex (theta := theta) hv
  rw [hf] at hf'; cases hf'
  have hkeys : c.getKeys = [combo .P .P, combo .P .S, combo .S .P, combo .S .S] := c2.trans (h2.trans hd.1)
  refine ⟨form, fform, c, hf, h1, c1, hkeys, c3, fun F hF r => ?_⟩
  funext p q x
  unfold formulaPatterns crystalPatterns
  rw [← pattern_coeff (M := 16) (by norm_num) (intensity_degree _ θ p q) x]
  unfold pattern
  refine Finset.sum_congr rfl (fun m hm => ?_)
  congr 1
  rw [Finset.mem_Icc] at hm
  obtain ⟨e, he, hval⟩ := hd.2 p q
  obtain ⟨a, o, ha, ho, hvo⟩ := c5 _ _ _ (h4 _ e he m hm)
  have hmem : combo p q ∈ c.getKeys := by rw [hkeys]; cases p <;> cases q <;> simp
  obtain ⟨a', o', ha', ho', hvo'⟩ := hF _ hmem m (by rw [c3]; exact hm.1) (by rw [c3]; exact hm.2)
  rw [ha] at ha'; cases ha'
  have : o = o' := Option.some.inj (ho.2.symm.trans ho'.2)
  subst this
  dsimp only
  rw [← hvo', hvo]
  dsimp only
  congr 1
  funext x
  rw [ofAngle_real, hval (withPhi r x) θ (hθ _), crystalOf_withPhi hv.shapes hphi']
  simp [withPhi]

theorem no_letter {s : Sym} {n : Key} (h : ∃ c ∈ s.name, c = 'x' ∨ c = 'y' ∨ c = 'z') (hx : 'x' ∉ n) (hy : 'y' ∉ n) (hz : 'z' ∉ n) :
    s.name ≠ n := by
  rintro rfl
  obtain ⟨c, hc, rfl | rfl | rfl⟩ := h <;> contradiction

theorem dipole_entry {g : Key} {gens : List SymOp} (hg : (g, gens) ∈ pointGroups) :
    ∃ t₀, Dict.get (dipole S) g = .ok t₀ ∧ OfTable S 3 t₀ (generated gens) := by
  obtain ⟨t, h1, -⟩ := (C55_dipole S).2 g gens hg
  exact ⟨t, h1, .dipole hg h1⟩

/-- **C115.**  `gen_fform_from_form_example.py`, for every point group for which sympy solves the equations of `particularize`, every
matrix `R` and every number for the angle of incidence: the script succeeds, changes no other file, and the stored file is that of a
Fourier formula whose patterns, for all values of the parameters, are exactly the patterns of the intensity of the crystals of the point
group, turned by `R`. -/
theorem C115_formula {solve : Solver} (hsolve : GoodSolver S solve) {g : Key} {gens : List SymOp} (hg : (g, gens) ∈ pointGroups)
    {t₀ u : Nd Expr} (h0 : Dict.get (dipole S) g = .ok t₀) (hu : particularize S solve [] false t₀ = .ok u)
    (R : Fin 3 → Fin 3 → ℚ) {theta : Expr} (hth : phi ∉ theta.free) {θ : ℝ} (hθ : ∀ r : Sym → ℝ, theta.eval (realVal r) = (θ : ℂ))
    (hex : ExpandsForms S ex theta) (hRp : ReadsNumbers Rp) (fs : Files) (save : Key) :
    ∃ fs', genFformExample S solve ex Rp fs g R theta save = .ok fs' ∧ (∀ n, n ≠ save → fs' n = fs n) ∧
      ∃ c, loadFform S Rp fs' save = .ok c ∧ c.getKeys = [combo .P .P, combo .P .S, combo .S .P, combo .S .S] ∧ c.getM = 16 ∧
        ∀ F, FormulaIs c F → {P | ∃ r, P = formulaPatterns F r} =
          {P | ∃ T ∈ realTensors 3 (generated gens), P = crystalPatterns (dipoleCrystal (act (realMatrix R) T)) θ} := by
  have ht : OfTable S 3 t₀ (generated gens) := .dipole hg h0
  obtain ⟨t, ht'⟩ := scriptTensor_ok S (.inl rfl) h0 ht hu R
  obtain ⟨f1, f2, f3, f4⟩ := scriptTensor_facts S hsolve (.inl rfl) h0 ht ht'
  have hphi : ¬ OccursIn t phi := fun hs =>
    no_letter (f2 _ hs).2 (n := phi.name) (by decide) (by decide) (by decide) rfl
  obtain ⟨form, fform, c, g1, g2, g3, g4, g5, g6⟩ :=
    generated_patterns S ex Rp hth hθ hex hRp f1 (fun s hs => (f2 s hs).1) hphi fs save
  refine ⟨saveFform Rp fs fform save, ?_, fun n hn => if_neg hn, c, g3, g4, g5, fun F hF => ?_⟩
  · unfold genFformExample
    rw [ht', ok_bind, g1, ok_bind, g2, ok_bind]
    rfl
  · ext P
    constructor
    · rintro ⟨r, rfl⟩
      obtain ⟨T, hT, e⟩ := f3 r
      exact ⟨T, hT, by rw [g6 F hF r, crystalOf_dipole e]⟩
    · rintro ⟨T, hT, rfl⟩
      obtain ⟨r, -, -, e⟩ := f4 T hT (fun _ => 0)
      exact ⟨r, by rw [g6 F hF r, crystalOf_dipole e]⟩

/-- The deviation of the formula is that of the crystal. -/
theorem turnedSquares_crystal {F : Key → ℤ → Valuation → ℂ} {r : Sym → ℝ} {T : Tens 3} {θ : ℝ}
    (h : formulaPatterns F r = crystalPatterns (dipoleCrystal T) θ) (N : Key → ℕ) (y : Key → ℝ → ℝ) :
    turnedSquares [combo .P .P, combo .P .S, combo .S .P, combo .S .S] 16 F N y r = crystalSquares T θ (r psi) N y := by
  have key : ∀ p q, gridMean (N (combo p q)) (fun x => ‖(y (combo p q) x : ℂ) -
      pattern 16 (fun m => F (combo p q) m (realVal r)) (x + r psi)‖ ^ 2) =
      gridMean (N (combo p q)) (fun x => |y (combo p q) x - intensity (dipoleCrystal T) θ (x + r psi) p q| ^ 2) := by
    intro p q
    congr 1
    funext x
    have := congrFun (congrFun (congrFun h p) q) (x + r psi)
    unfold formulaPatterns crystalPatterns at this
    rw [this, ← Complex.ofReal_sub, Complex.norm_real, Real.norm_eq_abs]
  unfold turnedSquares crystalSquares
  simp only [List.map_cons, List.map_nil, key]

theorem sqrt_le_beyond {a b R η : ℝ} (hR : 0 ≤ R) (hb : R ≤ b) (hη : 0 ≤ η) (h : √(a - R) ≤ √(b - R) + η) : √a ≤ √b + η := by
  have h1 : √(b - R) ≤ √b := Real.sqrt_le_sqrt (by linarith)
  have h2 : a - R ≤ (√(b - R) + η) ^ 2 := (Real.sqrt_le_left (by positivity)).1 h
  rw [Real.sqrt_le_left (by positivity)]
  have h3 : √(b - R) ^ 2 = b - R := Real.sq_sqrt (by linarith)
  have h4 : √b ^ 2 = b := Real.sq_sqrt (by linarith)
  nlinarith [Real.sqrt_nonneg (b - R)]

/-- **C115, the best tensor.**  The two scripts `gen_fform_from_form_example.py` and `fit_fform_example.py`, one after the other, for every
point group: the curve that is drawn is the intensity of a crystal of the point group, turned by `R` and by some angle about the normal,
and no crystal of the point group with elements between -2 and 2 has a root mean square deviation from the data that is smaller by more
than the errors of the optimizer and of the rounding. -/
theorem C115_best_tensor {solve : Solver} (hsolve : GoodSolver S solve) {g : Key} {gens : List SymOp} (hg : (g, gens) ∈ pointGroups)
    (R : Fin 3 → Fin 3 → ℚ) {theta : Expr} (hth : phi ∉ theta.free) {θ : ℝ} (hθ : ∀ r : Sym → ℝ, theta.eval (realVal r) = (θ : ℂ))
    (hex : ExpandsForms S ex theta) (hRp : ReadsNumbers Rp) {fs files : Files} {fformName : Key}
    (hgen : genFformExample S solve ex Rp fs g R theta fformName = .ok files)
    {float : Key → Option ℝ} {csv : CsvFiles} {interp : Interp} {names : Dict Key Key} {units : Key} {dat : DataContainer ℝ}
    (hdat : loadData float csv names units false = .ok dat) (hk : ∀ p q, combo p q ∈ dat.getKeys) {N : Key → ℕ} {y : Key → ℝ → ℝ}
    (hi : ∀ k pts, dat.getPc k sRadians = .ok pts → 32 < pts.length ∧ interp pts = .ok (y k) ∧ pts.length = N k)
    {ε : ℝ} (hε : 0 ≤ ε) {opt : Optimizer LSCall} (ho : LeastSquaresTo ε opt) (hfl : ReturnsFloats opt) {δ : ℝ} (hδ : 0 ≤ δ)
    {rnd : FDataContainer → FDataContainer} (hrnd : RoundsTo δ rnd) (d : Disk) :
    (∀ e, fitExample S C Rp float csv files interp rnd opt d names units fformName = .error e → ∃ call, opt call = .error e) ∧
    (0 < ε → FindsFloats ε opt → ∃ out, fitExample S C Rp float csv files interp rnd opt d names units fformName = .ok out) ∧
    ∀ dat' ret fit w, fitExample S C Rp float csv files interp rnd opt d names units fformName = .ok (dat', ret, fit, w) →
      dat' = dat ∧ w = [] ∧ ∃ T ∈ realTensors 3 (generated gens), ∃ ψ, |ψ| ≤ Real.pi ∧
        (∀ p q, fit.getPc (combo p q) sRadians = .ok (sampled 1000 (fun x =>
          intensity (dipoleCrystal (act (realMatrix R) T)) θ (x + ψ) p q))) ∧
        ∀ T' ∈ realTensors 3 (generated gens), (∀ i, ‖T' i‖ ≤ 2) → ∀ ψ', |ψ'| ≤ Real.pi →
          √(crystalSquares (act (realMatrix R) T) θ ψ N y) ≤ √(crystalSquares (act (realMatrix R) T') θ ψ' N y) +
            (ε + 2 * (δ * √(4 * 33))) := by
  obtain ⟨t₀, h0, ht⟩ := dipole_entry S hg
  unfold genFformExample at hgen
  obtain ⟨t, ht', h⟩ := bind_ok hgen
  obtain ⟨f1, f2, f3, f4⟩ := scriptTensor_facts S hsolve (.inl rfl) h0 ht ht'
  have hphi : ¬ OccursIn t phi := fun hs =>
    no_letter (f2 _ hs).2 (n := phi.name) (by decide) (by decide) (by decide) rfl
  have hpsi : ¬ OccursIn t psi := fun hs =>
    no_letter (f2 _ hs).2 (n := psi.name) (by decide) (by decide) (by decide) rfl
  obtain ⟨form, fform, c, g1, g2, g3, g4, g5, g6⟩ :=
    generated_patterns S ex Rp hth hθ hex hRp f1 (fun s hs => (f2 s hs).1) hphi fs fformName
  rw [g1, ok_bind, g2, ok_bind] at h
  cases h
  obtain ⟨F, hF⟩ : ∃ F, FormulaIs c F := by
    refine formulaIs_exists S ?_
    have g3' := g3
    unfold loadFform at g3'
    cases hf : saveFform Rp fs fform fformName fformName with
    | none => rw [hf] at g3'; cases g3'
    | some d =>
      rw [hf] at g3'
      obtain ⟨d', _, g3'⟩ := bind_ok g3'
      exact ⟨_, _, _, [], g3', rfl⟩
  obtain ⟨a1, a2, a3⟩ := C113_fit S C hdat g3 hF (by
    intro k hkk
    rw [g4] at hkk
    simp only [List.mem_cons, List.not_mem_nil, or_false] at hkk
    rcases hkk with rfl | rfl | rfl | rfl <;> exact hk _ _) hi hε ho hfl hδ hrnd d
  refine ⟨a1, a2, fun dat' ret fit w hout => ?_⟩
  obtain ⟨b1, b2, r, hbox, -, -, b4, b5, R₀, hR₀, b6⟩ := a3 dat' ret fit w hout
  rw [g4] at b5 b6
  obtain ⟨T, hT, e⟩ := f3 r
  have hpat : ∀ {r : Sym → ℝ} {T : Tens 3}, valueOf 3 t (realVal r) = act (realMatrix R) T →
      formulaPatterns F r = crystalPatterns (dipoleCrystal (act (realMatrix R) T)) θ := fun {r T} e => by
    rw [g6 F hF r, crystalOf_dipole e]
  refine ⟨b1, b2, T, hT, r psi, hbox.1, fun p q => ?_, fun T' hT' hle ψ' hψ' => ?_⟩
  · rw [b5 (combo p q) (by cases p <;> cases q <;> simp)]
    congr 2
    funext x
    have := congrFun (congrFun (congrFun (hpat e) p) q) (x + r psi)
    unfold formulaPatterns crystalPatterns at this
    rw [this]
    rfl
  · classical
    obtain ⟨r', c1, c2, c3⟩ := f4 T' hT' (fun s => if s = psi then ψ' else 0)
    have hr'psi : r' psi = ψ' := by rw [c1 _ hpsi, if_pos rfl]
    have hbox' : InBox r' := by
      refine ⟨by rw [hr'psi]; exact hψ', fun s hs => ?_⟩
      by_cases hso : OccursIn t s
      · obtain ⟨j, hj⟩ := c2 s hso
        have := hle j
        rwa [← hj, Complex.norm_real, Real.norm_eq_abs] at this
      · rw [c1 s hso, if_neg hs]
        norm_num
    have key := (b6 r').2 hbox'
    have k2 := (b6 r').1
    rw [turnedSquares_crystal (hpat e)] at key
    rw [turnedSquares_crystal (hpat c3), hr'psi] at key k2
    have hη : (0 : ℝ) ≤ ε + 2 * (δ * √(4 * 33)) := by positivity
    refine sqrt_le_beyond hR₀ k2 hη ?_
    simpa using key

/-- The substitutions of the script are numbers for all symbols but `phi`. -/
theorem randomSubs_facts (draw : ℕ → ℚ) (l : List Sym) : Dict.WF (randomSubs draw l) ∧
    (∀ s, s ∈ Dict.keys (randomSubs draw l) ↔ s ∈ l ∧ s ≠ phi) ∧ ∀ p ∈ randomSubs draw l, ∃ i, p.2 = .num (draw i) := by
  have key : ∀ (q : List (Sym × ℕ)) (d : Dict Sym Expr), Dict.WF d → (∀ p ∈ d, ∃ i, p.2 = .num (draw i)) →
      Dict.WF (q.foldl (fun d p => if p.1 ≠ phi then Dict.set d p.1 (.num (draw p.2)) else d) d) ∧
      (∀ s, s ∈ Dict.keys (q.foldl (fun d p => if p.1 ≠ phi then Dict.set d p.1 (.num (draw p.2)) else d) d) ↔
        s ∈ Dict.keys d ∨ s ≠ phi ∧ s ∈ q.map Prod.fst) ∧
      ∀ p ∈ q.foldl (fun d p => if p.1 ≠ phi then Dict.set d p.1 (.num (draw p.2)) else d) d, ∃ i, p.2 = .num (draw i) := by
    intro q
    induction q with
    | nil => intro d h1 h2; exact ⟨h1, by simp, h2⟩
    | cons a q ih =>
      intro d h1 h2
      rw [List.foldl_cons]
      by_cases ha : a.1 = phi
      · rw [if_neg (by simpa using ha)]
        obtain ⟨i1, i2, i3⟩ := ih d h1 h2
        refine ⟨i1, fun s => ?_, i3⟩
        rw [i2]
        simp only [List.map_cons, List.mem_cons]
        constructor
        · rintro (h | ⟨h, h'⟩)
          · exact .inl h
          · exact .inr ⟨h, .inr h'⟩
        · rintro (h | ⟨h, rfl | h'⟩)
          · exact .inl h
          · exact absurd ha h
          · exact .inr ⟨h, h'⟩
      · rw [if_pos ha]
        obtain ⟨i1, i2, i3⟩ := ih (Dict.set d a.1 (.num (draw a.2))) (Dict.WF_set h1 _ _) (by
          intro p hp
          obtain ⟨k, v⟩ := p
          rw [← Dict.get?_eq_some_iff (Dict.WF_set h1 _ _), Dict.get?_set] at hp
          split_ifs at hp
          · cases hp; exact ⟨_, rfl⟩
          · exact h2 _ ((Dict.get?_eq_some_iff h1).1 hp))
        refine ⟨i1, fun s => ?_, i3⟩
        rw [i2, Dict.mem_keys_set]
        simp only [List.map_cons, List.mem_cons]
        constructor
        · rintro ((h | h) | ⟨h, h'⟩)
          · exact .inr ⟨h ▸ ha, .inl h⟩
          · exact .inl h
          · exact .inr ⟨h, .inr h'⟩
        · rintro (h | ⟨h, h' | h'⟩)
          · exact .inl (.inr h)
          · exact .inl (.inl h')
          · exact .inr ⟨h, h'⟩
  obtain ⟨k1, k2, k3⟩ := key l.zipIdx [] (by simp [Dict.WF, Dict.keys]) (by simp)
  refine ⟨k1, fun s => ?_, k3⟩
  unfold randomSubs
  rw [k2]
  simp [Dict.keys, and_comm]

/-- **C115, curves.**  `gen_form_example.py`, for every point group, every matrix `R`, every number for the angle of incidence and all
numbers that are drawn: the curves are the intensities of a crystal of the point group, turned by `R`, at 1000 angles.  A `ValueError` is
raised only if the intensities of such a crystal do not depend on the azimuth. -/
theorem C115_curves {solve : Solver} (hsolve : GoodSolver S solve) {g : Key} {gens : List SymOp} (hg : (g, gens) ∈ pointGroups)
    {t₀ u : Nd Expr} (h0 : Dict.get (dipole S) g = .ok t₀) (hu : particularize S solve [] false t₀ = .ok u)
    (R : Fin 3 → Fin 3 → ℚ) {theta : Expr} {θ : ℝ} (hθ : ∀ r : Sym → ℝ, theta.eval (realVal r) = (θ : ℂ)) (draw : ℕ → ℚ) :
    ∃ T ∈ realTensors 3 (generated gens),
      (∃ dat, genFormExample S solve draw g R theta = .ok (dat, []) ∧
        dat.getKeys = [combo .P .P, combo .P .S, combo .S .P, combo .S .S] ∧ ∀ p q, dat.getPc (combo p q) sRadians =
          .ok (sampled 1000 (fun x => intensity (dipoleCrystal (act (realMatrix R) T)) θ x p q))) ∨
      (genFormExample S solve draw g R theta = .error .valueError ∧ ∀ p q x x',
        intensity (dipoleCrystal (act (realMatrix R) T)) θ x p q = intensity (dipoleCrystal (act (realMatrix R) T)) θ x' p q) := by
  classical
  have ht : OfTable S 3 t₀ (generated gens) := .dipole hg h0
  obtain ⟨t, ht'⟩ := scriptTensor_ok S (.inl rfl) h0 ht hu R
  obtain ⟨f1, f2, f3, f4⟩ := scriptTensor_facts S hsolve (.inl rfl) h0 ht ht'
  have hphi : ¬ OccursIn t phi := fun hs =>
    no_letter (f2 _ hs).2 (n := phi.name) (by decide) (by decide) (by decide) rfl
  have hreal : ∀ s, OccursIn t s → s.isReal = some true := fun s hs => (f2 s hs).1
  have hv : ValidTensors (some t) none none := valid_dipole f1 hreal
  have hphi' : ¬ OccursInSome (some t) none none phi := by
    rintro ⟨u, hu | hu | hu, hs⟩ <;> cases hu
    exact hphi hs
  obtain ⟨P, h1, _, _, h2⟩ := dipoleFields_ok S theta f1
  obtain ⟨form, hc', hd'⟩ := formsOf_ok S (theta := theta) (X := crystalOf (some t) none none) (Sp := P.1) (Ss := P.2)
    (fun r θ hθ => h2 r θ hθ)
  have hform : formgenJustDipole S theta t = .ok form := by
    unfold formgenJustDipole
    rw [assertRealParams_ok hreal, ok_bind, h1, ok_bind, hc']
  have hfr : form.Reachable S := by
    unfold formsOf fourForms at hc'
    exact ⟨_, _, [], hc', rfl⟩
  obtain ⟨l, hl, hmem⟩ := FormContainer.getFreeSymbols_ok S hfr.wf
  obtain ⟨s1, s2, s3⟩ := randomSubs_facts draw (S.sortSyms l)
  set subs := randomSubs draw (S.sortSyms l) with hsubs
  have hn : Numeric subs := by
    intro p hp
    obtain ⟨i, hi⟩ := s3 p hp
    rw [hi]; rfl
  let r : Sym → ℝ := fun s => match Dict.get? subs s with
    | some (.num q) => q
    | _ => 0
  have hag : Agrees (realVal r) subs := by
    intro s v hv
    rw [Dict.get_ok_iff] at hv
    obtain ⟨i, hi⟩ := s3 _ (Dict.mem_of_get? hv)
    dsimp only at hi
    subst hi
    show ((r s : ℝ) : ℂ) = _
    simp only [r, hv, Expr.eval]
    norm_cast
  obtain ⟨T, hT, e⟩ := f3 r
  have hval : ∀ p q, ∃ e', form.getPc (combo p q) = .ok e' ∧ ∀ x : ℝ, e'.eval (realVal (withPhi r x)) =
      (intensity (dipoleCrystal (act (realMatrix R) T)) θ x p q : ℂ) := by
    intro p q
    obtain ⟨e', he, hval⟩ := hd'.2 p q
    refine ⟨e', he, fun x => ?_⟩
    rw [hval (withPhi r x) θ (hθ _), crystalOf_withPhi hv.shapes hphi', crystalOf_dipole e]
    simp [withPhi]
  have hrun : genFormExample S solve draw g R theta = formToDat S form subs 1000 := by
    unfold genFormExample
    rw [ht', ok_bind, hform, ok_bind, hl, ok_bind]
  have hocc : ∀ k e', form.getPc k = .ok e' → ∀ s ∈ e'.free, s ∈ S.sortSyms l := by
    intro k e' he s hs
    rw [S.mem_sortSyms, hmem]
    exact ⟨k, e', Dict.mem_of_get? (Dict.get_ok_iff.1 he), hs⟩
  have hafter : ∀ k e', (afterSubs S form subs).getPc k = .ok e' ↔ ∃ e₀, form.getPc k = .ok e₀ ∧ e' = S.subs subs e₀ := by
    intro k e'
    rw [afterSubs_eq S hfr.wf]
    unfold FormContainer.getPc
    rw [Dict.get_ok_iff, Dict.get?_mapVals]
    constructor
    · intro h
      cases h0 : Dict.get? form.form k with
      | none => rw [h0] at h; cases h
      | some e₀ => rw [h0] at h; cases h; exact ⟨e₀, Dict.get_ok_iff.2 h0, rfl⟩
    · rintro ⟨e₀, h, rfl⟩
      rw [Dict.get_ok_iff.1 h]; rfl
  have honly : ∀ s, Occurs (afterSubs S form subs) s → s = phi := by
    rintro s ⟨k, e', he, hs⟩
    obtain ⟨e₀, he₀, rfl⟩ := (hafter k e').1 he
    by_contra hne
    obtain ⟨a1, a2⟩ := S.free_subs hn hs
    exact a2 ((s2 s).2 ⟨hocc k e₀ he₀ s a1, hne⟩)
  refine ⟨T, hT, ?_⟩
  rw [hrun]
  by_cases hall : ∀ s, Occurs (afterSubs S form subs) s ↔ s = phi
  · left
    obtain ⟨dat, d1, d2, d3⟩ := C30_samples S hfr s1 hn (N := 1000) (by norm_num) hall
    refine ⟨dat, d1, d2.trans hd'.1, fun p q => ?_⟩
    obtain ⟨e', he, hx⟩ := hval p q
    rw [d3 _ hag (combo p q) _ ⟨e', he, fun _ => rfl⟩]
    congr 2
    funext x
    have := ofAngle_real e' r x
    unfold ofAngle at this
    rw [this, hx]
    rfl
  · right
    refine ⟨C30_only_phi S hfr s1 1000 hall, fun p q x x' => ?_⟩
    have hno : ¬ Occurs (afterSubs S form subs) phi := fun h => hall (fun s => ⟨honly s, fun hs => hs ▸ h⟩)
    obtain ⟨e', he, hx⟩ := hval p q
    have hsub : ∀ y : ℝ, e'.eval (realVal (withPhi r y)) = (S.subs subs e').eval (realVal r) := by
      intro y
      have hagy : Agrees (realVal (withPhi r y)) subs := by
        intro s v hv
        have hs : s ≠ phi := ((s2 s).1 (Dict.mem_keys_of_mem (Dict.mem_of_get? (Dict.get_ok_iff.1 hv)))).2
        rw [show realVal (withPhi r y) s = realVal r s by simp [realVal, withPhi, hs], hag s v hv]
        refine Expr.eval_congr _ (fun u hu => ?_)
        rw [hn _ (Dict.mem_of_get? (Dict.get_ok_iff.1 hv))] at hu
        cases hu
      have e1 : (S.subs subs e').eval (realVal (withPhi r y)) = e'.eval (realVal (withPhi r y)) := by
        rw [S.eval_subs, assigned_self (fun p hp => (hagy p.1 p.2 (Dict.get_ok_iff.2 ((Dict.get?_eq_some_iff s1).2 hp))).symm)]
      rw [← e1]
      refine Expr.eval_congr _ (fun s hs => ?_)
      have : s ≠ phi := by
        rintro rfl
        exact hno ⟨_, _, (hafter _ _).2 ⟨e', he, rfl⟩, hs⟩
      simp [realVal, withPhi, this]
    have := (hx x).symm.trans ((hsub x).trans ((hsub x').symm.trans (hx x')))
    exact_mod_cast this

theorem symmetric3_iff (T : Tens 3) : SymmetricTensor T ↔ ∀ a b c : Fin 3, T ![a, b, c] = T ![a, c, b] := by
  constructor
  · intro h a b c
    exact h _ _ [a] b c rfl rfl
  · intro h i j I a b hi hj
    rw [vec3_eta i] at hi ⊢
    rw [vec3_eta j] at hj ⊢
    obtain ⟨x, rfl⟩ : ∃ x, I = [x] := by
      have : I.length = 1 := by simpa using congrArg List.length hi
      exact List.length_eq_one_iff.1 this
    simp only [List.ofFn_succ, List.ofFn_zero, List.cons_append, List.nil_append, List.cons.injEq, Matrix.cons_val_zero, Fin.succ_zero_eq_one,
      Matrix.cons_val_one, Fin.succ_one_eq_two, Matrix.cons_val, and_true] at hi hj
    obtain ⟨h0, h1, h2⟩ := hi
    obtain ⟨g0, g1, g2⟩ := hj
    rw [h0, h1, h2, g0, g1, g2]
    exact h _ _ _

theorem act_real {A : SymOp} {T : Tens 3} (hs : SymmetricTensor T) (hr : ∀ i, (T i).im = 0) :
    SymmetricTensor (act A T) ∧ ∀ i, (act A T i).im = 0 := by
  constructor
  · rw [symmetric3_iff] at hs ⊢
    intro a b c
    rw [act3, act3]
    refine Finset.sum_congr rfl (fun i _ => ?_)
    rw [Finset.sum_comm]
    refine Finset.sum_congr rfl (fun j _ => Finset.sum_congr rfl (fun k _ => ?_))
    rw [hs i k j]
    ring
  · intro i
    unfold act
    rw [Complex.im_sum]
    refine Finset.sum_eq_zero (fun j _ => ?_)
    rw [← Complex.ofReal_prod, Complex.im_ofReal_mul, hr, mul_zero]

/-- The tensors of the turned crystals are those of the crystals, turned. -/
theorem realTensors_turned {R : SymOp} (hR : Orthogonal R) (G : Set SymOp) (T' : Tens 3) :
    T' ∈ realTensors 3 (turnedBy R G) ↔ ∃ T ∈ realTensors 3 G, T' = act R T := by
  constructor
  · rintro ⟨h1, h2, h3⟩
    have e := (act_inj hR T').2
    refine ⟨act R.transpose T', ⟨?_, act_real h2 h3⟩, e.symm⟩
    rw [← invariant_turned hR, e]
    exact h1
  · rintro ⟨T, ⟨h1, h2, h3⟩, rfl⟩
    exact ⟨(invariant_turned hR G T).2 h1, act_real h2 h3⟩

/-- **C115, the turned point group.**  If `R` is orthogonal, the patterns of the formula that the script stores are those of the crystals
with the point group turned by `R`: it is the formula for the crystal in that orientation. -/
theorem C115_orientation {solve : Solver} (hsolve : GoodSolver S solve) {g : Key} {gens : List SymOp} (hg : (g, gens) ∈ pointGroups)
    {t₀ u : Nd Expr} (h0 : Dict.get (dipole S) g = .ok t₀) (hu : particularize S solve [] false t₀ = .ok u)
    {R : Fin 3 → Fin 3 → ℚ} (hR : Orthogonal (realMatrix R)) {theta : Expr} (hth : phi ∉ theta.free) {θ : ℝ}
    (hθ : ∀ r : Sym → ℝ, theta.eval (realVal r) = (θ : ℂ)) (hex : ExpandsForms S ex theta) (hRp : ReadsNumbers Rp) (fs : Files) (save : Key) :
    ∃ fs' c, genFformExample S solve ex Rp fs g R theta save = .ok fs' ∧ loadFform S Rp fs' save = .ok c ∧
      ∀ F, FormulaIs c F → {P | ∃ r, P = formulaPatterns F r} =
        {P | ∃ T ∈ realTensors 3 (turnedBy (realMatrix R) (generated gens)), P = crystalPatterns (dipoleCrystal T) θ} := by
  obtain ⟨fs', h1, -, c, h2, -, -, h3⟩ := C115_formula S ex Rp hsolve hg h0 hu R hth hθ hex hRp fs save
  refine ⟨fs', c, h1, h2, fun F hF => ?_⟩
  rw [h3 F hF]
  ext P
  constructor
  · rintro ⟨T, hT, rfl⟩
    exact ⟨_, (realTensors_turned hR _ _).2 ⟨T, hT, rfl⟩, rfl⟩
  · rintro ⟨T', hT', rfl⟩
    obtain ⟨T, hT, rfl⟩ := (realTensors_turned hR _ _).1 hT'
    exact ⟨T, hT, rfl⟩

end

theorem exRepr_reads : ReadsNumbers exRepr := by
  intro re im
  refine ⟨(PyObj.native re im).sympify Sympy.plain, exRepr.round_trip _, fun σ => ?_⟩
  simp only [PyObj.sympify]
  split
  · rename_i h
    simp [Expr.eval, h]
  · rw [Sympy.plain.eval_norm]
    simp [Expr.eval, Expr.evalSum, Expr.evalProd]

/-- A sympy that expands whatever can be expanded returns the formulas in a shape that the table covers. -/
theorem expanding_forms {theta : Expr} (hth : phi ∉ theta.free) : ExpandsForms expandingSympy expanding theta := by
  intro t form ht hphi hf k e hk
  have H := graded_trigSum expandingSympy expanding hth
  have hs : RightShapes (some t) none none := ⟨fun _ h => (by cases h; exact ht), fun _ h => (by cases h), fun _ h => (by cases h)⟩
  have hp : ¬ OccursInSome (some t) none none phi := by
    rintro ⟨_, h | h | h, hs⟩ <;> cases h
    exact hphi hs
  rcases formgen_graded H (d := 4) (.inl rfl) hs (tensors_trigSum hp) hf hk with ⟨x, hx, rfl⟩ | ⟨x, y, hx, hy, rfl⟩
  · exact expandAll_supported hx
  · exact expandAll_supported (H.add2 (H.run hx) (H.run hy))

/-- A matrix with rational entries that is orthogonal: the turn about `z` by the angle with the cosine 3/5. -/
def turn35 (i j : Fin 3) : ℚ := ![![3 / 5, -4 / 5, 0], ![4 / 5, 3 / 5, 0], ![0, 0, 1]] i j

theorem turn35_orthogonal : Orthogonal (realMatrix turn35) := by
  unfold Orthogonal
  ext i j
  rw [Matrix.mul_apply, Fin.sum_univ_three]
  fin_cases i <;> fin_cases j <;> simp [realMatrix, turn35] <;> norm_num

theorem T_mem : ∃ gens, ((['T'] : Key), gens) ∈ pointGroups := ⟨_, by simp [pointGroups]; rfl⟩

theorem T_entry (S : Sympy) : Dict.get (dipole S) ['T'] = .ok (tensorArray S [] 3 dipole_T) := rfl

/-- The hypotheses of `C115_formula` and `C115_orientation` are met, for the point group `T` and a turn. -/
example : ∃ gens fs' c, ((['T'] : Key), gens) ∈ pointGroups ∧
    genFformExample expandingSympy (solverT expandingSympy) expanding exRepr (fun _ => none) ['T'] turn35 (.num (1 / 2)) ['s'] = .ok fs' ∧
    loadFform expandingSympy exRepr fs' ['s'] = .ok c ∧ ∀ F, FormulaIs c F → {P | ∃ r, P = formulaPatterns F r} =
      {P | ∃ T ∈ realTensors 3 (turnedBy (realMatrix turn35) (generated gens)), P = crystalPatterns (dipoleCrystal T) ((1 / 2 : ℚ) : ℝ)} := by
  obtain ⟨gens, hg⟩ := T_mem
  obtain ⟨fs', c, h⟩ := C115_orientation expandingSympy expanding exRepr (solverT_good _) hg (T_entry _) (particularizeT _)
    turn35_orthogonal (theta := .num (1 / 2)) (by simp [Expr.free]) (θ := ((1 / 2 : ℚ) : ℝ)) (fun r => by simp [Expr.eval])
    (expanding_forms (by simp [Expr.free])) exRepr_reads (fun _ => none) ['s']
  exact ⟨gens, fs', c, hg, h⟩

/-- The hypotheses of `C115_curves` are met. -/
example : ∃ gens, ((['T'] : Key), gens) ∈ pointGroups ∧ ∃ T ∈ realTensors 3 (generated gens),
    (∃ dat, genFormExample Sympy.plain (solverT Sympy.plain) (fun i => i + 1) ['T'] turn35 (.num (1 / 2)) = .ok (dat, []) ∧
      dat.getKeys = [combo .P .P, combo .P .S, combo .S .P, combo .S .S] ∧ ∀ p q, dat.getPc (combo p q) sRadians =
        .ok (sampled 1000 (fun x => intensity (dipoleCrystal (act (realMatrix turn35) T)) ((1 / 2 : ℚ) : ℝ) x p q))) ∨
    (genFormExample Sympy.plain (solverT Sympy.plain) (fun i => i + 1) ['T'] turn35 (.num (1 / 2)) = .error .valueError ∧ ∀ p q x x',
      intensity (dipoleCrystal (act (realMatrix turn35) T)) ((1 / 2 : ℚ) : ℝ) x p q =
        intensity (dipoleCrystal (act (realMatrix turn35) T)) ((1 / 2 : ℚ) : ℝ) x' p q) := by
  obtain ⟨gens, hg⟩ := T_mem
  exact ⟨gens, hg, C115_curves Sympy.plain (solverT_good _) hg (T_entry _) (particularizeT _) turn35 (fun r => by simp [Expr.eval])
    (fun i => i + 1)⟩

open FitCases in
/-- The hypotheses of `C115_best_tensor` are met, with success: the script stores the formula for the point group `T`, turned, and the
script of `C113_fit` fits it to a file, and returns the patterns of one of those crystals. -/
example {ε δ : ℝ} (hε : 0 < ε) (hδ : 0 < δ) : ∃ gens files dat ret fit, ((['T'] : Key), gens) ∈ pointGroups ∧
    genFformExample expandingSympy (solverT expandingSympy) expanding exRepr (fun _ => none) ['T'] turn35 (.num (1 / 2)) ['s'] = .ok files ∧
    fitExample expandingSympy compiler exRepr unaryFloat unaryCsv files (fun _ => .ok (fun _ => 1 / 4)) (nearRound δ) (floatLeastSquares ε)
      noFiles [(combo .P .P, ['f']), (combo .P .S, ['f']), (combo .S .P, ['f']), (combo .S .S, ['f'])] sDegrees ['s'] =
        .ok (dat, ret, fit, []) ∧
    ∃ T ∈ realTensors 3 (generated gens), ∃ ψ, ∀ p q, fit.getPc (combo p q) sRadians = .ok (sampled 1000 (fun x =>
      intensity (dipoleCrystal (act (realMatrix turn35) T)) ((1 / 2 : ℚ) : ℝ) (x + ψ) p q)) := by
  obtain ⟨gens, hg⟩ := T_mem
  obtain ⟨files, h1, -⟩ := C115_formula expandingSympy expanding exRepr (solverT_good _) hg (T_entry _) (particularizeT _)
    turn35 (theta := .num (1 / 2)) (by simp [Expr.free]) (θ := ((1 / 2 : ℚ) : ℝ)) (fun r => by simp [Expr.eval])
    (expanding_forms (by simp [Expr.free])) exRepr_reads (fun _ => none) ['s']
  obtain ⟨dat, l1, _, l2, l3⟩ := loadData_sampled (Or.inr rfl) (by unfold Dict.WF; decide) (by norm_num)
    (unary_samples_all [(combo .P .P, ['f']), (combo .P .S, ['f']), (combo .S .P, ['f']), (combo .S .S, ['f'])])
  obtain ⟨o1, o2, o3⟩ := floatLeastSquares_spec ε
  obtain ⟨-, t2, t3⟩ := C115_best_tensor expandingSympy expanding exRepr compiler (solverT_good _) hg turn35 (theta := .num (1 / 2))
    (by simp [Expr.free]) (θ := ((1 / 2 : ℚ) : ℝ)) (fun r => by simp [Expr.eval]) (expanding_forms (by simp [Expr.free])) exRepr_reads h1 l1
    (by rw [l2]; intro p q; cases p <;> cases q <;> simp [Dict.keys]) (interp := fun _ => .ok (fun _ => 1 / 4)) (N := fun _ => 36)
    (y := fun _ _ => 1 / 4) (fun k pts h => by
      have hk : k ∈ dat.getKeys := by
        rw [getPc_radians] at h
        exact Dict.mem_keys_of_mem (Dict.mem_of_get? (Dict.get_ok_iff.1 h))
      rw [l3 k (l2 ▸ hk)] at h
      cases h
      simp [sampled]) hε.le o1 o2 hδ.le (nearRound_spec hδ) noFiles
  obtain ⟨⟨dat', ret, fit, w⟩, h⟩ := t2 hε o3
  obtain ⟨rfl, rfl, T, hT, ψ, -, hf, -⟩ := t3 _ _ _ _ h
  exact ⟨gens, files, dat', ret, fit, hg, h1, h, T, hT, ψ, hf⟩

end Shgpy
