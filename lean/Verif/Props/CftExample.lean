import Verif.Spec.CftExample
import Verif.Props.FformgenSymbols

/-!
# C117: the scripts that use `fformgen` describe the crystals of the point group
-/

namespace Shgpy
open Spec PG TensorDef

/-! ### Mean squares -/

theorem gridMean_mono {N : ℕ} {f g : ℝ → ℝ} (h : ∀ x, f x ≤ g x) : gridMean N f ≤ gridMean N g :=
  div_le_div_of_nonneg_right (Finset.sum_le_sum (fun _ _ => h _)) (Nat.cast_nonneg _)

theorem gridMean_nonneg {N : ℕ} {f : ℝ → ℝ} (h : ∀ x, 0 ≤ f x) : 0 ≤ gridMean N f :=
  div_nonneg (Finset.sum_nonneg (fun _ _ => h _)) (Nat.cast_nonneg _)

theorem gridMean_sq (N : ℕ) (u : ℝ → ℝ) : gridMean N u ^ 2 ≤ gridMean N (fun x => u x ^ 2) := by
  unfold gridMean
  rcases Nat.eq_zero_or_pos N with rfl | hN
  · simp
  have hN' : (0 : ℝ) < N := by exact_mod_cast hN
  rw [div_pow, div_le_div_iff₀ (by positivity) hN']
  have h := Finset.sum_mul_sq_le_sq_mul_sq (Finset.range N) (fun j => u (gridAngle N j)) (fun _ => 1)
  simp only [mul_one, one_pow, Finset.sum_const, Finset.card_range, nsmul_eq_mul] at h
  nlinarith

/-- Mean squares of values that differ by at most `η`. -/
theorem gridMean_shift {N : ℕ} {u v : ℝ → ℝ} {η : ℝ} (hη : 0 ≤ η) (hu : ∀ x, 0 ≤ u x) (h : ∀ x, u x ≤ v x + η) :
    gridMean N (fun x => u x ^ 2) ≤ (√(gridMean N (fun x => v x ^ 2)) + η) ^ 2 := by
  have h1 : gridMean N (fun x => u x ^ 2) ≤ gridMean N (fun x => (v x + η) ^ 2) :=
    gridMean_mono (fun x => pow_le_pow_left₀ (hu x) (h x) 2)
  have h2 : gridMean N (fun x => (v x + η) ^ 2) ≤ gridMean N (fun x => v x ^ 2) + 2 * η * gridMean N v + η ^ 2 := by
    unfold gridMean
    rcases Nat.eq_zero_or_pos N with rfl | hN
    · simp; positivity
    have hN' : (0 : ℝ) < N := by exact_mod_cast hN
    refine le_of_eq ?_
    rw [Finset.sum_congr rfl (fun j _ => show (v (gridAngle N j) + η) ^ 2 = v (gridAngle N j) ^ 2 + 2 * η * v (gridAngle N j) + η ^ 2 by ring),
      Finset.sum_add_distrib, Finset.sum_add_distrib, ← Finset.mul_sum, Finset.sum_const, Finset.card_range, nsmul_eq_mul]
    field_simp
  have h3 : gridMean N v ≤ √(gridMean N (fun x => v x ^ 2)) := Real.le_sqrt_of_sq_le (gridMean_sq N v)
  have h4 := Real.sq_sqrt (gridMean_nonneg (N := N) (f := fun x => v x ^ 2) (fun x => sq_nonneg _))
  nlinarith [Real.sqrt_nonneg (gridMean N (fun x => v x ^ 2))]

/-- The root of four mean squares. -/
theorem sqrt_four {a b c d a' b' c' d' η : ℝ} (hη : 0 ≤ η) (ha' : 0 ≤ a') (hb' : 0 ≤ b') (hc' : 0 ≤ c') (hd' : 0 ≤ d')
    (ha : a ≤ (√a' + η) ^ 2) (hb : b ≤ (√b' + η) ^ 2) (hc : c ≤ (√c' + η) ^ 2) (hd : d ≤ (√d' + η) ^ 2) :
    √(a + (b + (c + (d + 0)))) ≤ √(a' + (b' + (c' + (d' + 0)))) + 2 * η := by
  rw [Real.sqrt_le_left (by positivity)]
  have ea := Real.sq_sqrt ha'
  have eb := Real.sq_sqrt hb'
  have ec := Real.sq_sqrt hc'
  have ed := Real.sq_sqrt hd'
  have es := Real.sq_sqrt (show 0 ≤ a' + (b' + (c' + (d' + 0))) by positivity)
  have key : √a' + √b' + √c' + √d' ≤ 2 * √(a' + (b' + (c' + (d' + 0)))) := by
    have h := Real.sqrt_nonneg (a' + (b' + (c' + (d' + 0))))
    refine le_of_sq_le_sq ?_ (by positivity)
    nlinarith [sq_nonneg (√a' - √b'), sq_nonneg (√a' - √c'), sq_nonneg (√a' - √d'), sq_nonneg (√b' - √c'), sq_nonneg (√b' - √d'),
      sq_nonneg (√c' - √d')]
  nlinarith

/-- Deviations from the same values. -/
theorem sqrt_turned {F : Key → ℤ → Valuation → ℂ} {r : Sym → ℝ} {X : Crystal} {θ η : ℝ} (hη : 0 ≤ η) (h : PatternsNear η F r X θ)
    (N : Key → ℕ) (y : Key → ℝ → ℝ) :
    √(turnedSquares [combo .P .P, combo .P .S, combo .S .P, combo .S .S] 16 F N y r) ≤
        √(radiatedSquares X θ (r psi + Real.pi) N y) + 2 * η ∧
    √(radiatedSquares X θ (r psi + Real.pi) N y) ≤
        √(turnedSquares [combo .P .P, combo .P .S, combo .S .P, combo .S .S] 16 F N y r) + 2 * η := by
  have hd : ∀ p q x, ‖((y (combo p q) x : ℝ) : ℂ) - pattern 16 (fun m => F (combo p q) m (realVal r)) (x + r psi)‖ ≤
      |y (combo p q) x - intensity X θ (x + (r psi + Real.pi)) p q| + η ∧
      |y (combo p q) x - intensity X θ (x + (r psi + Real.pi)) p q| ≤
      ‖((y (combo p q) x : ℝ) : ℂ) - pattern 16 (fun m => F (combo p q) m (realVal r)) (x + r psi)‖ + η := by
    intro p q x
    have h1 := h p q (x + r psi)
    unfold formulaPatterns at h1
    have e : |y (combo p q) x - intensity X θ (x + (r psi + Real.pi)) p q| =
        ‖((y (combo p q) x : ℝ) : ℂ) - (intensity X θ (x + r psi + Real.pi) p q : ℂ)‖ := by
      rw [← Complex.ofReal_sub, Complex.norm_real, Real.norm_eq_abs, add_assoc]
    rw [e]
    constructor
    · calc _ = ‖(((y (combo p q) x : ℝ) : ℂ) - (intensity X θ (x + r psi + Real.pi) p q : ℂ)) -
            (pattern 16 (fun m => F (combo p q) m (realVal r)) (x + r psi) - (intensity X θ (x + r psi + Real.pi) p q : ℂ))‖ := by
            congr 1; ring
        _ ≤ _ := (norm_sub_le _ _).trans (add_le_add le_rfl h1)
    · calc _ = ‖(((y (combo p q) x : ℝ) : ℂ) - pattern 16 (fun m => F (combo p q) m (realVal r)) (x + r psi)) +
            (pattern 16 (fun m => F (combo p q) m (realVal r)) (x + r psi) - (intensity X θ (x + r psi + Real.pi) p q : ℂ))‖ := by
            congr 1; ring
        _ ≤ _ := (norm_add_le _ _).trans (add_le_add le_rfl h1)
  unfold turnedSquares radiatedSquares
  simp only [List.map_cons, List.map_nil, List.sum_cons, List.sum_nil]
  have nn1 : ∀ p q, 0 ≤ gridMean (N (combo p q)) (fun x => |y (combo p q) x - intensity X θ (x + (r psi + Real.pi)) p q| ^ 2) :=
    fun p q => gridMean_nonneg (fun x => by positivity)
  have nn2 : ∀ p q, 0 ≤ gridMean (N (combo p q)) (fun x => ‖((y (combo p q) x : ℝ) : ℂ) -
      pattern 16 (fun m => F (combo p q) m (realVal r)) (x + r psi)‖ ^ 2) := fun p q => gridMean_nonneg (fun x => by positivity)
  have s1 : ∀ p q, _ := fun p q => gridMean_shift (N := N (combo p q)) hη (fun x => norm_nonneg _)
    (fun x => (hd p q x).1)
  have s2 : ∀ p q, _ := fun p q => gridMean_shift (N := N (combo p q)) hη (fun x => abs_nonneg _)
    (fun x => (hd p q x).2)
  exact ⟨sqrt_four hη (nn1 _ _) (nn1 _ _) (nn1 _ _) (nn1 _ _) (s1 _ _) (s1 _ _) (s1 _ _) (s1 _ _),
    sqrt_four hη (nn2 _ _) (nn2 _ _) (nn2 _ _) (nn2 _ _) (s2 _ _) (s2 _ _) (s2 _ _) (s2 _ _)⟩

section
variable (S : Sympy) (Rp : Repr) (C : Compiler)

theorem inBox_four {r : Sym → ℝ} (h : InBox r) (s : Sym) : |r s| ≤ 4 := by
  by_cases hs : s = psi
  · subst hs
    exact h.1.trans Real.pi_le_four
  · exact (h.2 s hs).trans (by norm_num)

/-- What the fitting script does with a formula whose patterns are near those of crystals. -/
theorem fit_near {files : Files} {fformName : Key} {c : FFormContainer} (hform : loadFform S Rp files fformName = .ok c)
    (hkeys : c.getKeys = [combo .P .P, combo .P .S, combo .S .P, combo .S .S]) {F : Key → ℤ → Valuation → ℂ} (hF : FormulaIs c F)
    {X : (Sym → ℝ) → Crystal} {θ : (Sym → ℝ) → ℝ} {η : ℝ} (hη : 0 ≤ η)
    (hnear : ∀ r, (∀ s, |r s| ≤ 4) → PatternsNear η F r (X r) (θ r))
    {float : Key → Option ℝ} {csv : CsvFiles} {interp : Interp} {names : Dict Key Key} {units : Key} {dat : DataContainer ℝ}
    (hdat : loadData float csv names units false = .ok dat) (hk : ∀ p q, combo p q ∈ dat.getKeys) {N : Key → ℕ} {y : Key → ℝ → ℝ}
    (hi : ∀ k pts, dat.getPc k sRadians = .ok pts → 32 < pts.length ∧ interp pts = .ok (y k) ∧ pts.length = N k)
    {ε : ℝ} (hε : 0 ≤ ε) {opt : Optimizer LSCall} (ho : LeastSquaresTo ε opt) (hfl : ReturnsFloats opt) {δ : ℝ} (hδ : 0 ≤ δ)
    {rnd : FDataContainer → FDataContainer} (hrnd : RoundsTo δ rnd) (d : Disk) :
    (∀ e, fitExample S C Rp float csv files interp rnd opt d names units fformName = .error e → ∃ call, opt call = .error e) ∧
    (0 < ε → FindsFloats ε opt → ∃ out, fitExample S C Rp float csv files interp rnd opt d names units fformName = .ok out) ∧
    ∀ dat' ret fit w, fitExample S C Rp float csv files interp rnd opt d names units fformName = .ok (dat', ret, fit, w) →
      dat' = dat ∧ w = [] ∧ ∃ r, InBox r ∧ CurvesNear η fit (X r) (θ r) (r psi + Real.pi) ∧
        ∀ r', InBox r' → √(radiatedSquares (X r) (θ r) (r psi + Real.pi) N y) ≤
          √(radiatedSquares (X r') (θ r') (r' psi + Real.pi) N y) + (ε + 2 * (δ * √(4 * 33)) + 4 * η) := by
  obtain ⟨a1, a2, a3⟩ := C113_fit S C hdat hform hF (by
    intro k hkk
    rw [hkeys] at hkk
    simp only [List.mem_cons, List.not_mem_nil, or_false] at hkk
    rcases hkk with rfl | rfl | rfl | rfl <;> exact hk _ _) hi hε ho hfl hδ hrnd d
  refine ⟨a1, a2, fun dat' ret fit w hout => ?_⟩
  obtain ⟨b1, b2, r, hbox, -, -, b4, b5, R₀, hR₀, b6⟩ := a3 dat' ret fit w hout
  rw [hkeys] at b5 b6
  refine ⟨b1, b2, r, hbox, fun p q => ⟨_, b5 (combo p q) (by cases p <;> cases q <;> simp), fun x => ?_⟩, fun r' hr' => ?_⟩
  · have h1 := hnear r (inBox_four hbox) p q (x + r psi)
    unfold formulaPatterns at h1
    have h2 := (Complex.abs_re_le_norm _).trans h1
    rwa [Complex.sub_re, Complex.ofReal_re, add_assoc x] at h2
  · have key := (b6 r').2 hr'
    have k2 := (b6 r').1
    have hη' : (0 : ℝ) ≤ ε + 2 * (δ * √(4 * 33)) := by positivity
    have k3 : √(turnedSquares [combo .P .P, combo .P .S, combo .S .P, combo .S .S] 16 F N y r) ≤
        √(turnedSquares [combo .P .P, combo .P .S, combo .S .P, combo .S .S] 16 F N y r') + (ε + 2 * (δ * √(4 * 33))) :=
      sqrt_le_beyond hR₀ k2 hη' (by simpa using key)
    have k4 := (sqrt_turned hη (hnear r (inBox_four hbox)) N y).2
    have k5 := (sqrt_turned hη (hnear r' (inBox_four hr')) N y).1
    linarith

end

/-! ### The tensors of the scripts -/

theorem anglesP_mono {P Q : Expr → Prop} (h : ∀ e, P e → Q e) (e : Expr) : AnglesP P e → AnglesP Q e := by
  induction e using Expr.ind with
  | num q => exact id
  | hI => exact id
  | sym s => exact id
  | add l ih =>
    simp only [AnglesP, anglesPL_iff]
    exact fun h' e he => ih e he (h' e he)
  | mul l ih =>
    simp only [AnglesP, anglesPL_iff]
    exact fun h' e he => ih e he (h' e he)
  | pow b n ih => exact ih
  | cos e ih => exact h e
  | sin e ih => exact h e

section
variable (S : Sympy) {n₀ : ℕ} (hS : KeepsAngles S n₀)
include hS

theorem short_real {u : Nd Expr} (hu : AllIn NoAngles u) : AllIn (ShortAngles n₀) (makeTensorReal S u) := by
  intro idx hidx
  show ShortAngles n₀ (replaceParameters S _ (u.get idx))
  unfold replaceParameters
  have h0 : ShortAngles n₀ (u.get idx) := fun n _ => anglesP_mono (fun _ h => h.elim) _ (hu idx hidx)
  generalize S.setOrder (u.get idx).free = l
  generalize u.get idx = e at h0
  clear hidx hu
  induction l generalizing e with
  | nil => exact h0
  | cons s l ih =>
    rw [List.foldl_cons]
    refine ih _ ?_
    split_ifs
    · refine short_subs S hS (fun p hp n _ => ?_) h0
      rw [List.mem_singleton] at hp
      subst hp
      exact ⟨trivial, trivial⟩
    · exact h0

theorem short_script {solve : Solver} {table : Dict Key (Nd Expr)} {g : Key} {R : Fin 3 → Fin 3 → ℚ} {t₀ u t : Nd Expr}
    (h0 : Dict.get table g = .ok t₀) (hu : particularize S solve [] false t₀ = .ok u) (hna : AllIn NoAngles u)
    (h : scriptTensor S solve table g R = .ok t) : AllIn (ShortAngles n₀) t := by
  unfold scriptTensor at h
  rw [h0, ok_bind, hu, ok_bind] at h
  refine AllIn.transform (closed_angles S hS).ops (short_real S hS hna) ?_ h
  intro idx _ n _
  unfold numMatrix
  dsimp only
  split_ifs <;> trivial

end

section
variable (S : Sympy) (Rp : Repr) (C : Compiler)

theorem zeros_free (sh : List ℕ) (s : Sym) : ¬ OccursIn (zerosNd sh) s := by
  rintro ⟨idx, -, hs⟩
  cases hs

theorem zeros_short (n₀ : ℕ) (sh : List ℕ) : AllIn (ShortAngles n₀) (zerosNd sh) := fun _ _ _ _ => trivial

theorem crystalOf_dipole_zeros {t : Nd Expr} {σ : Valuation} {T : Tens 3} (h : valueOf 3 t σ = T) :
    crystalOf (some t) none (some (zerosNd [3, 3, 3, 3])) σ = dipoleCrystal T := by
  refine Crystal.ext ?_ rfl ?_
  · funext i j k
    show value3 t σ i j k = T ![i, j, k]
    rw [← h, valueOf3_eq]
    rfl
  · funext i j k l
    show value4 (zerosNd [3, 3, 3, 3]) σ i j k l = 0
    simp [value4, zerosNd, Expr.eval]

theorem crystalOf_quadrupole_zeros {t : Nd Expr} {σ : Valuation} {T : Tens 4} (h : valueOf 4 t σ = T) :
    crystalOf (some (zerosNd [3, 3, 3])) none (some t) σ = quadrupoleCrystal T := by
  refine Crystal.ext ?_ rfl ?_
  · funext i j k
    show value3 (zerosNd [3, 3, 3]) σ i j k = 0
    simp [value3, zerosNd, Expr.eval]
  · funext i j k l
    show value4 t σ i j k l = T ![i, j, k, l]
    rw [← h, valueOf4_eq]
    rfl

/-- What the quadrupole script knows of its tensor. -/
theorem realTensor_facts {solve : Solver} (hsolve : GoodSolver S solve) {n : ℕ} {t₀ u : Nd Expr} {G : Set SymOp} (ht : OfTable S n t₀ G)
    (hu : particularize S solve [] false t₀ = .ok u) :
    IsTensor 3 n (makeTensorReal S u) ∧
      (∀ s, OccursIn (makeTensorReal S u) s → s.isReal = some true ∧ ∃ c ∈ s.name, c = 'x' ∨ c = 'y' ∨ c = 'z') ∧
      (∀ r : Sym → ℝ, valueOf n (makeTensorReal S u) (realVal r) ∈ realTensors n G) ∧
      ∀ T ∈ realTensors n G, ∀ r₀ : Sym → ℝ, ∃ r : Sym → ℝ, (∀ s, ¬ OccursIn (makeTensorReal S u) s → r s = r₀ s) ∧
        (∀ s, OccursIn (makeTensorReal S u) s → ∃ j, (r s : ℂ) = T j) ∧ valueOf n (makeTensorReal S u) (realVal r) = T := by
  have htt : TableTensor S n u G := .particularized ht hsolve hu
  obtain ⟨p1, p2, p3, p4⟩ := prepared_facts (tableTensor_from S htt) .real
  refine ⟨p1, fun s hs => ⟨p3 s hs, ?_⟩, fun r => ?_, fun T hT r₀ => ?_⟩
  · obtain ⟨s', hs', rfl⟩ := made_real_symbols S (tableTensor_from S htt) hs
    exact ((fromTable_facts S (tableTensor_from S htt)).2.2 s' hs').2
  · obtain ⟨h1, h2, h3⟩ := fromTable_facts S (tableTensor_from S htt)
    obtain ⟨a1, a2, a3⟩ := C43_real S u (fun s hs _ => (h3 s hs).1)
    have hval : valueOf n (makeTensorReal S u) (realVal r) = valueOf n u (realified (realVal r)) := by
      funext i
      exact a2 _ (by rw [h1]; exact inRange_index i) _
    refine ⟨p2 _, ?_, fun i => ?_⟩
    · rw [hval]
      exact (((C55_particularized S hsolve.sound hsolve.complete ht [] hu).2 _).2 ⟨_, rfl⟩).2
    · exact Complex.conj_eq_iff_im.1 (made_real_conj S (tableTensor_from S htt) r i)
  · classical
    obtain ⟨r, b1, b2⟩ := real_reaches_elements S htt hT
    refine ⟨fun s => if OccursIn (makeTensorReal S u) s then r s else r₀ s, fun s hs => if_neg hs, fun s hs => ?_, ?_⟩
    · obtain ⟨j, hj⟩ := b1 s hs
      exact ⟨j, by dsimp only; rw [if_pos hs, hj]⟩
    · rw [← b2]
      exact valueOf_congr p1 (fun s hs => by simp [realVal, hs])

include S Rp in
theorem fourFform_is (g : Pol → Pol → ℤ → Expr) : ∃ F, FormulaIs (fourFform g) F := by
  refine formulaIs_exists S ?_
  have h := fourFform_load S Rp (fun _ => none) [] g
  unfold loadFform at h
  have hf : saveFform Rp (fun _ => none) (fourFform g) [] [] ≠ none := by simp [saveFform]
  cases hd : saveFform Rp (fun _ => none) (fourFform g) [] [] with
  | none => exact absurd hd hf
  | some d =>
    rw [hd] at h
    obtain ⟨d', _, h⟩ := bind_ok h
    exact ⟨_, _, _, [], h, rfl⟩

/-- The rounded formulas, as a container. -/
theorem rounded_container {n₀ : ℕ} (hS : KeepsAngles S n₀) {nfs : NpFiles} {pre : Key} {θ : (Sym → ℝ) → ℝ} (hs : AllStored nfs pre θ)
    (hf : FilesAll (ShortAngles n₀) nfs pre) {chiD chiQ : Nd Expr} (hv : ValidTensors (some chiD) none (some chiQ))
    (hD : AllIn (ShortAngles n₀) chiD) (hQ : AllIn (ShortAngles n₀) chiQ) (B : ℝ) :
    ∃ K, 0 ≤ K ∧ ∀ n, n₀ ≤ n → ∀ D : DecRound n, ∃ g : Pol → Pol → ℤ → Expr,
      (∀ fs save, generateContractedRounded S multiplyOut D Rp fs nfs save pre chiD chiQ 16 = .ok (saveFform Rp fs (fourFform g) save)) ∧
      ∀ F, FormulaIs (fourFform g) F → ∀ r, (∀ s, |r s| ≤ B) →
        PatternsNear (K * (1 / 10) ^ n) F r (crystalOf (some chiD) none (some chiQ) (realVal r)) (θ r) := by
  obtain ⟨g, hd, -⟩ := contracted_ok S hs (hv.eee3 _ rfl) (hv.qee4 _ rfl)
    (fun s hs => hs.elim (hv.real _ (Or.inl rfl) s) (hv.real _ (Or.inr (Or.inr rfl)) s))
  obtain ⟨K, hK⟩ := rounded_patterns S Rp hS hs hf hv hD hQ (fun _ => none) [] B
  refine ⟨max K 0, le_max_right _ _, fun n hn D => ⟨fun p q m => roundExpr S multiplyOut D (g p q m),
    fun fs save => rounded_saved S Rp D fs save hd, fun F hF r hr p q x => ?_⟩⟩
  obtain ⟨fs', c, h1, h2, h3⟩ := hK n hn D
  rw [rounded_saved S Rp D _ _ hd] at h1
  cases h1
  rw [fourFform_load] at h2
  cases h2
  exact (h3 F hF r hr p q x).trans (mul_le_mul_of_nonneg_right (le_max_left _ _) (by positivity))

/-! ## C117 -/

/-- **C117, dipole.**  `generate_uft_example.py` and then `generate_cft_example.py`, for every point group for which sympy solves the
equations of `particularize` without cosines and sines, every matrix `R` and every angle of incidence and number of digits: the scripts
succeed, and the patterns of the stored formula, for parameters of size at most `B`, are those of the intensity of the crystals of the
point group, turned by `R` and by half a turn, up to a constant times `10⁻ⁿ`; every such crystal with tensor elements of size at most `B`
is met. -/
theorem C117_dipole {n₀ : ℕ} (hS : KeepsAngles S n₀) {solve : Solver} (hsolve : GoodSolver S solve) {g : Key} {gens : List SymOp}
    (hg : (g, gens) ∈ pointGroups) {t₀ u : Nd Expr} (h0 : Dict.get (dipole S) g = .ok t₀)
    (hu : particularize S solve [] false t₀ = .ok u) (hna : AllIn NoAngles u) (R : Fin 3 → Fin 3 → ℚ) {aoi : ℚ}
    (ha : Digits n₀ (.num aoi)) (nfs : NpFiles) (pre : Key) :
    ∃ nfs', uftExample S nfs aoi pre = .ok nfs' ∧ ∀ B : ℝ, ∃ K : ℝ, ∀ n, n₀ ≤ n → ∀ (D : DecRound n) (fs : Files) (save : Key), ∃ fs' c,
      cftExample S solve multiplyOut D Rp fs nfs' g R save pre = .ok fs' ∧ (∀ name, name ≠ save → fs' name = fs name) ∧
      loadFform S Rp fs' save = .ok c ∧ c.getKeys = [combo .P .P, combo .P .S, combo .S .P, combo .S .S] ∧ c.getM = 16 ∧
      ∀ F, FormulaIs c F →
        (∀ r, (∀ s, |r s| ≤ B) → ∃ T ∈ realTensors 3 (generated gens),
          PatternsNear (K * (1 / 10) ^ n) F r (dipoleCrystal (act (realMatrix R) T)) aoi) ∧
        ∀ T ∈ realTensors 3 (generated gens), (∀ i, ‖T i‖ ≤ B) → ∃ r, (∀ s, |r s| ≤ B) ∧
          PatternsNear (K * (1 / 10) ^ n) F r (dipoleCrystal (act (realMatrix R) T)) aoi := by
  have ht : OfTable S 3 t₀ (generated gens) := .dipole hg h0
  obtain ⟨t, ht'⟩ := scriptTensor_ok S (.inl rfl) h0 ht hu R
  obtain ⟨f1, f2, f3, f4⟩ := scriptTensor_facts S hsolve (.inl rfl) h0 ht ht'
  have hv : ValidTensors (some t) none (some (zerosNd [3, 3, 3, 3])) :=
    valid_dipole_quadrupole f1 rfl (fun s hs => (f2 s hs).1) (fun s hs => absurd hs (zeros_free _ s))
  obtain ⟨nfs', g1, g2⟩ := uncontracted_num S nfs aoi pre
  refine ⟨nfs', g1, fun B => ?_⟩
  obtain ⟨K, -, hK⟩ := rounded_container S Rp hS g2 (short_num S hS ha g1) hv (short_script S hS h0 hu hna ht') (zeros_short _ _) B
  refine ⟨K, fun n hn D fs save => ?_⟩
  obtain ⟨gg, k1, k2⟩ := hK n hn D
  refine ⟨_, fourFform gg, ?_, fun name hname => if_neg hname, fourFform_load S Rp fs save gg, rfl, rfl, fun F hF => ⟨fun r hr => ?_,
    fun T hT hB => ?_⟩⟩
  · unfold cftExample
    rw [ht', ok_bind]
    exact k1 fs save
  · obtain ⟨T, hT, e⟩ := f3 r
    refine ⟨T, hT, ?_⟩
    have := k2 F hF r hr
    rwa [crystalOf_dipole_zeros e] at this
  · obtain ⟨r, c1, c2, c3⟩ := f4 T hT (fun _ => 0)
    have hr : ∀ s, |r s| ≤ B := by
      intro s
      by_cases hso : OccursIn t s
      · obtain ⟨j, hj⟩ := c2 s hso
        have := hB j
        rwa [← hj, Complex.norm_real, Real.norm_eq_abs] at this
      · rw [c1 s hso, abs_zero]
        exact (norm_nonneg _).trans (hB (fun _ => 0))
    refine ⟨r, hr, ?_⟩
    have := k2 F hF r hr
    rwa [crystalOf_dipole_zeros c3] at this

/-- **C117, quadrupole.**  `generate_uft_symb_example.py` and then `generate_cft_quadrupole_example.py`, in the same way; the angle of
incidence is the parameter `theta`. -/
theorem C117_quadrupole {n₀ : ℕ} (hS : KeepsAngles S n₀) (hcos : S.cos (.sym thetaSym) = .cos (.sym thetaSym))
    (hsin : S.sin (.sym thetaSym) = .sin (.sym thetaSym)) {solve : Solver} (hsolve : GoodSolver S solve) {g : Key} {gens : List SymOp}
    (hg : (g, gens) ∈ quadrupoleGroups) {t₀ u : Nd Expr} (h0 : Dict.get (quadrupole S) g = .ok t₀)
    (hu : particularize S solve [] false t₀ = .ok u) (hna : AllIn NoAngles u) (nfs : NpFiles) (pre : Key) :
    ∃ nfs', uftSymbExample S nfs pre = .ok nfs' ∧ ∀ B : ℝ, ∃ K : ℝ, ∀ n, n₀ ≤ n → ∀ (D : DecRound n) (fs : Files) (save : Key), ∃ fs' c,
      cftQuadrupoleExample S solve multiplyOut D Rp fs nfs' g save pre = .ok fs' ∧ (∀ name, name ≠ save → fs' name = fs name) ∧
      loadFform S Rp fs' save = .ok c ∧ c.getKeys = [combo .P .P, combo .P .S, combo .S .P, combo .S .S] ∧ c.getM = 16 ∧
      ∀ F, FormulaIs c F →
        (∀ r, (∀ s, |r s| ≤ B) → ∃ T ∈ realTensors 4 (generated gens),
          PatternsNear (K * (1 / 10) ^ n) F r (quadrupoleCrystal T) (r thetaSym)) ∧
        ∀ T ∈ realTensors 4 (generated gens), (∀ i, ‖T i‖ ≤ B) → ∀ θ, |θ| ≤ B → ∃ r, (∀ s, |r s| ≤ B) ∧ r thetaSym = θ ∧
          PatternsNear (K * (1 / 10) ^ n) F r (quadrupoleCrystal T) θ := by
  have ht : OfTable S 4 t₀ (generated gens) := .quadrupole hg h0
  obtain ⟨f1, f2, f3, f4⟩ := realTensor_facts S hsolve ht hu
  have hv : ValidTensors (some (zerosNd [3, 3, 3])) none (some (makeTensorReal S u)) :=
    valid_dipole_quadrupole rfl f1 (fun s hs => absurd hs (zeros_free _ s)) (fun s hs => (f2 s hs).1)
  have hth : ¬ OccursIn (makeTensorReal S u) thetaSym := fun hs =>
    no_letter (f2 _ hs).2 (n := thetaSym.name) (by decide) (by decide) (by decide) rfl
  obtain ⟨nfs', g1, g2⟩ := uncontracted_symb S nfs pre
  refine ⟨nfs', g1, fun B => ?_⟩
  obtain ⟨K, -, hK⟩ := rounded_container S Rp hS g2 (short_symb S hS hcos hsin g1) hv (zeros_short _ _) (short_real S hS hna) B
  refine ⟨K, fun n hn D fs save => ?_⟩
  obtain ⟨gg, k1, k2⟩ := hK n hn D
  refine ⟨_, fourFform gg, ?_, fun name hname => if_neg hname, fourFform_load S Rp fs save gg, rfl, rfl, fun F hF => ⟨fun r hr => ?_,
    fun T hT hB θ hθ => ?_⟩⟩
  · unfold cftQuadrupoleExample
    rw [h0, ok_bind, hu, ok_bind]
    exact k1 fs save
  · refine ⟨_, f3 r, ?_⟩
    have := k2 F hF r hr
    rwa [crystalOf_quadrupole_zeros rfl] at this
  · obtain ⟨r, c1, c2, c3⟩ := f4 T hT (fun _ => θ)
    have hr : ∀ s, |r s| ≤ B := by
      intro s
      by_cases hso : OccursIn (makeTensorReal S u) s
      · obtain ⟨j, hj⟩ := c2 s hso
        have := hB j
        rwa [← hj, Complex.norm_real, Real.norm_eq_abs] at this
      · rw [c1 s hso]
        exact hθ
    refine ⟨r, hr, c1 _ hth, ?_⟩
    have := k2 F hF r hr
    rwa [crystalOf_quadrupole_zeros c3, c1 _ hth] at this

/-- **C117, the best tensor.**  The file of `generate_cft_example.py`, fitted with `fit_fform_example.py`: the curve that is drawn is, up to
`K 10⁻ⁿ`, the intensity of a crystal of the point group, turned by `R` and by some angle about the normal, and no crystal of the point
group with elements between -2 and 2 has a root mean square deviation from the data that is smaller by more than the errors of the
optimizer, of the rounding of the data and of the rounding of the formula.  `K` depends on none of these, nor on the data. -/
theorem C117_best_dipole {n₀ : ℕ} (hS : KeepsAngles S n₀) {solve : Solver} (hsolve : GoodSolver S solve) {g : Key} {gens : List SymOp}
    (hg : (g, gens) ∈ pointGroups) {t₀ u : Nd Expr} (h0 : Dict.get (dipole S) g = .ok t₀)
    (hu : particularize S solve [] false t₀ = .ok u) (hna : AllIn NoAngles u) (R : Fin 3 → Fin 3 → ℚ) {aoi : ℚ}
    (ha : Digits n₀ (.num aoi)) {nfs nfs' : NpFiles} {pre : Key} (huft : uftExample S nfs aoi pre = .ok nfs') :
    ∃ K : ℝ, ∀ n, n₀ ≤ n → ∀ (D : DecRound n) {fs files : Files} {fformName : Key},
      cftExample S solve multiplyOut D Rp fs nfs' g R fformName pre = .ok files →
      ∀ {float : Key → Option ℝ} {csv : CsvFiles} {interp : Interp} {names : Dict Key Key} {units : Key} {dat : DataContainer ℝ},
      loadData float csv names units false = .ok dat → (∀ p q, combo p q ∈ dat.getKeys) → ∀ {N : Key → ℕ} {y : Key → ℝ → ℝ},
      (∀ k pts, dat.getPc k sRadians = .ok pts → 32 < pts.length ∧ interp pts = .ok (y k) ∧ pts.length = N k) →
      ∀ {ε : ℝ}, 0 ≤ ε → ∀ {opt : Optimizer LSCall}, LeastSquaresTo ε opt → ReturnsFloats opt → ∀ {δ : ℝ}, 0 ≤ δ →
      ∀ {rnd : FDataContainer → FDataContainer}, RoundsTo δ rnd → ∀ d : Disk,
      (∀ e, fitExample S C Rp float csv files interp rnd opt d names units fformName = .error e → ∃ call, opt call = .error e) ∧
      (0 < ε → FindsFloats ε opt → ∃ out, fitExample S C Rp float csv files interp rnd opt d names units fformName = .ok out) ∧
      ∀ dat' ret fit w, fitExample S C Rp float csv files interp rnd opt d names units fformName = .ok (dat', ret, fit, w) →
        dat' = dat ∧ w = [] ∧ ∃ T ∈ realTensors 3 (generated gens), ∃ ψ, |ψ| ≤ Real.pi ∧
          CurvesNear (K * (1 / 10) ^ n) fit (dipoleCrystal (act (realMatrix R) T)) aoi (ψ + Real.pi) ∧
          ∀ T' ∈ realTensors 3 (generated gens), (∀ i, ‖T' i‖ ≤ 2) → ∀ ψ', |ψ'| ≤ Real.pi →
            √(radiatedSquares (dipoleCrystal (act (realMatrix R) T)) aoi (ψ + Real.pi) N y) ≤
              √(radiatedSquares (dipoleCrystal (act (realMatrix R) T')) aoi (ψ' + Real.pi) N y) +
              (ε + 2 * (δ * √(4 * 33)) + 4 * (K * (1 / 10) ^ n)) := by
  have ht : OfTable S 3 t₀ (generated gens) := .dipole hg h0
  obtain ⟨t, ht'⟩ := scriptTensor_ok S (.inl rfl) h0 ht hu R
  obtain ⟨f1, f2, f3, f4⟩ := scriptTensor_facts S hsolve (.inl rfl) h0 ht ht'
  have hv : ValidTensors (some t) none (some (zerosNd [3, 3, 3, 3])) :=
    valid_dipole_quadrupole f1 rfl (fun s hs => (f2 s hs).1) (fun s hs => absurd hs (zeros_free _ s))
  have hpsi : ¬ OccursIn t psi := fun hs =>
    no_letter (f2 _ hs).2 (n := psi.name) (by decide) (by decide) (by decide) rfl
  obtain ⟨_, g1, g2⟩ := uncontracted_num S nfs aoi pre
  unfold uftExample at huft
  rw [huft] at g1; cases g1
  obtain ⟨K, hK0, hK⟩ := rounded_container S Rp hS g2 (short_num S hS ha huft) hv (short_script S hS h0 hu hna ht') (zeros_short _ _) 4
  refine ⟨K, fun n hn D fs files fformName hcft float csv interp names units dat hdat hk N y hi ε hε opt ho hfl δ hδ rnd hrnd d => ?_⟩
  obtain ⟨gg, k1, k2⟩ := hK n hn D
  unfold cftExample at hcft
  rw [ht', ok_bind] at hcft
  rw [k1] at hcft
  cases hcft
  obtain ⟨F, hF⟩ := fourFform_is S Rp gg
  have hη : 0 ≤ K * (1 / 10) ^ n := by positivity
  obtain ⟨a1, a2, a3⟩ := fit_near S Rp C (fourFform_load S Rp fs fformName gg) rfl hF hη (k2 F hF) hdat hk hi hε ho hfl hδ hrnd d
  refine ⟨a1, a2, fun dat' ret fit w hout => ?_⟩
  obtain ⟨b1, b2, r, hbox, b3, b4⟩ := a3 dat' ret fit w hout
  obtain ⟨T, hT, e⟩ := f3 r
  rw [crystalOf_dipole_zeros e] at b3
  refine ⟨b1, b2, T, hT, r psi, hbox.1, b3, fun T' hT' hle ψ' hψ' => ?_⟩
  obtain ⟨r', c1, c2, c3⟩ := f4 T' hT' (fun s => if s = psi then ψ' else 0)
  have hr'psi : r' psi = ψ' := by rw [c1 _ hpsi, if_pos rfl]
  have hbox' : InBox r' := by
    refine ⟨by rw [hr'psi]; exact hψ', fun s hs => ?_⟩
    by_cases hso : OccursIn t s
    · obtain ⟨j, hj⟩ := c2 s hso
      have := hle j
      rwa [← hj, Complex.norm_real, Real.norm_eq_abs] at this
    · rw [c1 s hso, if_neg hs]
      norm_num
  have := b4 r' hbox'
  rwa [crystalOf_dipole_zeros e, crystalOf_dipole_zeros c3, hr'psi] at this

/-- **C117, the best quadrupole tensor and angle of incidence.**  The file of `generate_cft_quadrupole_example.py`, fitted with
`fit_fform_example.py`: the same, where the angle of incidence is fitted too, between -2 and 2. -/
theorem C117_best_quadrupole {n₀ : ℕ} (hS : KeepsAngles S n₀) (hcos : S.cos (.sym thetaSym) = .cos (.sym thetaSym))
    (hsin : S.sin (.sym thetaSym) = .sin (.sym thetaSym)) {solve : Solver} (hsolve : GoodSolver S solve) {g : Key} {gens : List SymOp}
    (hg : (g, gens) ∈ quadrupoleGroups) {t₀ u : Nd Expr} (h0 : Dict.get (quadrupole S) g = .ok t₀)
    (hu : particularize S solve [] false t₀ = .ok u) (hna : AllIn NoAngles u) {nfs nfs' : NpFiles} {pre : Key}
    (huft : uftSymbExample S nfs pre = .ok nfs') :
    ∃ K : ℝ, ∀ n, n₀ ≤ n → ∀ (D : DecRound n) {fs files : Files} {fformName : Key},
      cftQuadrupoleExample S solve multiplyOut D Rp fs nfs' g fformName pre = .ok files →
      ∀ {float : Key → Option ℝ} {csv : CsvFiles} {interp : Interp} {names : Dict Key Key} {units : Key} {dat : DataContainer ℝ},
      loadData float csv names units false = .ok dat → (∀ p q, combo p q ∈ dat.getKeys) → ∀ {N : Key → ℕ} {y : Key → ℝ → ℝ},
      (∀ k pts, dat.getPc k sRadians = .ok pts → 32 < pts.length ∧ interp pts = .ok (y k) ∧ pts.length = N k) →
      ∀ {ε : ℝ}, 0 ≤ ε → ∀ {opt : Optimizer LSCall}, LeastSquaresTo ε opt → ReturnsFloats opt → ∀ {δ : ℝ}, 0 ≤ δ →
      ∀ {rnd : FDataContainer → FDataContainer}, RoundsTo δ rnd → ∀ d : Disk,
      (∀ e, fitExample S C Rp float csv files interp rnd opt d names units fformName = .error e → ∃ call, opt call = .error e) ∧
      (0 < ε → FindsFloats ε opt → ∃ out, fitExample S C Rp float csv files interp rnd opt d names units fformName = .ok out) ∧
      ∀ dat' ret fit w, fitExample S C Rp float csv files interp rnd opt d names units fformName = .ok (dat', ret, fit, w) →
        dat' = dat ∧ w = [] ∧ ∃ T ∈ realTensors 4 (generated gens), ∃ θ ψ, |θ| ≤ 2 ∧ |ψ| ≤ Real.pi ∧
          CurvesNear (K * (1 / 10) ^ n) fit (quadrupoleCrystal T) θ (ψ + Real.pi) ∧
          ∀ T' ∈ realTensors 4 (generated gens), (∀ i, ‖T' i‖ ≤ 2) → ∀ θ' ψ', |θ'| ≤ 2 → |ψ'| ≤ Real.pi →
            √(radiatedSquares (quadrupoleCrystal T) θ (ψ + Real.pi) N y) ≤
              √(radiatedSquares (quadrupoleCrystal T') θ' (ψ' + Real.pi) N y) +
              (ε + 2 * (δ * √(4 * 33)) + 4 * (K * (1 / 10) ^ n)) := by
  have ht : OfTable S 4 t₀ (generated gens) := .quadrupole hg h0
  obtain ⟨f1, f2, f3, f4⟩ := realTensor_facts S hsolve ht hu
  have hv : ValidTensors (some (zerosNd [3, 3, 3])) none (some (makeTensorReal S u)) :=
    valid_dipole_quadrupole rfl f1 (fun s hs => absurd hs (zeros_free _ s)) (fun s hs => (f2 s hs).1)
  have hth : ¬ OccursIn (makeTensorReal S u) thetaSym := fun hs =>
    no_letter (f2 _ hs).2 (n := thetaSym.name) (by decide) (by decide) (by decide) rfl
  have hpsi : ¬ OccursIn (makeTensorReal S u) psi := fun hs =>
    no_letter (f2 _ hs).2 (n := psi.name) (by decide) (by decide) (by decide) rfl
  have hne : thetaSym ≠ psi := by decide
  obtain ⟨_, g1, g2⟩ := uncontracted_symb S nfs pre
  unfold uftSymbExample at huft
  rw [huft] at g1; cases g1
  obtain ⟨K, hK0, hK⟩ := rounded_container S Rp hS g2 (short_symb S hS hcos hsin huft) hv (zeros_short _ _) (short_real S hS hna) 4
  refine ⟨K, fun n hn D fs files fformName hcft float csv interp names units dat hdat hk N y hi ε hε opt ho hfl δ hδ rnd hrnd d => ?_⟩
  obtain ⟨gg, k1, k2⟩ := hK n hn D
  unfold cftQuadrupoleExample at hcft
  rw [h0, ok_bind, hu, ok_bind] at hcft
  rw [k1] at hcft
  cases hcft
  obtain ⟨F, hF⟩ := fourFform_is S Rp gg
  have hη : 0 ≤ K * (1 / 10) ^ n := by positivity
  obtain ⟨a1, a2, a3⟩ := fit_near S Rp C (fourFform_load S Rp fs fformName gg) rfl hF hη (k2 F hF) hdat hk hi hε ho hfl hδ hrnd d
  refine ⟨a1, a2, fun dat' ret fit w hout => ?_⟩
  obtain ⟨b1, b2, r, hbox, b3, b4⟩ := a3 dat' ret fit w hout
  rw [crystalOf_quadrupole_zeros rfl] at b3
  refine ⟨b1, b2, _, f3 r, r thetaSym, r psi, hbox.2 _ hne, hbox.1, b3, fun T' hT' hle θ' ψ' hθ' hψ' => ?_⟩
  obtain ⟨r', c1, c2, c3⟩ := f4 T' hT' (fun s => if s = psi then ψ' else θ')
  have hr'psi : r' psi = ψ' := by rw [c1 _ hpsi, if_pos rfl]
  have hr'th : r' thetaSym = θ' := by rw [c1 _ hth, if_neg hne]
  have hbox' : InBox r' := by
    refine ⟨by rw [hr'psi]; exact hψ', fun s hs => ?_⟩
    by_cases hso : OccursIn (makeTensorReal S u) s
    · obtain ⟨j, hj⟩ := c2 s hso
      have := hle j
      rwa [← hj, Complex.norm_real, Real.norm_eq_abs] at this
    · rw [c1 s hso, if_neg hs]
      exact hθ'
  have := b4 r' hbox'
  rwa [crystalOf_quadrupole_zeros rfl, crystalOf_quadrupole_zeros c3, hr'psi, hr'th] at this

end

/-! ## A concrete quadrupole tensor -/

/-- The tensor `quadrupole['O']` with its last two indices exchanged. -/
def swappedO (S : Sympy) : Nd Expr :=
  ⟨[3, 3, 3, 3], fun i => (tensorArray S [] 4 quadrupole_O).get [i.getD 0 0, i.getD 1 0, i.getD 3 0, i.getD 2 0]⟩

/-- The elements of `quadrupole['O']`. -/
def elementO (a b c d : Fin 3) : Expr :=
  if a = b ∧ b = c ∧ c = d then .sym ⟨['z', 'z', 'z', 'z'], 0⟩
  else if a = b ∧ c = d then .sym ⟨['y', 'y', 'x', 'x'], 0⟩
  else if a = c ∧ b = d then .sym ⟨['y', 'x', 'y', 'x'], 0⟩
  else if a = d ∧ b = c then .sym ⟨['y', 'x', 'x', 'y'], 0⟩ else .num 0

theorem elements_O (S : Sympy) : ∀ a b c d : Fin 3,
    (tensorArray S [] 4 quadrupole_O).get [a.val, b.val, c.val, d.val] = elementO a b c d := by
  intro a b c d
  fin_cases a <;> fin_cases b <;> fin_cases c <;> fin_cases d <;> rfl

/-- The solution that `yxxy` is `yxyx`. -/
def solutionO : List (Sym × Expr) := [(⟨['y', 'x', 'x', 'y'], 0⟩, .sym ⟨['y', 'x', 'y', 'x'], 0⟩)]

/-- A solver that solves one system: the one for `quadrupole['O']`. -/
def solverO (S : Sympy) : Solver := fun eqs _ =>
  if eqs = swapEquations S (tensorArray S [] 4 quadrupole_O) (swappedO S) then [solutionO] else []

theorem solverO_some {S : Sympy} {eqs : List Expr} {ex : List Sym} {sol : List (Sym × Expr)} {rest : List (List (Sym × Expr))}
    (h : (solverO S) eqs ex = sol :: rest) : sol = solutionO ∧
      eqs = swapEquations S (tensorArray S [] 4 quadrupole_O) (swappedO S) := by
  unfold solverO at h
  split_ifs at h with he
  simp only [List.cons.injEq] at h
  exact ⟨h.1.symm, he⟩

theorem ofFn_four (I : Fin 4 → Fin 3) : List.ofFn (fun k => (I k).val) = [(I 0).val, (I 1).val, (I 2).val, (I 3).val] := by
  simp [List.ofFn_succ]

theorem solverO_sound (S : Sympy) : SolverSound S (solverO S) := by
  intro eqs ex sol rest h q hq σ
  obtain ⟨rfl, rfl⟩ := solverO_some h
  obtain ⟨i, hi, rfl⟩ := List.mem_map.1 hq
  rw [eval_sub', sub_eq_zero]
  obtain ⟨I, hI⟩ := inRange_ofFn (r := 4) (mem_tuples.1 hi)
  subst hI
  simp only [Sympy.eval_subs, swappedO]
  rw [ofFn_four]
  generalize I 0 = a
  generalize I 1 = b
  generalize I 2 = c
  generalize I 3 = d
  simp only [List.getD_cons_zero, List.getD_cons_succ, elements_O]
  fin_cases a <;> fin_cases b <;> fin_cases c <;> fin_cases d <;> simp [elementO, Expr.eval, assigned, assign, solutionO]

theorem solverO_mem : ([0, 1, 1, 0] : List ℕ) ∈ Nd.tuples [3, 3, 3, 3] :=
  mem_tuples.2 (.cons (by norm_num) (.cons (by norm_num) (.cons (by norm_num) (.cons (by norm_num) .nil))))

theorem solverO_complete (S : Sympy) : SolverComplete (solverO S) := by
  intro eqs ex sol rest _ h σ hσ p hp
  obtain ⟨rfl, rfl⟩ := solverO_some h
  obtain rfl := List.mem_singleton.1 hp
  have := hσ _ (List.mem_map.2 ⟨[0, 1, 1, 0], solverO_mem, rfl⟩)
  rw [eval_subtract, sub_eq_zero] at this
  have e1 := elements_O S 0 1 1 0
  have e2 := elements_O S 0 1 0 1
  simp only [Fin.val_zero, Fin.val_one] at e1 e2
  simp only [swappedO, List.getD_cons_zero, List.getD_cons_succ, e1, e2] at this
  simp [elementO, Expr.eval] at this ⊢
  exact this.symm

theorem solverO_good (S : Sympy) : GoodSolver S (solverO S) := by
  refine ⟨solverO_sound S, solverO_complete S, ?_⟩
  intro eqs ex sol rest h p hp s hs
  obtain ⟨rfl, rfl⟩ := solverO_some h
  obtain rfl := List.mem_singleton.1 hp
  simp only [Expr.free, List.mem_singleton] at hs
  subst hs
  refine ⟨by simp [solutionO], _, List.mem_map.2 ⟨[0, 1, 1, 0], solverO_mem, rfl⟩, ?_⟩
  have e1 := elements_O S 0 1 1 0
  have e2 := elements_O S 0 1 0 1
  simp only [Fin.val_zero, Fin.val_one] at e1 e2
  by_contra hn
  have := Expr.eval_congr (σ := fun _ => 0) (τ := fun s => if s = ⟨['y', 'x', 'y', 'x'], 0⟩ then 1 else 0) _ (fun s hs => by
    rw [if_neg]
    rintro rfl
    exact hn hs)
  rw [eval_subtract, eval_subtract] at this
  simp only [swappedO, List.getD_cons_zero, List.getD_cons_succ, e1, e2] at this
  simp [elementO, Expr.eval] at this

/-- `particularize` of `quadrupole['O']`. -/
theorem particularizeO (S : Sympy) : particularize S (solverO S) [] false (tensorArray S [] 4 quadrupole_O) =
    .ok (applySol S solutionO (tensorArray S [] 4 quadrupole_O)) := by
  obtain ⟨t2, h2, hsh, hget⟩ := swapLastTwo_ok (n := 2) (t := tensorArray S [] 4 quadrupole_O) rfl
  have e : swapEquations S (tensorArray S [] 4 quadrupole_O) t2 =
      swapEquations S (tensorArray S [] 4 quadrupole_O) (swappedO S) := by
    unfold swapEquations
    refine List.map_congr_left (fun i hi => ?_)
    congr 1
    have hi' := mem_tuples.1 hi
    obtain ⟨I, a, b, rfl, hI, -⟩ := split_last_two (n := 2) (d := 3) hi'
    rw [hget I a b hi']
    obtain ⟨x, y, rfl⟩ := List.length_eq_two.1 hI
    rfl
  unfold particularize
  simp only [Bool.false_eq_true, if_false]
  unfold particularizeLastTwo
  rw [h2, ok_bind, if_neg, show (solverO S) (swapEquations S (tensorArray S [] 4 quadrupole_O) t2) [] = [solutionO] from if_pos e]
  · rfl
  · rw [flatten_eq_iff hsh]
    intro hall
    have hr : Nd.InRange (tensorArray S [] 4 quadrupole_O).shape ([0, 1] ++ [1, 0]) :=
      .cons (by norm_num) (.cons (by norm_num) (.cons (by norm_num) (.cons (by norm_num) .nil)))
    have h1 := hall _ hr
    rw [hget [0, 1] 1 0 hr] at h1
    have e1 := elements_O S 0 1 1 0
    have e2 := elements_O S 0 1 0 1
    simp only [Fin.val_zero, Fin.val_one] at e1 e2
    simp only [List.cons_append, List.nil_append, e1, e2] at h1
    simp [elementO] at h1

theorem O_mem : ∃ gens, ((['O'] : Key), gens) ∈ quadrupoleGroups := ⟨_, List.mem_append_left _ (by simp [pointGroups]; rfl)⟩

theorem O_entry (S : Sympy) : Dict.get (quadrupole S) ['O'] = .ok (tensorArray S [] 4 quadrupole_O) := rfl

/-- Every element of the tensor is a single symbol or zero. -/
theorem O_noAngles : AllIn NoAngles (applySol Sympy.plain solutionO (tensorArray Sympy.plain [] 4 quadrupole_O)) := by
  intro idx hidx
  obtain ⟨I, rfl⟩ := inRange_ofFn (r := 4) hidx
  show NoAngles (Sympy.plain.subs _ _)
  rw [ofFn_four, elements_O]
  generalize I 0 = a
  generalize I 1 = b
  generalize I 2 = c
  generalize I 3 = d
  fin_cases a <;> fin_cases b <;> fin_cases c <;> fin_cases d <;> trivial

theorem T_noAngles : AllIn NoAngles (applySol Sympy.plain [(⟨['z', 'x', 'y'], 0⟩, .sym ⟨['z', 'y', 'x'], 0⟩)]
    (tensorArray Sympy.plain [] 3 dipole_T)) := by
  intro idx hidx
  obtain ⟨I, rfl⟩ := inRange_ofFn (r := 3) hidx
  show NoAngles (Sympy.plain.subs _ _)
  rw [show List.ofFn (fun k => (I k).val) = [(I 0).val, (I 1).val, (I 2).val] by simp [List.ofFn_succ], elements_T]
  generalize I 0 = a
  generalize I 1 = b
  generalize I 2 = c
  fin_cases a <;> fin_cases b <;> fin_cases c <;> trivial

/-! ### The hypotheses are met -/

/-- One digit is enough for the angle one half. -/
theorem half_digits : Digits 1 (.num (1 / 2)) := ⟨5, by norm_num⟩

/-- The hypotheses of `C117_dipole` are met: for the point group `T`, turned, and an angle of incidence of one half. -/
example : ∃ gens nfs', ((['T'] : Key), gens) ∈ pointGroups ∧ uftExample Sympy.plain (fun _ => none) (1 / 2) ['u'] = .ok nfs' ∧
    ∃ K : ℝ, ∀ n, 1 ≤ n → ∃ fs' c,
      cftExample Sympy.plain (solverT Sympy.plain) multiplyOut (halfUp n) exRepr (fun _ => none) nfs' ['T'] turn35 ['s'] ['u'] = .ok fs' ∧
      loadFform Sympy.plain exRepr fs' ['s'] = .ok c ∧ ∀ F, FormulaIs c F → ∀ r, (∀ s, |r s| ≤ 1) → ∃ T ∈ realTensors 3 (generated gens),
        PatternsNear (K * (1 / 10) ^ n) F r (dipoleCrystal (act (realMatrix turn35) T)) ((1 / 2 : ℚ) : ℝ) := by
  obtain ⟨gens, hg⟩ := T_mem
  obtain ⟨nfs', h1, h2⟩ := C117_dipole Sympy.plain exRepr (plain_keeps 1) (solverT_good _) hg (T_entry _) (particularizeT _) T_noAngles
    turn35 half_digits (fun _ => none) ['u']
  obtain ⟨K, hK⟩ := h2 1
  refine ⟨gens, nfs', hg, h1, K, fun n hn => ?_⟩
  obtain ⟨fs', c, a1, -, a2, -, -, a3⟩ := hK n hn (halfUp n) (fun _ => none) ['s']
  exact ⟨fs', c, a1, a2, fun F hF => (a3 F hF).1⟩

/-- The hypotheses of `C117_quadrupole` are met: for the point group `O`. -/
example : ∃ gens nfs', ((['O'] : Key), gens) ∈ quadrupoleGroups ∧ uftSymbExample Sympy.plain (fun _ => none) ['u'] = .ok nfs' ∧
    ∃ K : ℝ, ∀ n, 1 ≤ n → ∃ fs' c,
      cftQuadrupoleExample Sympy.plain (solverO Sympy.plain) multiplyOut (halfUp n) exRepr (fun _ => none) nfs' ['O'] ['s'] ['u'] = .ok fs' ∧
      loadFform Sympy.plain exRepr fs' ['s'] = .ok c ∧ ∀ F, FormulaIs c F → ∀ r, (∀ s, |r s| ≤ 1) → ∃ T ∈ realTensors 4 (generated gens),
        PatternsNear (K * (1 / 10) ^ n) F r (quadrupoleCrystal T) (r thetaSym) := by
  obtain ⟨gens, hg⟩ := O_mem
  obtain ⟨nfs', h1, h2⟩ := C117_quadrupole Sympy.plain exRepr (plain_keeps 1) rfl rfl (solverO_good _) hg (O_entry _) (particularizeO _)
    O_noAngles (fun _ => none) ['u']
  obtain ⟨K, hK⟩ := h2 1
  refine ⟨gens, nfs', hg, h1, K, fun n hn => ?_⟩
  obtain ⟨fs', c, a1, -, a2, -, -, a3⟩ := hK n hn (halfUp n) (fun _ => none) ['s']
  exact ⟨fs', c, a1, a2, fun F hF => (a3 F hF).1⟩

open FitCases in
/-- The hypotheses of `C117_best_dipole` are met, with success. -/
example {ε δ : ℝ} (hε : 0 < ε) (hδ : 0 < δ) : ∃ gens nfs', ((['T'] : Key), gens) ∈ pointGroups ∧
    uftExample Sympy.plain (fun _ => none) (1 / 2) ['u'] = .ok nfs' ∧ ∃ K : ℝ, ∀ n, 1 ≤ n → ∃ files dat ret fit,
      cftExample Sympy.plain (solverT Sympy.plain) multiplyOut (halfUp n) exRepr (fun _ => none) nfs' ['T'] turn35 ['s'] ['u'] = .ok files ∧
      fitExample Sympy.plain compiler exRepr unaryFloat unaryCsv files (fun _ => .ok (fun _ => 1 / 4)) (nearRound δ) (floatLeastSquares ε)
        noFiles [(combo .P .P, ['f']), (combo .P .S, ['f']), (combo .S .P, ['f']), (combo .S .S, ['f'])] sDegrees ['s'] =
          .ok (dat, ret, fit, []) ∧
      ∃ T ∈ realTensors 3 (generated gens), ∃ ψ, CurvesNear (K * (1 / 10) ^ n) fit (dipoleCrystal (act (realMatrix turn35) T))
        ((1 / 2 : ℚ) : ℝ) (ψ + Real.pi) := by
  obtain ⟨gens, hg⟩ := T_mem
  obtain ⟨nfs', h1, h2⟩ := C117_dipole Sympy.plain exRepr (plain_keeps 1) (solverT_good _) hg (T_entry _) (particularizeT _) T_noAngles
    turn35 half_digits (fun _ => none) ['u']
  obtain ⟨_, hK'⟩ := h2 1
  obtain ⟨K, hK⟩ := C117_best_dipole Sympy.plain exRepr compiler (plain_keeps 1) (solverT_good _) hg (T_entry _) (particularizeT _) T_noAngles
    turn35 half_digits h1
  refine ⟨gens, nfs', hg, h1, K, fun n hn => ?_⟩
  obtain ⟨files, _, a1, -⟩ := hK' n hn (halfUp n) (fun _ => none) ['s']
  obtain ⟨dat, l1, _, l2, l3⟩ := loadData_sampled (Or.inr rfl) (by unfold Dict.WF; decide) (by norm_num)
    (unary_samples_all [(combo .P .P, ['f']), (combo .P .S, ['f']), (combo .S .P, ['f']), (combo .S .S, ['f'])])
  obtain ⟨o1, o2, o3⟩ := floatLeastSquares_spec ε
  obtain ⟨-, t2, t3⟩ := hK n hn (halfUp n) a1 l1
    (by rw [l2]; intro p q; cases p <;> cases q <;> simp [Dict.keys]) (interp := fun _ => .ok (fun _ => 1 / 4)) (N := fun _ => 36)
    (y := fun _ _ => 1 / 4) (fun k pts h => by
      have hk : k ∈ dat.getKeys := by
        rw [getPc_radians] at h
        exact Dict.mem_keys_of_mem (Dict.mem_of_get? (Dict.get_ok_iff.1 h))
      rw [l3 k (l2 ▸ hk)] at h
      cases h
      simp [sampled]) hε.le o1 o2 hδ.le (nearRound_spec hδ) noFiles
  obtain ⟨⟨dat', ret, fit, w⟩, h⟩ := t2 hε o3
  obtain ⟨rfl, rfl, T, hT, ψ, -, hf, -⟩ := t3 _ _ _ _ h
  exact ⟨files, dat', ret, fit, a1, h, T, hT, ψ, hf⟩

open FitCases in
/-- The hypotheses of `C117_best_quadrupole` are met, with success. -/
example {ε δ : ℝ} (hε : 0 < ε) (hδ : 0 < δ) : ∃ gens nfs', ((['O'] : Key), gens) ∈ quadrupoleGroups ∧
    uftSymbExample Sympy.plain (fun _ => none) ['u'] = .ok nfs' ∧ ∃ K : ℝ, ∀ n, 1 ≤ n → ∃ files dat ret fit,
      cftQuadrupoleExample Sympy.plain (solverO Sympy.plain) multiplyOut (halfUp n) exRepr (fun _ => none) nfs' ['O'] ['s'] ['u'] = .ok files ∧
      fitExample Sympy.plain compiler exRepr unaryFloat unaryCsv files (fun _ => .ok (fun _ => 1 / 4)) (nearRound δ) (floatLeastSquares ε)
        noFiles [(combo .P .P, ['f']), (combo .P .S, ['f']), (combo .S .P, ['f']), (combo .S .S, ['f'])] sDegrees ['s'] =
          .ok (dat, ret, fit, []) ∧
      ∃ T ∈ realTensors 4 (generated gens), ∃ θ ψ, CurvesNear (K * (1 / 10) ^ n) fit (quadrupoleCrystal T) θ (ψ + Real.pi) := by
  obtain ⟨gens, hg⟩ := O_mem
  obtain ⟨nfs', h1, h2⟩ := C117_quadrupole Sympy.plain exRepr (plain_keeps 1) rfl rfl (solverO_good _) hg (O_entry _) (particularizeO _) O_noAngles (fun _ => none) ['u']
  obtain ⟨_, hK'⟩ := h2 1
  obtain ⟨K, hK⟩ := C117_best_quadrupole Sympy.plain exRepr compiler (plain_keeps 1) rfl rfl (solverO_good _) hg (O_entry _) (particularizeO _) O_noAngles h1
  refine ⟨gens, nfs', hg, h1, K, fun n hn => ?_⟩
  obtain ⟨files, _, a1, -⟩ := hK' n hn (halfUp n) (fun _ => none) ['s']
  obtain ⟨dat, l1, _, l2, l3⟩ := loadData_sampled (Or.inr rfl) (by unfold Dict.WF; decide) (by norm_num)
    (unary_samples_all [(combo .P .P, ['f']), (combo .P .S, ['f']), (combo .S .P, ['f']), (combo .S .S, ['f'])])
  obtain ⟨o1, o2, o3⟩ := floatLeastSquares_spec ε
  obtain ⟨-, t2, t3⟩ := hK n hn (halfUp n) a1 l1
    (by rw [l2]; intro p q; cases p <;> cases q <;> simp [Dict.keys]) (interp := fun _ => .ok (fun _ => 1 / 4)) (N := fun _ => 36)
    (y := fun _ _ => 1 / 4) (fun k pts h => by
      have hk : k ∈ dat.getKeys := by
        rw [getPc_radians] at h
        exact Dict.mem_keys_of_mem (Dict.mem_of_get? (Dict.get_ok_iff.1 h))
      rw [l3 k (l2 ▸ hk)] at h
      cases h
      simp [sampled]) hε.le o1 o2 hδ.le (nearRound_spec hδ) noFiles
  obtain ⟨⟨dat', ret, fit, w⟩, h⟩ := t2 hε o3
  obtain ⟨rfl, rfl, T, hT, θ, ψ, -, -, hf, -⟩ := t3 _ _ _ _ h
  exact ⟨files, dat', ret, fit, a1, h, T, hT, θ, ψ, hf⟩

end Shgpy
