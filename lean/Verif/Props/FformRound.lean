import Verif.Model.FformRound
import Verif.Spec.Round
import Verif.Props.Fformgen

/-!
# Properties of rounded Fourier formulas: C81
-/

set_option linter.unusedSectionVars false
set_option linter.unusedSimpArgs false
set_option linter.unusedVariables false

namespace Shgpy
open Spec

/-! ## Lemmas -/

theorem roundNumsL_eq (rnd : ℚ → ℚ) (l : List Expr) : Expr.roundNumsL rnd l = l.map (Expr.roundNums rnd) := by
  induction l with
  | nil => rfl
  | cons e l ih => simp [Expr.roundNumsL, ih]

theorem digitsL_iff (n : ℕ) (l : List Expr) : DigitsL n l ↔ ∀ e ∈ l, Digits n e := by
  induction l with
  | nil => simp [DigitsL]
  | cons e l ih => simp [DigitsL, ih]

theorem roundNums_digits {n : ℕ} (D : DecRound n) (e : Expr) : Digits n e → e.roundNums D.rnd = e := by
  have hl : ∀ l : List Expr, (∀ e ∈ l, Digits n e → e.roundNums D.rnd = e) → DigitsL n l → Expr.roundNumsL D.rnd l = l := by
    intro l ih h
    rw [roundNumsL_eq]
    conv_rhs => rw [← List.map_id l]
    exact List.map_congr_left (fun e he => ih e he ((digitsL_iff n l).1 h e he))
  induction e using Expr.ind with
  | num q =>
    rintro ⟨z, rfl⟩
    rw [Expr.roundNums, D.digits]
  | hI => intro _; rfl
  | sym s => intro _; rfl
  | add l ih => intro h; rw [Expr.roundNums, hl l ih h]
  | mul l ih => intro h; rw [Expr.roundNums, hl l ih h]
  | pow b n ih => intro h; rw [Expr.roundNums, ih h]
  | cos e ih => intro h; rw [Expr.roundNums, ih h]
  | sin e ih => intro h; rw [Expr.roundNums, ih h]

theorem free_roundNums (rnd : ℚ → ℚ) (e : Expr) : (e.roundNums rnd).free = e.free := by
  have hl : ∀ l : List Expr, (∀ e ∈ l, (e.roundNums rnd).free = e.free) → Expr.freeL (Expr.roundNumsL rnd l) = Expr.freeL l := by
    intro l ih
    induction l with
    | nil => rfl
    | cons e l ihl =>
      rw [Expr.roundNumsL, Expr.freeL, Expr.freeL, ih e (by simp), ihl (fun e' he => ih e' (by simp [he]))]
  induction e using Expr.ind with
  | num q => rfl
  | hI => rfl
  | sym s => rfl
  | add l ih => exact hl l ih
  | mul l ih => exact hl l ih
  | pow b n ih => exact ih
  | cos e ih => exact ih
  | sin e ih => exact ih

theorem evalProd_eq' (σ : Sym → ℂ) (l : List Expr) : Expr.evalProd σ l = (l.map (fun e => e.eval σ)).prod := by
  induction l with
  | nil => rfl
  | cons e l ih => simp [Expr.evalProd, ih]

theorem rnd_close {n : ℕ} (D : DecRound n) (q : ℚ) : ‖((D.rnd q : ℚ) : ℂ) - (q : ℂ)‖ ≤ (1 / 2) * (1 / 10) ^ n := by
  have h1 : ((D.rnd q : ℚ) : ℂ) - (q : ℂ) = (((D.rnd q - q : ℚ) : ℝ) : ℂ) := by push_cast; ring
  rw [h1, Complex.norm_real, Real.norm_eq_abs]
  have h2 := D.close q
  have h3 : ((|D.rnd q - q| : ℚ) : ℝ) ≤ (((1 / 2) * (1 / 10) ^ n : ℚ) : ℝ) := by exact_mod_cast h2
  rw [Rat.cast_abs] at h3
  refine h3.trans (le_of_eq ?_)
  push_cast
  ring

/-- The size of the factors of the terms. -/
noncomputable def sizes (σ : Sym → ℂ) (ts : List (List Expr)) : ℝ := (ts.map (fun fs => ‖(fs.map (fun f => f.eval σ)).prod‖)).sum

theorem terms_round {n : ℕ} (D : DecRound n) {l : List Expr} {ts : List (List Expr)} (h : Terms n l ts) (σ : Sym → ℂ) :
    ‖Expr.evalSum σ (Expr.roundNumsL D.rnd l) - Expr.evalSum σ l‖ ≤ (1 / 2) * (1 / 10) ^ n * sizes σ ts := by
  induction h with
  | nil => simp [Expr.roundNumsL, Expr.evalSum, sizes]
  | exact h _ ih =>
    simp only [Expr.roundNumsL, Expr.evalSum, roundNums_digits D _ h, add_sub_add_left_eq_sub]
    exact ih
  | number _ ih =>
    simp only [Expr.roundNumsL, Expr.roundNums, Expr.evalSum, Expr.eval, sizes, List.map_cons, List.sum_cons, List.map_nil,
      List.prod_nil, norm_one]
    rw [add_sub_add_comm, mul_add, mul_one]
    exact (norm_add_le _ _).trans (add_le_add (rnd_close D _) ih)
  | @product q fs l ts hfs _ ih =>
    have h1 : Expr.roundNumsL D.rnd fs = fs := by
      rw [roundNumsL_eq]
      conv_rhs => rw [← List.map_id fs]
      exact List.map_congr_left (fun e he => roundNums_digits D e (hfs e he))
    simp only [Expr.roundNumsL, Expr.roundNums, h1, Expr.evalSum, Expr.eval, Expr.evalProd, evalProd_eq', sizes, List.map_cons,
      List.sum_cons]
    rw [add_sub_add_comm, mul_add]
    refine (norm_add_le _ _).trans (add_le_add ?_ ih)
    rw [← sub_mul, norm_mul]
    exact mul_le_mul_of_nonneg_right (rnd_close D _) (norm_nonneg _)

theorem expanded_round {n : ℕ} (D : DecRound n) {e : Expr} {ts : List (List Expr)} (h : Expanded n e ts) (σ : Sym → ℂ) :
    ‖(e.roundNums D.rnd).eval σ - e.eval σ‖ ≤ (1 / 2) * (1 / 10) ^ n * sizes σ ts := by
  rcases h with ⟨l, rfl, h⟩ | h
  · simpa only [Expr.roundNums, Expr.eval] using terms_round D h σ
  · simpa only [Expr.roundNumsL, Expr.evalSum, add_zero] using terms_round D h σ

/-! ## A multiplying-out -/

/-- All products of a term of the first sum and a term of the second. -/
def crossTerms (a b : List (ℚ × List Expr)) : List (ℚ × List Expr) :=
  a.flatMap (fun t => b.map (fun u => (t.1 * u.1, t.2 ++ u.2)))

mutual
/-- The terms of the multiplied-out expression. -/
def outTerms : Expr → List (ℚ × List Expr)
  | .num q => [(q, [])]
  | .I => [(1, [.I])]
  | .sym s => [(1, [.sym s])]
  | .add l => outSum l
  | .mul l => outProd l
  | .pow b n => (List.replicate n ()).foldr (fun _ acc => crossTerms (outTerms b) acc) [(1, [])]
  | .cos e => [(1, [.cos e])]
  | .sin e => [(1, [.sin e])]
/-- The terms of a sum. -/
def outSum : List Expr → List (ℚ × List Expr)
  | [] => []
  | e :: r => outTerms e ++ outSum r
/-- The terms of a product. -/
def outProd : List Expr → List (ℚ × List Expr)
  | [] => [(1, [])]
  | e :: r => crossTerms (outTerms e) (outProd r)
end

/-- The value of a sum of terms. -/
noncomputable def termsVal (σ : Sym → ℂ) (ts : List (ℚ × List Expr)) : ℂ :=
  (ts.map (fun t => (t.1 : ℂ) * (t.2.map (fun f => f.eval σ)).prod)).sum

theorem termsVal_cross (σ : Sym → ℂ) (a b : List (ℚ × List Expr)) :
    termsVal σ (crossTerms a b) = termsVal σ a * termsVal σ b := by
  unfold termsVal crossTerms
  induction a with
  | nil => simp
  | cons t a ih =>
    rw [List.flatMap_cons, List.map_append, List.sum_append, ih, List.map_cons, List.sum_cons, add_mul]
    congr 1
    rw [List.map_map, ← List.sum_map_mul_left]
    congr 1
    refine List.map_congr_left (fun u _ => ?_)
    simp only [Function.comp, List.map_append, List.prod_append]
    push_cast
    ring

theorem outTerms_val (σ : Sym → ℂ) (e : Expr) : termsVal σ (outTerms e) = e.eval σ := by
  induction e using Expr.ind with
  | num q => simp [outTerms, termsVal, Expr.eval]
  | hI => simp [outTerms, termsVal, Expr.eval]
  | sym s => simp [outTerms, termsVal, Expr.eval]
  | add l ih =>
    simp only [outTerms, Expr.eval]
    induction l with
    | nil => simp [outSum, termsVal, Expr.evalSum]
    | cons e l ihl =>
      have := ih e (by simp)
      have h2 := ihl (fun e' he => ih e' (by simp [he]))
      simp only [outSum, Expr.evalSum, ← this, ← h2]
      simp [termsVal]
  | mul l ih =>
    simp only [outTerms, Expr.eval]
    induction l with
    | nil => simp [outProd, termsVal, Expr.evalProd]
    | cons e l ihl =>
      rw [outProd, Expr.evalProd, termsVal_cross, ih e (by simp), ihl (fun e' he => ih e' (by simp [he]))]
  | pow b n ih =>
    simp only [outTerms, Expr.eval]
    induction n with
    | zero => simp [termsVal]
    | succ n ihn => rw [List.replicate_succ, List.foldr_cons, termsVal_cross, ih, ihn, pow_succ']
  | cos e ih => simp [outTerms, termsVal, Expr.eval]
  | sin e ih => simp [outTerms, termsVal, Expr.eval]

/-- A property of the factors that holds for the leaves of an expression. -/
def Leaves (P : Expr → Prop) (e : Expr) : Prop := ∀ t ∈ outTerms e, ∀ f ∈ t.2, P f

theorem cross_factors {P : Expr → Prop} {a b : List (ℚ × List Expr)} (ha : ∀ t ∈ a, ∀ f ∈ t.2, P f)
    (hb : ∀ t ∈ b, ∀ f ∈ t.2, P f) : ∀ t ∈ crossTerms a b, ∀ f ∈ t.2, P f := by
  intro t ht f hf
  obtain ⟨u, hu, ht⟩ := List.mem_flatMap.1 ht
  obtain ⟨v, hv, rfl⟩ := List.mem_map.1 ht
  rcases List.mem_append.1 hf with h | h
  · exact ha u hu f h
  · exact hb v hv f h

theorem leaves_digits {n : ℕ} (e : Expr) : AnglesP (Digits n) e → Leaves (Digits n) e := by
  unfold Leaves
  induction e using Expr.ind with
  | num q => simp [outTerms]
  | hI => simp [outTerms, Digits]
  | sym s => simp [outTerms, Digits]
  | add l ih =>
    simp only [outTerms, AnglesP]
    induction l with
    | nil => simp [outSum]
    | cons e l ihl =>
      rintro ⟨h1, h2⟩ t ht
      rcases List.mem_append.1 ht with h | h
      · exact ih e (by simp) h1 t h
      · exact ihl (fun e' he => ih e' (by simp [he])) h2 t h
  | mul l ih =>
    simp only [outTerms, AnglesP]
    induction l with
    | nil => simp [outProd]
    | cons e l ihl =>
      rintro ⟨h1, h2⟩
      exact cross_factors (ih e (by simp) h1) (ihl (fun e' he => ih e' (by simp [he])) h2)
  | pow b m ih =>
    simp only [outTerms, AnglesP]
    intro h
    induction m with
    | zero => simp
    | succ m ihm =>
      rw [List.replicate_succ, List.foldr_cons]
      exact cross_factors (ih h) ihm
  | cos e ih => simp [outTerms, Digits, AnglesP]
  | sin e ih => simp [outTerms, Digits, AnglesP]

theorem leaves_free (e : Expr) : Leaves (fun f => ∀ s ∈ f.free, s ∈ e.free) e := by
  unfold Leaves
  have hmono : ∀ (e e' : Expr), (∀ s ∈ e.free, s ∈ e'.free) → (∀ t ∈ outTerms e, ∀ f ∈ t.2, ∀ s ∈ f.free, s ∈ e.free) →
      ∀ t ∈ outTerms e, ∀ f ∈ t.2, ∀ s ∈ f.free, s ∈ e'.free := fun e e' h h' t ht f hf s hs => h s (h' t ht f hf s hs)
  induction e using Expr.ind with
  | num q => simp [outTerms]
  | hI => simp [outTerms]
  | sym s => simp [outTerms]
  | add l ih =>
    simp only [outTerms, Expr.free]
    induction l with
    | nil => simp [outSum]
    | cons e l ihl =>
      intro t ht f hf s hs
      rw [Expr.freeL, List.mem_append]
      rcases List.mem_append.1 ht with h | h
      · exact .inl (ih e (by simp) t h f hf s hs)
      · exact .inr (ihl (fun e' he => ih e' (by simp [he])) t h f hf s hs)
  | mul l ih =>
    simp only [outTerms, Expr.free]
    induction l with
    | nil => simp [outProd]
    | cons e l ihl =>
      refine cross_factors (P := fun f => ∀ s ∈ f.free, s ∈ Expr.freeL (e :: l)) ?_ ?_
      · intro t h f hf s hs
        rw [Expr.freeL, List.mem_append]
        exact .inl (ih e (by simp) t h f hf s hs)
      · intro t h f hf s hs
        rw [Expr.freeL, List.mem_append]
        exact .inr (ihl (fun e' he => ih e' (by simp [he])) t h f hf s hs)
  | pow b m ih =>
    simp only [outTerms, Expr.free]
    induction m with
    | zero => simp
    | succ m ihm =>
      rw [List.replicate_succ, List.foldr_cons]
      exact cross_factors (P := fun f => ∀ s ∈ f.free, s ∈ b.free) ih ihm
  | cos e ih => simp [outTerms]
  | sin e ih => simp [outTerms]

/-- The sum of the terms. -/
def outExpr (e : Expr) : Expr := .add ((outTerms e).map (fun t => .mul (.num t.1 :: t.2)))

/-- `expr.expand()`: multiplying out. -/
def multiplyOut : Rewriting where
  run := outExpr
  eval_run σ e := by
    refine Eq.trans ?_ (outTerms_val σ e)
    unfold outExpr termsVal
    rw [Expr.eval, Expr.evalSum_eq, List.map_map]
    congr 1
    refine List.map_congr_left (fun t _ => ?_)
    simp [Expr.eval, Expr.evalProd, evalProd_eq']
  free_run e s hs := by
    unfold outExpr at hs
    rw [Expr.free, Expr.mem_freeL] at hs
    obtain ⟨u, hu, hs⟩ := hs
    obtain ⟨t, ht, rfl⟩ := List.mem_map.1 hu
    rw [Expr.free, Expr.mem_freeL] at hs
    obtain ⟨f, hf, hs⟩ := hs
    rcases List.mem_cons.1 hf with rfl | hf
    · simp [Expr.free] at hs
    · exact leaves_free e t ht f hf s hs

theorem multiplyOut_expanded {n : ℕ} {e : Expr} (h : AnglesP (Digits n) e) :
    Expanded n (multiplyOut.run e) ((outTerms e).map (fun t => t.2)) := by
  refine .inl ⟨_, rfl, ?_⟩
  have := leaves_digits e h
  unfold Leaves at this
  generalize outTerms e = ts at this
  induction ts with
  | nil => exact .nil
  | cons t ts ih => exact .product (this t (by simp)) (ih (fun u hu => this u (by simp [hu])))

/-- Rounding half up. -/
def halfUp (n : ℕ) : DecRound n where
  rnd q := (round (q * 10 ^ n) : ℤ) / 10 ^ n
  close q := by
    have h : (0 : ℚ) < 10 ^ n := by positivity
    have h1 := abs_sub_round (q * 10 ^ n)
    have h2 : ((round (q * 10 ^ n) : ℤ) / 10 ^ n - q : ℚ) = -((q * 10 ^ n - round (q * 10 ^ n)) / 10 ^ n) := by
      field_simp
      ring
    rw [h2, abs_neg, abs_div, abs_of_pos h, one_div_pow, mul_one_div]
    exact div_le_div_of_nonneg_right h1 h.le
  digits z := by
    have h : (10 : ℚ) ^ n ≠ 0 := by positivity
    rw [div_mul_cancel₀ _ h, round_intCast]

/-! ## C81 -/

section
variable (S : Sympy) (ex : Rewriting) {n : ℕ} (D : DecRound n)

/-- C81.  With `ndigits=n` the call fails exactly when it fails without rounding, writes the same single file, and that file has
the same combinations and numbers of components.  Each component has no new symbols; and if the expanded formula is a sum
of products, the value changes by at most half a unit of digit `n` for each term, times the size of the rest of the term. -/
theorem C81_rounding (R : Repr) (fs : Files) (nfs : NpFiles) (save pre : Key) (chiD chiQ : Nd Expr) (M : ℕ) :
    (∀ err, generateContractedRounded S ex D R fs nfs save pre chiD chiQ M = .error err ↔
      generateContracted S R fs nfs save pre chiD chiQ M = .error err) ∧
    ∀ fs₁, generateContracted S R fs nfs save pre chiD chiQ M = .ok fs₁ →
      ∃ fs₂ content₁ content₂, generateContractedRounded S ex D R fs nfs save pre chiD chiQ M = .ok fs₂ ∧
        (∀ name, name ≠ save → fs₂ name = fs name) ∧ fs₁ save = some content₁ ∧ fs₂ save = some content₂ ∧
        Dict.keys content₂ = Dict.keys content₁ ∧
        ∀ k i, (∀ e, Saved R content₁ k i e → ∃ e', Saved R content₂ k i e') ∧
          (∀ e', Saved R content₂ k i e' → ∃ e, Saved R content₁ k i e ∧ (∀ s ∈ e'.free, s ∈ e.free) ∧
            ∀ ts, Expanded n (ex.run e) ts → ∀ σ, ‖e'.eval σ - e.eval σ‖ ≤
              (1 / 2) * (1 / 10) ^ n * (ts.map (fun fs => ‖(fs.map (fun f => f.eval σ)).prod‖)).sum) := by
  unfold generateContractedRounded generateContracted
  cases hd : contractedFform S nfs pre chiD chiQ M with
  | error e =>
    refine ⟨fun err => ⟨fun h => h, fun h => h⟩, fun fs₁ h => ?_⟩
    cases h
  | ok d =>
    refine ⟨fun err => ⟨?_, ?_⟩, fun fs₁ h => ?_⟩
    · intro h
      cases h
    · intro h
      cases h
    cases h
    refine ⟨_, _, _, rfl, fun name hname => if_neg hname, if_pos rfl, if_pos rfl, by simp, fun k i => ⟨?_, ?_⟩⟩
    · rintro e ⟨v, s, h1, h2, h3⟩
      rw [Dict.get?_mapVals] at h1
      obtain ⟨w, hw, rfl⟩ := Option.map_eq_some_iff.1 h1
      rw [List.getElem?_map] at h2
      obtain ⟨a, ha, rfl⟩ := Option.map_eq_some_iff.1 h2
      refine ⟨_, _, _, by rw [Dict.get?_mapVals, hw]; rfl, by rw [List.getElem?_map, ha]; rfl, R.round_trip _⟩
    · rintro e' ⟨v, s, h1, h2, h3⟩
      rw [Dict.get?_mapVals] at h1
      obtain ⟨w, hw, rfl⟩ := Option.map_eq_some_iff.1 h1
      rw [List.getElem?_map] at h2
      obtain ⟨a, ha, rfl⟩ := Option.map_eq_some_iff.1 h2
      rw [R.round_trip] at h3
      cases h3
      refine ⟨a, ⟨_, _, by rw [Dict.get?_mapVals, hw]; rfl, by rw [List.getElem?_map, ha]; rfl, R.round_trip _⟩, ?_, ?_⟩
      · intro s hs
        have := S.free_norm _ _ hs
        rw [free_roundNums] at this
        exact ex.free_run _ _ this
      · intro ts hts σ
        unfold roundExpr
        rw [S.eval_norm, ← ex.eval_run σ a]
        exact expanded_round D hts σ

/-- C81.  A formula without a number of more than `n` digits keeps its value. -/
theorem C81_exact {e : Expr} (h : Digits n (ex.run e)) (σ : Sym → ℂ) : (roundExpr S ex D e).eval σ = e.eval σ := by
  unfold roundExpr
  rw [S.eval_norm, roundNums_digits D _ h, ex.eval_run]

end

/-- C81, for multiplying out: the bound holds for every formula whose angles are given with at most `n` digits (in particular for
angles of incidence that are symbols). -/
theorem C81_multiplied (S : Sympy) {n : ℕ} (D : DecRound n) {e : Expr} (h : AnglesP (Digits n) e) (σ : Sym → ℂ) :
    ‖(roundExpr S multiplyOut D e).eval σ - e.eval σ‖ ≤
      (1 / 2) * (1 / 10) ^ n * ((outTerms e).map (fun t => ‖(t.2.map (fun f => f.eval σ)).prod‖)).sum := by
  unfold roundExpr
  rw [S.eval_norm, ← multiplyOut.eval_run σ e]
  refine (expanded_round D (multiplyOut_expanded h) σ).trans (le_of_eq ?_)
  rw [sizes, List.map_map]
  rfl

/-! ### The hypotheses can be met -/

/-- `(x/3 + cos(theta)/7)*(x + 2)`. -/
def roundSample : Expr :=
  .mul [.add [.mul [.num (1 / 3), .sym ⟨['x'], 1⟩], .mul [.num (1 / 7), .cos (.sym thetaSym)]], .add [.sym ⟨['x'], 1⟩, .num 2]]

example : AnglesP (Digits 2) roundSample := by simp [roundSample, AnglesP, AnglesPL, Digits]

/-- With two digits, `x*x/3` becomes `0.33*x*x`, and so on. -/
example : (outTerms roundSample).map (fun t => (halfUp 2).rnd t.1) = [33 / 100, 67 / 100, 14 / 100, 29 / 100] := by
  simp only [roundSample, outTerms, outProd, outSum, crossTerms, halfUp]
  norm_num [round_eq]

example : ∃ nfs' fs', generateUncontracted Sympy.plain (fun _ => none) (1 / 2) ['f'] 16 = .ok nfs' ∧
    generateContractedRounded Sympy.plain multiplyOut (halfUp 4) exRepr (fun _ => none) nfs' ['s'] ['f'] sampleTensor
      sampleQuadrupole 16 = .ok fs' := by
  obtain ⟨nfs', fs₁, h1, h2, _⟩ := C52_components Sympy.plain exRepr (fun _ => none) (fun _ => none) ['f'] ['s'] (1 / 2)
    sample_valid'
  obtain ⟨fs₂, _, _, h3, _⟩ := (C81_rounding Sympy.plain multiplyOut (halfUp 4) exRepr (fun _ => none) nfs' ['s'] ['f'] sampleTensor
    sampleQuadrupole 16).2 fs₁ h2
  exact ⟨nfs', fs₂, h1, h3⟩

end Shgpy
