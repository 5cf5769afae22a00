import Verif.Proofs.FormulaFiles
import Verif.Proofs.Seen
import Verif.Props.SaveFform

/-!
# Files of Fourier formulas that are written step by step: C132, C133

`s` and `fs` are the files with arrays and with formulas before a call, arbitrary.  `bad` is the exception raised by reading a file that
has not been written to its end.
-/

namespace Shgpy
open Spec

variable (S : Sympy) (R : Repr)

section
variable {pre : Key} {θ θ' : (Sym → ℝ) → ℝ} {l l' : List (WStep (List FTensor))} {chiD chiQ : Nd Expr}

/-! ## C132 -/

/-- **C132, calls that are not interrupted.**  The steps make the files of the model of C52. -/
theorem C132_whole (nfs : NpFiles) (aoi : ℚ) (M : ℕ) :
    (∀ l, uncontractedSteps S aoi pre M = .ok l → ∃ nfs', generateUncontracted S nfs aoi pre M = .ok nfs' ∧
      Store.after (fun n => (nfs n).map .whole) l = fun n => (nfs' n).map .whole) ∧
    (∀ e, uncontractedSteps S aoi pre M = .error e → generateUncontracted S nfs aoi pre M = .error e) ∧
    (∀ l, uncontractedSymbSteps S pre M = .ok l → ∃ nfs', generateUncontractedSymb S nfs pre M = .ok nfs' ∧
      Store.after (fun n => (nfs n).map .whole) l = fun n => (nfs' n).map .whole) ∧
    (∀ e, uncontractedSymbSteps S pre M = .error e → generateUncontractedSymb S nfs pre M = .error e) := by
  have key : ∀ c s t, Store.after (fun n => (nfs n).map .whole) (saveUncontractedSteps S pre c s t) =
      fun n => (saveUncontracted S nfs pre c s t n).map .whole := by
    intro c s t
    funext n
    simp only [saveUncontractedSteps, fileSteps, Store.after, Store.step, saveUncontracted, npSave, List.cons_append, List.nil_append,
      List.foldl_cons, List.foldl_nil]
    split_ifs <;> rfl
  refine ⟨fun l h => ?_, fun e h => ?_, fun l h => ?_, fun e h => ?_⟩
  · unfold uncontractedSteps at h
    obtain ⟨t, h1, h⟩ := bind_ok h
    cases h
    refine ⟨_, ?_, key _ _ t⟩
    unfold generateUncontracted
    dsimp only
    rw [h1]
    rfl
  · unfold uncontractedSteps at h
    unfold generateUncontracted
    dsimp only at h ⊢
    cases ht : uncontractedBoth S M (substituteIntoArray S [(thetaSym, .num aoi)] (koutSym S))
      (substituteIntoArray S [(thetaSym, .num aoi)] (kinSym S)) with
    | ok t => rw [ht] at h; cases h
    | error e' => rw [ht] at h; cases h; rfl
  · unfold uncontractedSymbSteps at h
    obtain ⟨t, h1, h⟩ := bind_ok h
    cases h
    refine ⟨_, ?_, key _ _ t⟩
    unfold generateUncontractedSymb
    rw [h1]
    rfl
  · unfold uncontractedSymbSteps at h
    unfold generateUncontractedSymb
    cases ht : uncontractedBoth S M (koutSym S) (kinSym S) with
    | ok t => rw [ht] at h; cases h
    | error e' => rw [ht] at h; cases h; rfl

/-- **C132, what an interruption leaves.**  Arrays for the angle `θ` have been written under a prefix, and then a call that writes arrays
for `θ'` under the same prefix is interrupted after `n` steps.  When a file has been left incomplete, `generate_contracted_fourier_transforms`
raises.  Otherwise it succeeds, with the angle `θ'` for the combinations whose file had been written, and the angle `θ` for the others. -/
theorem C132_interrupted (h : WritesArrays S pre θ l) (h' : WritesArrays S pre θ' l') (s : Store (List FTensor)) (n : ℕ) (bad : Err)
    (fs : Store (Dict Key (List Key))) (save : Key) (hv : ValidTensors (some chiD) none (some chiQ)) :
    ((n < 8 ∧ n % 2 = 1) →
      contractedSteps S R (fun _ => (s.after l).after (l'.take n)) bad save pre chiD chiQ 16 = .error bad) ∧
    (¬ (n < 8 ∧ n % 2 = 1) →
      ∃ steps c, contractedSteps S R (fun _ => (s.after l).after (l'.take n)) bad save pre chiD chiQ 16 = .ok steps ∧
        loadFformFile S R (fs.after steps) bad save = .ok c ∧
        HoldsIntensities c chiD chiQ (fun p q => if 2 * comboNumber p q + 2 ≤ n then θ' else θ)) := by
  obtain ⟨A, rfl, hA⟩ := writesArrays_steps S h
  obtain ⟨A', rfl, hA'⟩ := writesArrays_steps S h'
  have h0 : ∀ p q, s.after (fourSaves pre A) (arrayFile pre p q) = some (.whole (A p q)) := by
    intro p q
    have := after_fourSaves s pre A 8 p q
    rw [List.take_of_length_le (by rw [fourSaves_length])] at this
    have h3 := comboNumber_lt p q
    rw [this, if_pos (by omega)]
  have hf := fun p q => after_fourSaves (s.after (fourSaves pre A)) pre A' n p q
  constructor
  · rintro ⟨h8, hodd⟩
    obtain ⟨p, q, hpq⟩ := combo_of_number (j := n / 2) (by omega)
    refine during_error S (p := p) (q := q) (fun p' q' hlt => ?_) ?_ hv
    · exact ⟨A' p' q', by rw [hf, if_pos (by omega)]⟩
    · unfold Store.load
      rw [hf, if_neg (by omega), if_pos (by omega)]
  · intro hn
    refine generated_mixed S R fs save (l := fun p q => if 2 * comboNumber p q + 2 ≤ n then A' p q else A p q) (fun p q => ?_)
      (fun p q => ?_) hv
    · have h3 := comboNumber_lt p q
      rw [hf]
      split_ifs with h1 h2
      · rfl
      · omega
      · rw [h0]
    · split_ifs
      · exact hA' p q
      · exact hA p q

/-- **C132, a prefix that is used for the first time.**  Before the call has ended, contracting raises, so an interruption is noticed;
afterwards the formulas are right. -/
theorem C132_fresh_partial (h : WritesArrays S pre θ l) (s : Store (List FTensor)) (hs : ∀ p q, s (arrayFile pre p q) = none) (n : ℕ)
    (bad : Err) (fs : Store (Dict Key (List Key))) (save : Key) (hv : ValidTensors (some chiD) none (some chiQ)) :
    (n < 8 → contractedSteps S R (fun _ => s.after (l.take n)) bad save pre chiD chiQ 16 =
      .error (if n % 2 = 1 then bad else .fileNotFoundError)) ∧
    (8 ≤ n → ∃ steps c, contractedSteps S R (fun _ => s.after (l.take n)) bad save pre chiD chiQ 16 = .ok steps ∧
      loadFformFile S R (fs.after steps) bad save = .ok c ∧ HoldsIntensities c chiD chiQ (fun _ _ => θ)) := by
  obtain ⟨A, rfl, hA⟩ := writesArrays_steps S h
  have hf := fun p q => after_fourSaves s pre A n p q
  constructor
  · intro h8
    obtain ⟨p, q, hpq⟩ := combo_of_number (j := n / 2) (by omega)
    refine during_error S (p := p) (q := q) (fun p' q' hlt => ?_) ?_ hv
    · exact ⟨A p' q', by rw [hf, if_pos (by omega)]⟩
    · unfold Store.load
      rw [hf, if_neg (by omega)]
      by_cases h2 : n % 2 = 1
      · rw [if_pos (by omega), if_pos h2]
      · rw [if_neg (by omega), if_neg h2, hs]
  · intro h8
    refine generated_mixed S R fs save (l := A) (fun p q => ?_) hA hv
    have h3 := comboNumber_lt p q
    rw [hf, if_pos (by omega)]

/-- **C132, repeating the same call.**  When the interrupted call has the angle of the one before, contracting raises or gives the right
formulas. -/
theorem C132_same_angle_partial (h : WritesArrays S pre θ l) (h' : WritesArrays S pre θ l') (s : Store (List FTensor)) (n : ℕ) (bad : Err)
    (fs : Store (Dict Key (List Key))) (save : Key) (hv : ValidTensors (some chiD) none (some chiQ)) :
    contractedSteps S R (fun _ => (s.after l).after (l'.take n)) bad save pre chiD chiQ 16 = .error bad ∨
    ∃ steps c, contractedSteps S R (fun _ => (s.after l).after (l'.take n)) bad save pre chiD chiQ 16 = .ok steps ∧
      loadFformFile S R (fs.after steps) bad save = .ok c ∧ HoldsIntensities c chiD chiQ (fun _ _ => θ) := by
  obtain ⟨h1, h2⟩ := C132_interrupted S R h h' s n bad fs save hv
  by_cases hn : n < 8 ∧ n % 2 = 1
  · exact .inl (h1 hn)
  · right
    simpa only [ite_self] using h2 hn

/-- **C132, repair.**  Whatever earlier calls have left, a call that is not interrupted makes the formulas right. -/
theorem C132_repair (h : WritesArrays S pre θ l) (s : Store (List FTensor)) (bad : Err) (fs : Store (Dict Key (List Key))) (save : Key)
    (hv : ValidTensors (some chiD) none (some chiQ)) :
    ∃ steps c, contractedSteps S R (fun _ => s.after l) bad save pre chiD chiQ 16 = .ok steps ∧
      loadFformFile S R (fs.after steps) bad save = .ok c ∧ HoldsIntensities c chiD chiQ (fun _ _ => θ) := by
  obtain ⟨A, rfl, hA⟩ := writesArrays_steps S h
  refine generated_mixed S R fs save (l := A) (fun p q => ?_) hA hv
  have := after_fourSaves s pre A 8 p q
  rw [List.take_of_length_le (by rw [fourSaves_length])] at this
  have h3 := comboNumber_lt p q
  rw [this, if_pos (by omega)]

end

/-! ### Files of formulas -/

/-- **C132, files of formulas.**  When saving formulas is interrupted, by `save_fform` or `generate_contracted_fourier_transforms`, loading
them gives what was there before, raises, or gives what would be loaded without the interruption; the old formulas are lost in the second
case.  Other files are as before. -/
theorem C132_formulas_file {steps : List (WStep (Dict Key (List Key)))} {name : Key} (bad : Err)
    (h : (∃ c, steps = saveFformSteps R c name) ∨
      ∃ v bad' pre chiD chiQ M, contractedSteps S R v bad' name pre chiD chiQ M = .ok steps)
    (fs : Store (Dict Key (List Key))) :
    loadFformFile S R (fs.after (steps.take 0)) bad name = loadFformFile S R fs bad name ∧
    loadFformFile S R (fs.after (steps.take 1)) bad name = .error bad ∧
    (∀ n, 2 ≤ n → fs.after (steps.take n) = fs.after steps) ∧
    ∀ n name', name' ≠ name → loadFformFile S R (fs.after (steps.take n)) bad name' = loadFformFile S R fs bad name' := by
  have hst : ∃ d, steps = fileSteps name d := by
    rcases h with ⟨c, rfl⟩ | ⟨v, bad', pre, chiD, chiQ, M, h⟩
    · exact ⟨_, rfl⟩
    · unfold contractedSteps at h
      obtain ⟨d, _, h⟩ := bind_ok h
      cases h
      exact ⟨_, rfl⟩
  obtain ⟨d, rfl⟩ := hst
  refine ⟨rfl, ?_, fun n hn => by rw [List.take_of_length_le (by simpa [fileSteps] using hn)], fun n name' hne => ?_⟩
  · simp [loadFformFile, Store.load, fileSteps, Store.after, Store.step, error_bind]
  · have : fs.after ((fileSteps name d).take n) name' = fs name' := by
      rcases n with _ | _ | n <;> simp [fileSteps, Store.after, Store.step, hne]
    unfold loadFformFile Store.load
    rw [this]

/-- **C132, saved formulas.**  Formulas of `M = 16` that are saved to the end are loaded. -/
theorem C132_saved {c : FFormContainer} (hc : c.Reachable S) (hs : Symbolic c) (hM : c.getM = 16) (fs : Store (Dict Key (List Key)))
    (name : Key) (bad : Err) : loadFformFile S R (fs.after (saveFformSteps R c name)) bad name = .ok c := by
  rw [← C33_round_trip_partial S R (fun _ => none) name hc hs hM]
  unfold loadFformFile loadFform saveFform
  rw [Store.load_whole (a := c.fform.mapVals (fun v => v.objs.map R.srepr)) (by simp [saveFformSteps, fileSteps, Store.after, Store.step])]
  simp [ok_bind]

/-- **C132, contraction without other processes.**  With complete files, the contraction is that of C52. -/
theorem C132_contraction (nfs : NpFiles) (bad : Err) (pre : Key) (chiD chiQ : Nd Expr) (M : ℕ) :
    contractedDuring S (fun _ n => (nfs n).map .whole) bad pre chiD chiQ M = contractedFform S nfs pre chiD chiQ M := by
  have h : ∀ name, Store.load (fun n => (nfs n).map .whole) bad name = match nfs name with
      | some a => .ok a
      | none => .error .fileNotFoundError := by
    intro name
    unfold Store.load
    dsimp only
    cases nfs name <;> rfl
  unfold contractedDuring contractedFform
  simp only [h]
  rfl

/-! ### The mixture -/

/-- A crystal with the elements `zzz`, `zxx` and `zyy`. -/
def normalDipole : Nd Expr :=
  ⟨[3, 3, 3], fun idx => if idx = [2, 2, 2] ∨ idx = [2, 0, 0] ∨ idx = [2, 1, 1] then .num 1 else .num 0⟩

theorem normalDipole_valid : ValidTensors (some normalDipole) none (some (zerosNd [3, 3, 3, 3])) := by
  refine ⟨by rintro t ⟨⟩; rfl, by simp, by rintro t ⟨⟩; rfl, by simp, fun t ht s hs => ?_⟩
  obtain ⟨idx, _, hs⟩ := hs
  rcases ht with ht | ht | ht
  · cases ht
    simp only [normalDipole] at hs
    split_ifs at hs <;> simp [Expr.free] at hs
  · cases ht
  · cases ht
    simp [zerosNd, Expr.free] at hs

/-- With output `P` its intensity is the square of the sine of the angle of incidence. -/
theorem normalDipole_intensity (σ : Valuation) (θ φ : ℝ) (p : Pol) :
    intensity (crystalOf (some normalDipole) none (some (zerosNd [3, 3, 3, 3])) σ) θ φ p .P = Real.sin θ ^ 2 := by
  have hu : ∀ v : CVec, inCrystal φ v 0 ^ 2 + inCrystal φ v 1 ^ 2 + inCrystal φ v 2 ^ 2 = v 0 ^ 2 + v 1 ^ 2 + v 2 ^ 2 := by
    intro v
    rw [inCrystal_apply]
    simp
    linear_combination (v 0 ^ 2 + v 1 ^ 2) * Complex.sin_sq_add_cos_sq (φ : ℂ)
  have h1 : fieldIn θ p 0 ^ 2 + fieldIn θ p 1 ^ 2 + fieldIn θ p 2 ^ 2 = 1 := by
    cases p
    · simp [fieldIn]
    · simp [fieldIn]
  have hw : inCrystal φ (outDir θ .P) 2 = (Real.sin θ : ℂ) := by
    rw [inCrystal_apply]
    simp [outDir]
  rw [intensity_amplitude]
  have ha : ∀ w m κ u : CVec, amplitude (crystalOf (some normalDipole) none (some (zerosNd [3, 3, 3, 3])) σ) w m κ u =
      w 2 * (u 0 ^ 2 + u 1 ^ 2 + u 2 ^ 2) := by
    intro w m κ u
    simp [amplitude, crystalOf, value3, value4, zerosNd, normalDipole, Fin.sum_univ_three, Expr.eval]
    ring
  rw [ha, hu, h1, hw, mul_one, Complex.normSq_ofReal]
  ring

theorem coeff_const (a : ℝ) : integralCoeff (fun _ => (a : ℂ)) 0 = (a : ℂ) := by
  unfold integralCoeff
  simp
  field_simp [Real.pi_ne_zero]

/-- Different angles of incidence in the combinations `PP` and `SP` belong to no angle. -/
theorem no_single_angle {c : FFormContainer} {θ : Pol → Pol → (Sym → ℝ) → ℝ}
    (h : HoldsIntensities c normalDipole (zerosNd [3, 3, 3, 3]) θ)
    (hne : Real.sin (θ .P .P (fun _ => 0)) ^ 2 ≠ Real.sin (θ .S .P (fun _ => 0)) ^ 2) (ϑ : (Sym → ℝ) → ℝ) :
    ¬ HoldsIntensities c normalDipole (zerosNd [3, 3, 3, 3]) (fun _ _ => ϑ) := by
  intro h'
  have key : ∀ p, Real.sin (θ p .P (fun _ => 0)) ^ 2 = Real.sin (ϑ (fun _ => 0)) ^ 2 := by
    intro p
    obtain ⟨a, o, h1, h2, h3⟩ := h.2.2 p .P 0 (by norm_num)
    obtain ⟨a', o', h1', h2', h3'⟩ := h'.2.2 p .P 0 (by norm_num)
    rw [h1] at h1'; cases h1'
    have := Option.some.inj (h2.2.symm.trans h2'.2)
    subst this
    have := (h3 (fun _ => 0)).symm.trans (h3' (fun _ => 0))
    simp only [normalDipole_intensity] at this
    rw [coeff_const, coeff_const] at this
    exact_mod_cast this
  exact hne ((key .P).trans (key .S).symm)

/-- **C132 is false.**  Arrays for one angle of incidence have been written under a prefix.  The call that is to replace them by those for
another angle is interrupted after the first file.  Contracting them succeeds; the formulas are those of no angle of incidence.  This is so
for all angles with different squares of the sine, and all other files. -/
theorem C132_mixture_broken {pre : Key} {aoi aoi' : ℚ} (hne : Real.sin aoi ^ 2 ≠ Real.sin aoi' ^ 2) {l l' : List (WStep (List FTensor))}
    (h : WritesArrays S pre (fun _ => aoi) l) (h' : WritesArrays S pre (fun _ => aoi') l') (s : Store (List FTensor)) (bad : Err)
    (fs : Store (Dict Key (List Key))) (save : Key) :
    ∃ chiD chiQ steps c, ValidTensors (some chiD) none (some chiQ) ∧
      contractedSteps S R (fun _ => (s.after l).after (l'.take 2)) bad save pre chiD chiQ 16 = .ok steps ∧
      loadFformFile S R (fs.after steps) bad save = .ok c ∧ ∀ ϑ, ¬ HoldsIntensities c chiD chiQ (fun _ _ => ϑ) := by
  obtain ⟨steps, c, h1, h2, h3⟩ := (C132_interrupted S R h h' s 2 bad fs save normalDipole_valid).2 (by simp)
  refine ⟨_, _, steps, c, normalDipole_valid, h1, h2, fun ϑ => no_single_angle h3 ?_ ϑ⟩
  simpa [comboNumber] using fun e => hne e.symm

/-- Angles as in the theorem, and the calls. -/
example : Real.sin (0 : ℚ) ^ 2 ≠ Real.sin (1 : ℚ) ^ 2 ∧ ∃ l l', WritesArrays Sympy.plain ['f'] (fun _ => ((0 : ℚ) : ℝ)) l ∧
    WritesArrays Sympy.plain ['f'] (fun _ => ((1 : ℚ) : ℝ)) l' := by
  obtain ⟨l, h⟩ := (writesArrays_exists Sympy.plain ['f']).1 0
  obtain ⟨l', h'⟩ := (writesArrays_exists Sympy.plain ['f']).1 1
  refine ⟨?_, l, l', h, h'⟩
  have : 0 < Real.sin 1 := Real.sin_pos_of_pos_of_lt_pi (by norm_num) (by linarith [Real.pi_gt_three])
  simpa using (pow_pos this 2).ne

/-! ## C133 -/

/-- **C133, different prefixes.**  Any number of processes write arrays at the same time, each under its own prefix; some may be
interrupted.  For every process that has made all its steps, the formulas made from its arrays are right. -/
theorem C133_separate {ι : Type} [DecidableEq ι] {pre : ι → Key} (hpre : Function.Injective pre) {θ : ι → (Sym → ℝ) → ℝ}
    {calls : ι → List (WStep (List FTensor))} (h : ∀ i, WritesArrays S (pre i) (θ i) (calls i)) {events : List (ι × WStep (List FTensor))}
    (he : Interleaved calls events) {i : ι} (hi : Completed calls events i) (s : Store (List FTensor)) (bad : Err)
    (fs : Store (Dict Key (List Key))) (save : Key) {chiD chiQ : Nd Expr} (hv : ValidTensors (some chiD) none (some chiQ)) :
    ∃ steps c, contractedSteps S R (fun _ => s.after (events.map Prod.snd)) bad save (pre i) chiD chiQ 16 = .ok steps ∧
      loadFformFile S R (fs.after steps) bad save = .ok c ∧ HoldsIntensities c chiD chiQ (fun _ _ => θ i) := by
  obtain ⟨A, hA, hst⟩ := writesArrays_steps S (h i)
  refine generated_mixed S R fs save (l := A) (fun p q => ?_) hst hv
  rw [Store.after_own (i := i) s s rfl]
  · have hi' : (events.filter (fun e => e.1 = i)).map Prod.snd = calls i := hi
    rw [hi', hA]
    have := after_fourSaves s (pre i) A 8 p q
    rw [List.take_of_length_le (by rw [fourSaves_length])] at this
    have h3 := comboNumber_lt p q
    rw [this, if_pos (by omega)]
  · intro e hmem hne heq
    obtain ⟨B, hB, _⟩ := writesArrays_steps S (h e.1)
    have : e.2 ∈ calls e.1 := (he e.1).subset (List.mem_map.2 ⟨e, List.mem_filter.2 ⟨hmem, by simp⟩, rfl⟩)
    rw [hB] at this
    obtain ⟨p', q', hn⟩ := fourSaves_names this
    rw [hn] at heq
    exact hne (hpre (arrayFile_inj.1 heq).1)

section
variable {pre : Key} {θ θ' : (Sym → ℝ) → ℝ} {l l' : List (WStep (List FTensor))} {chiD chiQ : Nd Expr}

/-- **C133, contracting while another process replaces the arrays.**  Before file number `t` is read, `n t` steps have been made.
Contracting raises exactly when it meets a file that is being written.  Otherwise, every combination has the old or the new angle of
incidence. -/
theorem C133_during (h : WritesArrays S pre θ l) (h' : WritesArrays S pre θ' l') (s : Store (List FTensor)) (n : ℕ → ℕ) (bad : Err)
    (fs : Store (Dict Key (List Key))) (save : Key) (hv : ValidTensors (some chiD) none (some chiQ)) :
    ((∃ t < 4, n t = 2 * t + 1) →
      contractedSteps S R (fun t => (s.after l).after (l'.take (n t))) bad save pre chiD chiQ 16 = .error bad) ∧
    ((∀ t < 4, n t ≠ 2 * t + 1) →
      ∃ steps c, contractedSteps S R (fun t => (s.after l).after (l'.take (n t))) bad save pre chiD chiQ 16 = .ok steps ∧
        loadFformFile S R (fs.after steps) bad save = .ok c ∧
        HoldsIntensities c chiD chiQ (fun p q => if 2 * comboNumber p q + 2 ≤ n (comboNumber p q) then θ' else θ)) := by
  obtain ⟨A, rfl, hA⟩ := writesArrays_steps S h
  obtain ⟨A', rfl, hA'⟩ := writesArrays_steps S h'
  have h0 : ∀ p q, s.after (fourSaves pre A) (arrayFile pre p q) = some (.whole (A p q)) := by
    intro p q
    have := after_fourSaves s pre A 8 p q
    rw [List.take_of_length_le (by rw [fourSaves_length])] at this
    have h3 := comboNumber_lt p q
    rw [this, if_pos (by omega)]
  have hf := fun p q n => after_fourSaves (s.after (fourSaves pre A)) pre A' n p q
  constructor
  · intro hex
    have hdec := Nat.find_spec hex
    have hmin := fun m => Nat.find_min hex (m := m)
    obtain ⟨p, q, hpq⟩ := combo_of_number hdec.1
    refine during_error S (p := p) (q := q) (fun p' q' hlt => ?_) ?_ hv
    · have := hmin (comboNumber p' q') (by omega)
      have h3 := comboNumber_lt p' q'
      rw [hf]
      split_ifs with h1 h2
      · exact ⟨_, rfl⟩
      · exact absurd ⟨h3, h2⟩ this
      · exact ⟨_, h0 p' q'⟩
    · unfold Store.load
      rw [hf, hpq, if_neg (by omega), if_pos hdec.2]
  · intro hn
    refine generated_mixed S R fs save
      (l := fun p q => if 2 * comboNumber p q + 2 ≤ n (comboNumber p q) then A' p q else A p q) (fun p q => ?_) (fun p q => ?_) hv
    · rw [hf]
      split_ifs with h1 h2
      · rfl
      · exact absurd h2 (hn _ (comboNumber_lt p q))
      · rw [h0]
    · split_ifs
      · exact hA' p q
      · exact hA p q

/-- **C133, contracting while the arrays are written for the first time.**  It raises or gives the right formulas. -/
theorem C133_during_fresh_partial (h : WritesArrays S pre θ l) (s : Store (List FTensor)) (hs : ∀ p q, s (arrayFile pre p q) = none)
    (n : ℕ → ℕ) (bad : Err) (fs : Store (Dict Key (List Key))) (save : Key) (hv : ValidTensors (some chiD) none (some chiQ)) :
    (∃ e, contractedSteps S R (fun t => s.after (l.take (n t))) bad save pre chiD chiQ 16 = .error e) ∨
    ∃ steps c, contractedSteps S R (fun t => s.after (l.take (n t))) bad save pre chiD chiQ 16 = .ok steps ∧
      loadFformFile S R (fs.after steps) bad save = .ok c ∧ HoldsIntensities c chiD chiQ (fun _ _ => θ) := by
  obtain ⟨A, rfl, hA⟩ := writesArrays_steps S h
  have hf := fun p q n => after_fourSaves s pre A n p q
  by_cases hex : ∃ t < 4, n t < 2 * t + 2
  · left
    have hdec := Nat.find_spec hex
    have hmin := fun m => Nat.find_min hex (m := m)
    obtain ⟨p, q, hpq⟩ := combo_of_number hdec.1
    refine ⟨if n (comboNumber p q) = 2 * comboNumber p q + 1 then bad else .fileNotFoundError,
      during_error S (p := p) (q := q) (fun p' q' hlt => ?_) ?_ hv⟩
    · have := hmin (comboNumber p' q') (by omega)
      have h3 := comboNumber_lt p' q'
      refine ⟨A p' q', ?_⟩
      rw [hf, if_pos (by by_contra hc; exact this ⟨h3, by omega⟩)]
    · unfold Store.load
      rw [hf, if_neg (by rw [hpq]; omega)]
      split_ifs
      · rfl
      · rw [hs]
  · right
    push Not at hex
    refine generated_mixed S R fs save (l := A) (fun p q => ?_) hA hv
    rw [hf, if_pos (hex _ (comboNumber_lt p q))]

end

/-- **C133 is false for the same prefix.**  Two processes write arrays for different angles of incidence under the same prefix, and both
make all their steps, no file being written by both at the same time.  Afterwards contracting succeeds; the formulas are those of no angle
of incidence. -/
theorem C133_same_prefix_broken {pre : Key} {aoi : Bool → ℚ} (hne : Real.sin (aoi false) ^ 2 ≠ Real.sin (aoi true) ^ 2)
    {calls : Bool → List (WStep (List FTensor))} (h : ∀ i, WritesArrays S pre (fun _ => aoi i) (calls i)) (s : Store (List FTensor))
    (bad : Err) (fs : Store (Dict Key (List Key))) (save : Key) :
    ∃ events chiD chiQ steps c, Interleaved calls events ∧ Completed calls events false ∧ Completed calls events true ∧
      ValidTensors (some chiD) none (some chiQ) ∧
      contractedSteps S R (fun _ => s.after (events.map Prod.snd)) bad save pre chiD chiQ 16 = .ok steps ∧
      loadFformFile S R (fs.after steps) bad save = .ok c ∧ ∀ ϑ, ¬ HoldsIntensities c chiD chiQ (fun _ _ => ϑ) := by
  obtain ⟨A, hA, hst⟩ := writesArrays_steps S (h false)
  obtain ⟨B, hB, hst'⟩ := writesArrays_steps S (h true)
  have hc : ∀ i, Completed calls (((calls false).take 2).map (fun x => (false, x)) ++ (calls true).map (fun x => (true, x)) ++
      ((calls false).drop 2).map (fun x => (false, x))) i := by
    intro i
    unfold Completed
    cases i <;> rw [hA, hB] <;> rfl
  obtain ⟨steps, c, h1, h2, h3⟩ := generated_mixed S R fs save (bad := bad)
    (v := fun _ => s.after ((((calls false).take 2).map (fun x => (false, x)) ++ (calls true).map (fun x => (true, x)) ++
      ((calls false).drop 2).map (fun x => (false, x))).map Prod.snd)) (pre := pre)
    (l := fun p q => if comboNumber p q = 0 then B p q else A p q)
    (θ := fun p q _ => if comboNumber p q = 0 then aoi true else aoi false) (fun p q => by
      rw [hA, hB]
      cases p <;> cases q <;>
        simp [fourSaves, fileSteps, Store.after, Store.step, comboNumber, arrayFile_inj]) (fun p q => by
      split_ifs
      · exact hst' p q
      · exact hst p q) normalDipole_valid
  refine ⟨_, _, _, steps, c, fun i => ?_, hc false, hc true, normalDipole_valid, h1, h2, fun ϑ => no_single_angle h3 ?_ ϑ⟩
  · have : _ = calls i := hc i
    exact ⟨[], by rw [List.append_nil]; exact this⟩
  · simpa [comboNumber] using fun e => hne e.symm

/-- **C133 is false while arrays are replaced.**  A process contracts arrays while another one replaces them by those of another angle of
incidence, which it does between the reading of the first and of the second file: contracting succeeds; the formulas are those of no angle
of incidence. -/
theorem C133_during_broken {pre : Key} {aoi aoi' : ℚ} (hne : Real.sin aoi ^ 2 ≠ Real.sin aoi' ^ 2) {l l' : List (WStep (List FTensor))}
    (h : WritesArrays S pre (fun _ => aoi) l) (h' : WritesArrays S pre (fun _ => aoi') l') (s : Store (List FTensor)) (bad : Err)
    (fs : Store (Dict Key (List Key))) (save : Key) :
    ∃ n : ℕ → ℕ, Monotone n ∧ ∃ chiD chiQ steps c, ValidTensors (some chiD) none (some chiQ) ∧
      contractedSteps S R (fun t => (s.after l).after (l'.take (n t))) bad save pre chiD chiQ 16 = .ok steps ∧
      loadFformFile S R (fs.after steps) bad save = .ok c ∧ ∀ ϑ, ¬ HoldsIntensities c chiD chiQ (fun _ _ => ϑ) := by
  refine ⟨fun t => if t = 0 then 0 else 8, fun a b hab => ?_, ?_⟩
  · dsimp only
    split_ifs <;> omega
  · obtain ⟨steps, c, h1, h2, h3⟩ := (C133_during S R h h' s (fun t => if t = 0 then 0 else 8) bad fs save normalDipole_valid).2
      (fun t ht => by split_ifs <;> omega)
    refine ⟨_, _, steps, c, normalDipole_valid, h1, h2, fun ϑ => no_single_angle h3 ?_ ϑ⟩
    simpa [comboNumber] using hne

/-- Two processes with their own prefixes, the steps of which alternate. -/
example : ∃ calls : Bool → List (WStep (List FTensor)), ∃ events,
    (∀ i, WritesArrays Sympy.plain (if i then ['a'] else ['b']) (fun _ => (((if i then 0 else 1) : ℚ) : ℝ)) (calls i)) ∧
    Interleaved calls events ∧ Completed calls events true ∧ Completed calls events false ∧
    events.map Prod.fst = (List.range 8).flatMap (fun _ => [true, false]) := by
  choose l hl using fun (p : Key) (a : ℚ) => (writesArrays_exists Sympy.plain p).1 a
  obtain ⟨A, hA, _⟩ := writesArrays_steps _ (hl ['a'] 0)
  obtain ⟨B, hB, _⟩ := writesArrays_steps _ (hl ['b'] 1)
  let calls : Bool → List (WStep (List FTensor)) := fun i => if i then fourSaves ['a'] A else fourSaves ['b'] B
  have hc : ∀ i, Completed calls ((List.zip (fourSaves ['a'] A) (fourSaves ['b'] B)).flatMap (fun x => [(true, x.1), (false, x.2)])) i := by
    intro i
    cases i <;> rfl
  refine ⟨calls, _, fun i => ?_, fun i => ?_, hc true, hc false, rfl⟩
  · cases i
    · show WritesArrays _ ['b'] _ (fourSaves ['b'] B)
      rw [← hB]; exact hl _ _
    · show WritesArrays _ ['a'] _ (fourSaves ['a'] A)
      rw [← hA]; exact hl _ _
  · exact ⟨[], by rw [List.append_nil]; exact hc i⟩

end Shgpy
