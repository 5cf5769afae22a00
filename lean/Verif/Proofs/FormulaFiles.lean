import Verif.Spec.FormulaFiles
import Verif.Proofs.Fformgen5

/-!
# Lemmas on files of Fourier formulas that are written step by step
-/

namespace Shgpy
open Spec

theorem arrayFile_eq (pre : Key) (p q : Pol) : arrayFile pre p q = termsFile pre p q := by
  cases p <;> cases q <;> rfl

theorem arrayFile_inj {pre pre' : Key} {p q p' q' : Pol} : arrayFile pre p q = arrayFile pre' p' q' ↔ pre = pre' ∧ p = p' ∧ q = q' := by
  constructor
  · intro h
    unfold arrayFile at h
    rw [List.append_assoc, List.append_assoc, List.append_assoc, List.append_assoc] at h
    obtain ⟨h1, h2⟩ := List.append_inj' h rfl
    refine ⟨h1, ?_⟩
    revert h2
    cases p <;> cases q <;> cases p' <;> cases q' <;> simp
  · rintro ⟨rfl, rfl, rfl⟩
    rfl

/-- The steps with which four arrays are written. -/
def fourSaves (pre : Key) (A : Pol → Pol → List FTensor) : List (WStep (List FTensor)) :=
  fileSteps (arrayFile pre .P .P) (A .P .P) ++ fileSteps (arrayFile pre .P .S) (A .P .S) ++
    fileSteps (arrayFile pre .S .P) (A .S .P) ++ fileSteps (arrayFile pre .S .S) (A .S .S)

variable (S : Sympy)

theorem saveUncontracted_steps {pre : Key} {c s : Expr} {t : List FTensor × List FTensor} {θ : (Sym → ℝ) → ℝ}
    (h : AllStored (saveUncontracted S (fun _ => none) pre c s t) pre θ) :
    ∃ A : Pol → Pol → List FTensor, saveUncontractedSteps S pre c s t = fourSaves pre A ∧ ∀ p q, Stored (A p q) θ p q := by
  refine ⟨fun p q => substTerms S (if p = .P then c else .num 0) (if p = .P then .num 0 else .num (-1)) (if p = .P then s else .num 0)
    (if q = .P then t.1 else t.2), ?_, fun p q => ?_⟩
  · simp [saveUncontractedSteps, fourSaves, arrayFile]
  · obtain ⟨l, h1, h2⟩ := h p q
    rw [← arrayFile_eq] at h1
    have e : ∀ (x : Key), pre ++ '_' :: x = pre ++ ['_'] ++ x := by simp
    cases p <;> cases q <;> simp [saveUncontracted, npSave, arrayFile] at h1 <;> simpa [h1] using h2

theorem writesArrays_steps {pre : Key} {θ : (Sym → ℝ) → ℝ} {l : List (WStep (List FTensor))} (h : WritesArrays S pre θ l) :
    ∃ A : Pol → Pol → List FTensor, l = fourSaves pre A ∧ ∀ p q, Stored (A p q) θ p q := by
  cases h with
  | @num aoi _ h =>
    obtain ⟨t, h1, h2⟩ := saved S (geometry_num S aoi) (fun _ => none) pre
    unfold uncontractedSteps at h
    dsimp only at h
    rw [h1, ok_bind] at h
    cases h
    exact saveUncontracted_steps S h2
  | symb h =>
    obtain ⟨t, h1, h2⟩ := saved S (geometry_symb S) (fun _ => none) pre
    unfold uncontractedSymbSteps at h
    rw [h1, ok_bind] at h
    cases h
    exact saveUncontracted_steps S h2

/-- Both functions succeed. -/
theorem writesArrays_exists (pre : Key) : (∀ aoi : ℚ, ∃ l, WritesArrays S pre (fun _ => aoi) l) ∧
    ∃ l, WritesArrays S pre (fun r => r thetaSym) l := by
  constructor
  · intro aoi
    obtain ⟨t, h1, _⟩ := saved S (geometry_num S aoi) (fun _ => none) pre
    exact ⟨_, .num (by unfold uncontractedSteps; dsimp only; rw [h1, ok_bind]; rfl)⟩
  · obtain ⟨t, h1, _⟩ := saved S (geometry_symb S) (fun _ => none) pre
    exact ⟨_, .symb (by unfold uncontractedSymbSteps; rw [h1, ok_bind]; rfl)⟩

/-! ## Files after some steps -/

theorem Store.after_append {α : Type} (s : Store α) (l l' : List (WStep α)) : s.after (l ++ l') = (s.after l).after l' := by
  simp [Store.after]

theorem fourSaves_length (pre : Key) (A : Pol → Pol → List FTensor) : (fourSaves pre A).length = 8 := rfl

/-- A file after the first `n` of the eight steps. -/
theorem after_fourSaves (s : Store (List FTensor)) (pre : Key) (A : Pol → Pol → List FTensor) (n : ℕ) (p q : Pol) :
    s.after ((fourSaves pre A).take n) (arrayFile pre p q) =
      if 2 * comboNumber p q + 2 ≤ n then some (.whole (A p q)) else if n = 2 * comboNumber p q + 1 then some .cut
      else s (arrayFile pre p q) := by
  have key : ∀ n ≤ 8, s.after ((fourSaves pre A).take n) (arrayFile pre p q) =
      if 2 * comboNumber p q + 2 ≤ n then some (.whole (A p q)) else if n = 2 * comboNumber p q + 1 then some .cut
      else s (arrayFile pre p q) := by
    intro n hn
    interval_cases n <;> cases p <;> cases q <;>
      simp [fourSaves, fileSteps, Store.after, Store.step, comboNumber, arrayFile_inj]
  by_cases hn : n ≤ 8
  · exact key n hn
  · rw [List.take_of_length_le (by rw [fourSaves_length]; omega)]
    have := key 8 le_rfl
    rw [List.take_of_length_le (by rw [fourSaves_length])] at this
    rw [this]
    have h3 : comboNumber p q ≤ 3 := by cases p <;> cases q <;> simp [comboNumber]
    rw [if_pos (by omega), if_pos (by omega)]

/-- The file that a step changes. -/
def WStep.name {α : Type} : WStep α → Key
  | .create n => n
  | .fill n _ => n

theorem Store.step_other {α : Type} (s : Store α) {x : WStep α} {name : Key} (h : x.name ≠ name) : s.step x name = s name := by
  cases x <;> exact if_neg (fun e => h e.symm)

theorem Store.step_congr {α : Type} {s s' : Store α} {name : Key} (h : s name = s' name) (x : WStep α) : s.step x name = s'.step x name := by
  cases x <;> simp only [Store.step, h]

/-- Steps of other processes at other files. -/
theorem Store.after_own {ι α : Type} [DecidableEq ι] {i : ι} {name : Key} : ∀ {events : List (ι × WStep α)} (s s' : Store α), s name = s' name →
    (∀ e ∈ events, e.1 ≠ i → e.2.name ≠ name) →
    s.after (events.map Prod.snd) name = s'.after ((events.filter (fun e => e.1 = i)).map Prod.snd) name
  | [], s, s', h, _ => h
  | e :: r, s, s', h, he => by
    rw [List.map_cons, show s.after (e.2 :: r.map Prod.snd) = (s.step e.2).after (r.map Prod.snd) from rfl]
    by_cases hi : e.1 = i
    · rw [List.filter_cons_of_pos (by simpa using hi), List.map_cons,
        show s'.after (e.2 :: _) = (s'.step e.2).after _ from rfl]
      exact Store.after_own _ _ (Store.step_congr h _) (fun x hx => he x (by simp [hx]))
    · rw [List.filter_cons_of_neg (by simpa using hi)]
      exact Store.after_own _ _ ((Store.step_other s (he e (by simp) hi)).trans h) (fun x hx => he x (by simp [hx]))

theorem fourSaves_names {pre : Key} {A : Pol → Pol → List FTensor} {x : WStep (List FTensor)} (h : x ∈ fourSaves pre A) :
    ∃ p q, x.name = arrayFile pre p q := by
  simp only [fourSaves, fileSteps, List.mem_append, List.mem_cons, List.not_mem_nil, or_false] at h
  rcases h with ((h | h) | h) | h <;> rcases h with h | h <;> rw [h] <;> exact ⟨_, _, rfl⟩

/-! ## Contraction -/

theorem Store.load_whole {α : Type} {s : Store α} {name : Key} {a : α} (h : s name = some (.whole a)) (bad : Err) :
    s.load bad name = .ok a := by
  simp [Store.load, h]

theorem during_unfold (v : ℕ → Store (List FTensor)) (bad : Err) (pre : Key) (chiD chiQ : Nd Expr)
    (hr : ∀ s, OccursIn chiD s ∨ OccursIn chiQ s → s.isReal = some true) : contractedDuring S v bad pre chiD chiQ 16 =
      ((v 0).load bad (arrayFile pre .P .P) >>= fun a => (v 1).load bad (arrayFile pre .P .S) >>= fun b =>
        (v 2).load bad (arrayFile pre .S .P) >>= fun c => (v 3).load bad (arrayFile pre .S .S) >>= fun d =>
        List.mapM (fun pc : Key × List FTensor => contractAll S 16 pc.2 chiD chiQ >>= fun v => (pure (pc.1, v) : Except Err (Key × List Expr)))
          [(combo .P .P, a), (combo .P .S, b), (combo .S .P, c), (combo .S .S, d)]) := by
  unfold contractedDuring
  rw [assertRealParams_ok (fun s h => hr s (.inl h)), ok_bind, assertRealParams_ok (fun s h => hr s (.inr h)), ok_bind]
  have e : (List.range 4).zip lowerPc = [(0, (combo .P .P, ['p', 'p'])), (1, (combo .P .S, ['p', 's'])), (2, (combo .S .P, ['s', 'p'])),
      (3, (combo .S .S, ['s', 's']))] := rfl
  rw [e]
  simp only [List.mapM_cons, List.mapM_nil, bind_assoc, pure_bind]
  rfl

/-- Arrays for different angles of incidence. -/
theorem contracted_mixed {v : ℕ → Store (List FTensor)} {bad : Err} {pre : Key} {l : Pol → Pol → List FTensor}
    {θ : Pol → Pol → (Sym → ℝ) → ℝ} (hl : ∀ p q, v (comboNumber p q) (arrayFile pre p q) = some (.whole (l p q)))
    (hs : ∀ p q, Stored (l p q) (θ p q) p q) {chiD chiQ : Nd Expr} (hv : ValidTensors (some chiD) none (some chiQ)) :
    ∃ g : Pol → Pol → ℤ → Expr,
      contractedDuring S v bad pre chiD chiQ 16 = .ok (fourCombos.map (fun pq => (combo pq.1 pq.2, (freqs 16).map (g pq.1 pq.2)))) ∧
      ∀ p q (r : Sym → ℝ) (n : ℤ), -16 ≤ n ∧ n ≤ 16 → (g p q n).eval (realVal r) =
        integralCoeff (fun x => (intensity (crystalOf (some chiD) none (some chiQ) (realVal r)) (θ p q r) (x + Real.pi) p q : ℂ)) n := by
  have hc := fun p q => stored_contract S (hs p q) (hv.eee3 _ rfl) (hv.qee4 _ rfl)
  choose g hg1 hg2 using hc
  refine ⟨g, ?_, hg2⟩
  rw [during_unfold S v bad pre chiD chiQ
    (fun s hs => hs.elim (hv.real _ (Or.inl rfl) s) (hv.real _ (Or.inr (Or.inr rfl)) s)),
    Store.load_whole (s := v 0) (hl .P .P), ok_bind, Store.load_whole (s := v 1) (hl .P .S), ok_bind,
    Store.load_whole (s := v 2) (hl .S .P), ok_bind, Store.load_whole (s := v 3) (hl .S .S), ok_bind]
  simp only [List.mapM_cons, List.mapM_nil, hg1, ok_bind]
  rfl

theorem generated_mixed (R : Repr) (fs : Store (Dict Key (List Key))) {v : ℕ → Store (List FTensor)} {bad : Err} {pre : Key} (save : Key)
    {l : Pol → Pol → List FTensor} {θ : Pol → Pol → (Sym → ℝ) → ℝ}
    (hl : ∀ p q, v (comboNumber p q) (arrayFile pre p q) = some (.whole (l p q)))
    (hs : ∀ p q, Stored (l p q) (θ p q) p q) {chiD chiQ : Nd Expr} (hv : ValidTensors (some chiD) none (some chiQ)) :
    ∃ steps c, contractedSteps S R v bad save pre chiD chiQ 16 = .ok steps ∧ loadFformFile S R (fs.after steps) bad save = .ok c ∧
      HoldsIntensities c chiD chiQ θ := by
  obtain ⟨g, hg, hval⟩ := contracted_mixed S (bad := bad) hl hs hv
  let c : FFormContainer := ⟨fourCombos.map (fun pq => (combo pq.1 pq.2, .obj ((freqs 16).map (g pq.1 pq.2)))), 16⟩
  have hgood : c.Good := by
    refine ⟨by show List.Nodup [combo .P .P, combo .P .S, combo .S .P, combo .S .S]; decide, ?_⟩
    intro it hit
    obtain ⟨pq, _, rfl⟩ := List.mem_map.1 hit
    simp [length_freqs, c]
  have hn : ∀ it ∈ c.fform, it.2.isNative = false := by
    intro it hit
    obtain ⟨pq, _, rfl⟩ := List.mem_map.1 hit
    rfl
  refine ⟨saveFformSteps R c save, c, ?_, ?_, rfl, rfl, ?_⟩
  · unfold contractedSteps
    rw [hg, ok_bind]
    rfl
  · have hF : ∀ it ∈ c.fform, ∀ o ∈ it.2.objs, R.parse (R.srepr o) =
        .ok ((fun o => match o with | .sy e => e | .native _ _ => .num 0 : PyObj → Expr) o) := by
      intro it hit o ho
      obtain ⟨pq, _, rfl⟩ := List.mem_map.1 hit
      simp only [FArr.objs_obj, List.mem_map] at ho
      obtain ⟨e, _, rfl⟩ := ho
      exact R.round_trip e
    have h1 : loadFformFile S R (fs.after (saveFformSteps R c save)) bad save = loadFform S R (saveFform R (fun _ => none) c save) save := by
      unfold loadFformFile loadFform saveFform
      rw [Store.load_whole (a := c.fform.mapVals (fun v => v.objs.map R.srepr)) (by
        simp [saveFformSteps, fileSteps, Store.after, Store.step])]
      simp [ok_bind]
    rw [h1, load_save_eq S R _ save hF]
    have := FFormContainer.init_16 S hgood hn (Or.inl rfl)
    rw [← this]
    simp [FFormContainer.toIterable, c, Dict.mapVals, fourCombos, Function.comp_def, FArr.toRaw]
  · intro p q m hm
    refine ⟨.obj ((freqs 16).map (g p q)), .sy (g p q m), ?_, ?_, fun r => hval p q r m hm⟩
    · cases p <;> cases q <;> rfl
    · exact component_map PyObj.sy (component_freqs_map (g p q) hm)

/-- The first file that cannot be read decides. -/
theorem during_error {v : ℕ → Store (List FTensor)} {bad e : Err} {pre save : Key} {R : Repr} {p q : Pol}
    (hl : ∀ p' q', comboNumber p' q' < comboNumber p q → ∃ a, v (comboNumber p' q') (arrayFile pre p' q') = some (.whole a))
    (he : (v (comboNumber p q)).load bad (arrayFile pre p q) = .error e) {chiD chiQ : Nd Expr}
    (hv : ValidTensors (some chiD) none (some chiQ)) : contractedSteps S R v bad save pre chiD chiQ 16 = .error e := by
  unfold contractedSteps
  rw [during_unfold S v bad pre chiD chiQ
    (fun s hs => hs.elim (hv.real _ (Or.inl rfl) s) (hv.real _ (Or.inr (Or.inr rfl)) s))]
  have h1 := hl .P .P
  have h2 := hl .P .S
  have h3 := hl .S .P
  cases p <;> cases q <;> simp [comboNumber] at h1 h2 h3 he
  · rw [he]; rfl
  · obtain ⟨a, h1⟩ := h1
    rw [Store.load_whole h1, ok_bind, he]; rfl
  · obtain ⟨a, h1⟩ := h1
    obtain ⟨b, h2⟩ := h2
    rw [Store.load_whole h1, ok_bind, Store.load_whole h2, ok_bind, he]; rfl
  · obtain ⟨a, h1⟩ := h1
    obtain ⟨b, h2⟩ := h2
    obtain ⟨c, h3⟩ := h3
    rw [Store.load_whole h1, ok_bind, Store.load_whole h2, ok_bind, Store.load_whole h3, ok_bind, he]; rfl

theorem combo_of_number {j : ℕ} (h : j < 4) : ∃ p q, comboNumber p q = j := by
  interval_cases j
  exacts [⟨.P, .P, rfl⟩, ⟨.P, .S, rfl⟩, ⟨.S, .P, rfl⟩, ⟨.S, .S, rfl⟩]

theorem comboNumber_inj {p q p' q' : Pol} (h : comboNumber p q = comboNumber p' q') : p = p' ∧ q = q' := by
  revert h
  cases p <;> cases q <;> cases p' <;> cases q' <;> decide

theorem comboNumber_lt (p q : Pol) : comboNumber p q < 4 := by cases p <;> cases q <;> decide

end Shgpy
