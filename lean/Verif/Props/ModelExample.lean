import Verif.Spec.ModelExample
import Verif.Props.CostExample
import Verif.Props.ModelFit
import Verif.Props.CftExample

/-!
# A model function that is saved by one script and fitted by another: C118
-/

set_option linter.unusedSectionVars false
set_option linter.unusedVariables false

namespace Shgpy
open Spec

/-- A formula that was loaded holds expressions. -/
theorem loaded_symbolic {S : Sympy} {R : Repr} {fs : Files} {name : Key} {c : FFormContainer} (h : loadFform S R fs name = .ok c) :
    c.Reachable S ∧ c.getM = 16 ∧ Symbolic c := by
  unfold loadFform at h
  split at h
  · cases h
  · obtain ⟨v, _, h⟩ := bind_ok h
    have hr : c.Reachable S := ⟨_, _, _, [], h, rfl⟩
    refine ⟨hr, (FFormContainer.init_good h).2, ?_⟩
    rw [FFormContainer.symbolic_iff hr.good]
    obtain ⟨d, hd, rfl⟩ := FFormContainer.init_ok_iff.1 h
    intro it hit
    obtain ⟨kv, hkv, rfl⟩ := List.mem_map.1 hit
    obtain ⟨p, hp, hp1, hp2⟩ : ∃ p ∈ Dict.ofPairs (v.map (fun kv => ((RawKey.str kv.1, RawFF.objArr (kv.2.map PyObj.sy)) : RawKey × RawFF))),
        p.1 = RawKey.str kv.1 ∧ checkFFVal 16 p.2 = some kv.2 := by
      have hf := FFormContainer.checkFFIterable_ok hd
      obtain ⟨i, hi, e⟩ := List.mem_iff_getElem.1 hkv
      have hl := hf.length_eq
      refine ⟨_, List.getElem_mem (h := by rw [hl]; exact hi), ?_⟩
      have := hf.get (i := i) (by rw [hl]; exact hi) hi
      simpa [e] using this
    obtain ⟨pre, post, e, -⟩ := (mem_ofPairs_iff _ p.1 p.2).1 hp
    have hmem : p ∈ v.map (fun kv => ((RawKey.str kv.1, RawFF.objArr (kv.2.map PyObj.sy)) : RawKey × RawFF)) := by rw [e]; simp
    obtain ⟨w, _, rfl⟩ := List.mem_map.1 hmem
    unfold checkFFVal at hp2
    dsimp only at hp2
    split_ifs at hp2 with hlen
    show (fformArray S kv.2).isNative = false
    rw [← Option.some.inj hp2]
    unfold fformArray
    rw [if_neg]
    · rfl
    · cases hw : w.2 with
      | nil => rw [hw] at hlen; simp at hlen
      | cons a q => simp [PyObj.isNative]

/-- The bounds of the parameters. -/
noncomputable def lowest (s : Sym) : ℝ := if s = psi then 0 else -100
noncomputable def highest (s : Sym) : ℝ := if s = psi then 2 * Real.pi else 100

theorem lowest_lt_highest (s : Sym) : lowest s < highest s := by
  unfold lowest highest
  split_ifs
  · positivity
  · norm_num

theorem lowest_zero (s : Sym) : lowest s ≤ 0 ∧ 0 ≤ highest s := by
  unfold lowest highest
  split_ifs
  · exact ⟨le_rfl, by positivity⟩
  · norm_num

theorem within_hundred {r : Sym → ℝ} (h : ∀ s, lowest s ≤ r s ∧ r s ≤ highest s) :
    InHundred r ∧ 0 ≤ r psi ∧ r psi ≤ 2 * Real.pi := by
  have hp := h psi
  simp only [lowest, highest, if_true] at hp
  refine ⟨fun s => ?_, hp.1, hp.2⟩
  by_cases hs : s = psi
  · subst hs
    rw [abs_le]
    have := Real.pi_le_four
    constructor <;> linarith
  · have := h s
    simp only [lowest, highest, if_neg hs] at this
    exact abs_le.2 this

/-- lmfit's parameters with the values `r`. -/
noncomputable def valuesFor (l : List Sym) (r : Sym → ℝ) : Dict Key Parameter :=
  l.map (fun s => (s.name, (⟨r s, lowest s, highest s⟩ : Parameter)))

noncomputable def guessesFor (l : List Sym) (guess : ℕ → ℝ) : Dict Key Parameter :=
  l.zipIdx.map (fun s => (s.1.name, (⟨guess s.2, lowest s.1, highest s.1⟩ : Parameter)))

theorem addModelParameters_ok {valid : Key → Bool} (guess : ℕ → ℝ) {l : List Sym} (hv : ∀ s ∈ l ++ [psi], valid s.name = true)
    (hn : ((l ++ [psi]).map Sym.name).Nodup) : addModelParameters valid guess l = .ok (guessesFor (l ++ [psi]) guess) := by
  rw [List.map_append, List.nodup_append] at hn
  obtain ⟨hn1, -, hn2⟩ := hn
  have hpsi : ∀ s ∈ l, s ≠ psi := by
    rintro s hs rfl
    exact hn2 _ (List.mem_map_of_mem hs) _ (by simp) rfl
  unfold addModelParameters
  rw [addParameters_ok guess (fun s hs => hv s (by simp [hs])) hn1, ok_bind, if_pos (hv psi (by simp)), Dict.set_of_notMem]
  · unfold guessesFor
    rw [List.zipIdx_append, List.map_append]
    congr 2
    · refine List.map_congr_left (fun s hs => ?_)
      have := hpsi _ (List.fst_mem_of_mem_zipIdx hs)
      simp [lowest, highest, this]
    · simp [lowest, highest]
  · intro h
    have : psi.name ∈ l.map Sym.name := by
      have e : Dict.keys (l.zipIdx.map (fun s => (s.1.name, (⟨guess s.2, -100, 100⟩ : Parameter)))) = l.map Sym.name := by
        show List.map Prod.fst (List.map _ _) = _
        rw [List.map_map]
        conv_rhs => rw [← List.zipIdx_map_fst 0 l, List.map_map]
        rfl
      rwa [e] at h
    exact hn2 _ this _ (by simp) rfl

theorem setValues_guesses (guess : ℕ → ℝ) (l : List Sym) (r : Sym → ℝ) : setValues (guessesFor l guess) (l.map r) = valuesFor l r := by
  unfold setValues guessesFor valuesFor
  have h1 : l.map r = l.zipIdx.map (fun s => r s.1) := by
    conv_lhs => rw [← List.zipIdx_map_fst 0 l, List.map_map]
    rfl
  have h2 : l.map (fun s => (s.name, (⟨r s, lowest s, highest s⟩ : Parameter))) =
      l.zipIdx.map (fun s => (s.1.name, (⟨r s.1, lowest s.1, highest s.1⟩ : Parameter))) := by
    conv_lhs => rw [← List.zipIdx_map_fst 0 l, List.map_map]
    rfl
  rw [h1, h2, List.zipWith_map, List.zipWith_self]

theorem guesses_are_values (guess : ℕ → ℝ) {l : List Sym} (hl : l.Nodup) : ∃ r, guessesFor l guess = valuesFor l r := by
  obtain ⟨r, hr⟩ := exists_map_eq hl (x := l.zipIdx.map (fun s => guess s.2)) (by simp)
  refine ⟨r, ?_⟩
  rw [← setValues_guesses guess l r, hr]
  unfold setValues guessesFor
  rw [List.zipWith_map, List.zipWith_self]

theorem valuesFor_get {l : List Sym} (hn : (l.map Sym.name).Nodup) (r : Sym → ℝ) {s : Sym} (hs : s ∈ l) :
    Dict.get (valuesFor l r) s.name = .ok ⟨r s, lowest s, highest s⟩ := by
  rw [Dict.get_ok_iff, Dict.get?_eq_some_iff (by simpa [Dict.WF, Dict.keys, Function.comp_def, valuesFor] using hn)]
  exact List.mem_map.2 ⟨s, hs, rfl⟩

/-- What lmfit makes of a function of the parameters that are in the list. -/
theorem lmfit_within {ε : ℝ} {opt : Optimizer DACall} (ho : AnnealsTo ε opt) (guess : ℕ → ℝ) {l : List Sym} (hl : l.Nodup)
    {f : Dict Key Parameter → Except Err ℝ} {g : (Sym → ℝ) → ℝ} (hf : ∀ r, f (valuesFor l r) = .ok (g r)) :
    (∀ e, lmfitMinimizeRaising opt f (guessesFor l guess) = .error e → ∃ call, opt call = .error e ∧ call.x0.length = l.length ∧
      (∀ r, call.func (l.map r) = g r) ∧ call.bounds = some (l.map (fun s => (lowest s, highest s)))) ∧
    ∀ ret, lmfitMinimizeRaising opt f (guessesFor l guess) = .ok ret → ∃ r, (∀ s, lowest s ≤ r s ∧ r s ≤ highest s) ∧
      ret = valuesFor l r ∧ ∀ r', (∀ s ∈ l, lowest s ≤ r' s ∧ r' s ≤ highest s) → g r ≤ g r' + ε := by
  let f' : Dict Key Parameter → ℝ := fun p => match f p with
    | .ok v => v
    | .error _ => 0
  let call : DACall := ⟨fun x => f' (setValues (guessesFor l guess) x), some ((guessesFor l guess).map (fun p => (p.2.min, p.2.max))),
    (guessesFor l guess).map (fun p => p.2.value), 0⟩
  have hx0 : call.x0.length = l.length := by simp [call, guessesFor]
  have hfun : ∀ r, call.func (l.map r) = g r := by
    intro r
    show f' (setValues (guessesFor l guess) (l.map r)) = _
    rw [setValues_guesses]
    simp only [f', hf]
  have hb : call.bounds = some (l.map (fun s => (lowest s, highest s))) := by
    show some ((guessesFor l guess).map (fun p => (p.2.min, p.2.max))) = _
    simp only [guessesFor, List.map_map]
    congr 1
    conv_rhs => rw [← List.zipIdx_map_fst 0 l, List.map_map]
    rfl
  have hall : ∀ r' : Sym → ℝ, (∀ b, call.bounds = some b → Between b (l.map r')) ↔ ∀ s ∈ l, lowest s ≤ r' s ∧ r' s ≤ highest s := by
    intro r'
    rw [hb]
    simp only [Option.some.injEq, forall_eq']
    exact between_map (lo := lowest) (hi := highest)
  obtain ⟨rg, hrg⟩ := guesses_are_values guess hl
  unfold lmfitMinimizeRaising
  rw [show f (guessesFor l guess) = .ok (g rg) by rw [hrg, hf], ok_bind]
  unfold lmfitMinimize
  change (∀ e, (opt call >>= fun x => pure (setValues (guessesFor l guess) x)) = .error e → _) ∧
    ∀ ret, (opt call >>= fun x => pure (setValues (guessesFor l guess) x)) = .ok ret → _
  cases hx : opt call with
  | error e =>
    refine ⟨fun e' h => ?_, fun ret h => by cases h⟩
    cases h
    exact ⟨call, hx, hx0, hfun, hb⟩
  | ok x =>
    refine ⟨fun e' h => (by cases h), fun ret h => ?_⟩
    cases h
    obtain ⟨⟨o1, o2⟩, o3⟩ := ho call x hx
    obtain ⟨r₀, hr₀⟩ := exists_map_eq hl (x := x) (by rw [o1, hx0])
    classical
    let r : Sym → ℝ := fun s => if s ∈ l then r₀ s else 0
    have hr : l.map r = x := by
      rw [← hr₀]
      exact List.map_congr_left (fun s hs => by simp [r, hs])
    refine ⟨r, fun s => ?_, ?_, fun r' hr' => ?_⟩
    · by_cases hsl : s ∈ l
      · exact (hall r).1 (by rw [hr]; exact o2) s hsl
      · simpa [r, hsl] using lowest_zero s
    · rw [← hr]
      exact setValues_guesses guess l r
    · have := o3 (l.map r') ⟨by rw [hx0]; simp, (hall r').2 hr'⟩
      rwa [← hr, hfun, hfun] at this

/-- The components of the turned model, as functions of all parameters. -/
noncomputable def turnedBack (F : Key → ℤ → Valuation → ℂ) : Key → ℤ → Valuation → ℂ :=
  fun k m σ => F k m σ * Complex.exp (-(Complex.I * m * σ psi))

theorem pattern_turnedBack (F : Key → ℤ → Valuation → ℂ) (k : Key) (r : Sym → ℝ) (x : ℝ) :
    pattern 16 (fun m => turnedBack F k m (realVal r)) x = pattern 16 (fun m => F k m (realVal r)) (x - r psi) := by
  rw [sub_eq_add_neg, ← pattern_turned]
  congr 1
  funext m
  unfold turnedBack realVal
  congr 2
  push_cast
  ring

theorem squares_turnedBack (keys : List Key) (F : Key → ℤ → Valuation → ℂ) (N : Key → ℕ) (y : Key → ℝ → ℝ) (r : Sym → ℝ) :
    squares keys 16 (turnedBack F) N y r = turnedBackSquares keys F N y r (r psi) := by
  unfold squares turnedBackSquares
  simp only [pattern_turnedBack]

theorem pattern_pmod (M : ℕ) (c : ℤ → ℂ) (x ψ : ℝ) : pattern M c (x - pmod ψ) = pattern M c (x - ψ) := by
  unfold pattern
  refine Finset.sum_congr rfl (fun m _ => ?_)
  have h1 : harmonic m (x - pmod ψ) * harmonic m (pmod ψ) = harmonic m x := by rw [← harmonic_add]; congr 1; ring
  have h2 : harmonic m (x - ψ) * harmonic m ψ = harmonic m x := by rw [← harmonic_add]; congr 1; ring
  rw [harmonic_pmod] at h1
  have h0 : harmonic m ψ ≠ 0 := by
    intro h
    have h3 : harmonic m ψ * harmonic m (-ψ) = harmonic m 0 := by rw [← harmonic_add]; congr 1; ring
    rw [h, zero_mul, harmonic_zero] at h3
    exact zero_ne_one h3
  rw [mul_right_cancel₀ h0 (h1.trans h2.symm)]

theorem turnedBackSquares_pmod (keys : List Key) (F : Key → ℤ → Valuation → ℂ) (N : Key → ℕ) (y : Key → ℝ → ℝ) (r : Sym → ℝ) (ψ : ℝ) :
    turnedBackSquares keys F N y r (pmod ψ) = turnedBackSquares keys F N y r ψ := by
  unfold turnedBackSquares
  simp only [pattern_pmod]

section
variable (S : Sympy) (C : Compiler) {fform : FFormContainer} {F : Key → ℤ → Valuation → ℂ}

/-- A model function that is loaded in a later process. -/
theorem loaded_later (L : Listing) (d : Disk) (hc : fform.Reachable S) (hplain : ∀ k ∈ fform.getKeys, PlainName k) {l : List Sym}
    (hl : fform.getFreeSymbols S = .ok l) (hF : FormulaIs fform F) (folder : Key) {n : ℤ} (hn : 0 < n) :
    ∃ f d', genModelFunc S C d fform folder n = .ok (f, d') ∧ ∀ d₂, LaterFolder folder d' d₂ →
      ∃ g d'', loadModelFunc L d₂ fform folder = .ok (g, d'') ∧
        (∀ k ∈ fform.getKeys, ∀ m : ℤ, -(fform.getM : ℤ) ≤ m → m ≤ fform.getM → ∀ (r : Sym → ℝ) (extra : List ℝ),
          g (l.map r ++ extra) k m = .ok (F k m (realVal r))) ∧
        ∀ k, k ∉ fform.getKeys → ∀ m x, g x k m = .error .keyError := by
  obtain ⟨gs, h1, h2⟩ := fixedAutowrapModel_ok S C hc.good (arguments := none) (Or.inr ⟨rfl, hl⟩) hF hn
  refine ⟨_, _, by unfold genModelFunc; rw [h1]; rfl, fun d₂ hd₂ => ?_⟩
  have hd : Dict.get? d₂.folders folder = some (contentOf (funcKeys fform) gs) := by
    rw [hd₂.1]
    simp [Dict.get?_set]
  obtain ⟨fs, d'', h3, h4⟩ := loadFuncDict_ok L hc.good gs
    (fun k hk => ⟨hplain k hk _ (by simp), hplain k hk _ (by simp), hplain k hk _ (by simp)⟩) folder d₂ hd
    (fun name f _ => Or.inl (Dict.get?_eq_none.2 (hd₂.2 name)))
  refine ⟨_, d'', by unfold loadModelFunc; rw [h3]; rfl, fun k hk m hm1 hm2 r extra => modelFunc_ok hc.good ?_ hk hm1 hm2 r extra,
    fun k hk m x => modelFunc_keyError fs x (fun h => hk h.1)⟩
  intro key hkey r extra
  rw [← h2 key hkey r extra]
  exact ((h4 key hkey).map _).sum_eq

/-- The component of the script's model. -/
theorem scriptModel_ok {g : List ℝ → Key → ℤ → Except Err ℂ} {l : List Sym} (hn : ((l ++ [psi]).map Sym.name).Nodup) {k : Key} {m : ℤ}
    {r : Sym → ℝ} (hg : ∀ extra : List ℝ, g (l.map r ++ extra) k m = .ok (F k m (realVal r))) :
    scriptModel g (valuesFor (l ++ [psi]) r) k m = .ok (turnedBack F k m (realVal r)) := by
  unfold scriptModel
  rw [valuesFor_get hn r (s := psi) (by simp), ok_bind]
  have e : (valuesFor (l ++ [psi]) r).map (fun p => p.2.value) = l.map r ++ [r psi] := by
    simp [valuesFor, Function.comp_def]
  rw [e]
  unfold turnedModel
  rw [hg]
  rfl

theorem fitIterable_ok {g : List ℝ → Key → ℤ → Except Err ℂ} {params : Dict Key Parameter} {G : Key → ℤ → ℂ}
    (h : ∀ p q, ∀ m : ℤ, -16 ≤ m → m ≤ 16 → scriptModel g params (combo p q) m = .ok (G (combo p q) m)) :
    ∃ iter c, fitIterable g params = .ok iter ∧ FDataContainer.init iter 16 = .ok c ∧
      c.getKeys = [combo .P .P, combo .P .S, combo .S .P, combo .S .S] ∧ c.getM = 16 ∧
      ∀ p q, c.getPc (combo p q) = .ok ((freqs 16).map (G (combo p q))) := by
  have hrow : ∀ p q, (freqs 16).mapM (fun m => scriptModel g params (combo p q) m) = .ok ((freqs 16).map (G (combo p q))) := by
    intro p q
    have : ∀ l : List ℤ, (∀ m ∈ l, -16 ≤ m ∧ m ≤ 16) → l.mapM (fun m => scriptModel g params (combo p q) m) = .ok (l.map (G (combo p q))) := by
      intro l
      induction l with
      | nil => intro _; rfl
      | cons m l ih =>
        intro hl
        rw [List.mapM_cons, h p q m (hl m (by simp)).1 (hl m (by simp)).2, ok_bind, ih (fun m' hm' => hl m' (by simp [hm']))]
        rfl
    refine this _ (fun m hm => ?_)
    obtain ⟨i, hi, rfl⟩ := List.mem_map.1 hm
    rw [List.mem_range] at hi
    omega
  refine ⟨[(RawKey.str (combo .P .P), RawFVal.arr1 .complex128 ((freqs 16).map (G (combo .P .P)))),
      (.str (combo .P .S), .arr1 .complex128 ((freqs 16).map (G (combo .P .S)))),
      (.str (combo .S .P), .arr1 .complex128 ((freqs 16).map (G (combo .S .P)))),
      (.str (combo .S .S), .arr1 .complex128 ((freqs 16).map (G (combo .S .S))))],
    ⟨[(combo .P .P, (freqs 16).map (G (combo .P .P))), (combo .P .S, (freqs 16).map (G (combo .P .S))),
      (combo .S .P, (freqs 16).map (G (combo .S .P))), (combo .S .S, (freqs 16).map (G (combo .S .S)))], 16, 1, .num 0⟩, ?_, ?_, ?_, rfl, ?_⟩
  · show List.mapM _ [combo .P .P, combo .P .S, combo .S .P, combo .S .S] = _
    simp only [List.mapM_cons, List.mapM_nil, hrow, ok_bind]
    rfl
  · rfl
  · rfl
  · intro p q
    cases p <;> cases q <;> rfl

/-- **C118.**  `gen_model_func_example.py` and then `fit_model_func_example.py`, in two processes that may iterate over sets and list
folders in different orders, for any data files and any stored formula that load: if the formula has the four combinations and every
combination that is measured, with more than 32 points, no two parameters have the same name, `psi` is not in the formula and lmfit accepts
the names, then the first script succeeds, and the second one fails only if the optimizer fails (never, if the optimizer finds what there
is to find).  Otherwise it returns the measured data and the best parameters and curves: no other parameters between the bounds, and no
angle whatsoever, are better, up to what the optimizer misses (`ε`, of the cost). -/
theorem C118_two_processes {S' : Sympy} (hsame : SameSympy S S') {R : Repr} {L : Listing} {float : Key → Option ℝ} {csv : CsvFiles}
    {files : Files} {interp : Interp} {names : Dict Key Key} {units fformName folder : Key} {dat : DataContainer ℝ}
    (hdat : loadData float csv names units false = .ok dat) (hform : loadFform S R files fformName = .ok fform) (hF : FormulaIs fform F)
    (hreal : RealSymbols fform) (hplain : ∀ k ∈ fform.getKeys, PlainName k) (hfour : ∀ p q, combo p q ∈ fform.getKeys)
    (hk : ∀ k ∈ dat.getKeys, k ∈ fform.getKeys) {N : Key → ℕ} {y : Key → ℝ → ℝ}
    (hi : ∀ k pts, dat.getPc k sRadians = .ok pts → 32 < pts.length ∧ interp pts = .ok (y k) ∧ pts.length = N k)
    (hpsi : ¬ FOccurs fform psi) (hnames : ∀ s t, IsParameter fform s → IsParameter fform t → s.name = t.name → s = t)
    {valid : Key → Bool} (hvalid : ∀ s, IsParameter fform s → valid s.name = true) (guess : ℕ → ℝ)
    {ε : ℝ} (hε : 0 ≤ ε) {opt : Optimizer DACall} (ho : AnnealsTo ε opt) (d : Disk) :
    ∃ d', genModelExample S C R files d fformName folder = .ok d' ∧ ∀ d₂, LaterFolder folder d' d₂ →
      (∀ e, fitModelExample S' R L float csv files interp valid guess opt d₂ names units fformName folder = .error e →
        ∃ call, opt call = .error e) ∧
      (0 < ε → FindsAnnealedFloats ε opt →
        ∃ out, fitModelExample S' R L float csv files interp valid guess opt d₂ names units fformName folder = .ok out) ∧
      ∀ dat' params fit w, fitModelExample S' R L float csv files interp valid guess opt d₂ names units fformName folder =
          .ok (dat', params, fit, w) →
        dat' = dat ∧ w = [] ∧ BestModel (√ε) fform dat.getKeys F N y params fit := by
  classical
  have hform' : loadFform S' R files fformName = .ok fform := by rw [loadFform_same hsame, hform]
  obtain ⟨hc, hM, hs⟩ := loaded_symbolic hform
  obtain ⟨hc', -, -⟩ := loaded_symbolic hform'
  have hM16 : (fform.getM : ℤ) = 16 := by rw [hM]; rfl
  -- the lists of symbols
  obtain ⟨l, g1, g2, g3, g4⟩ := (C31_fform_free_symbols S hc).1 hs
  obtain ⟨l', g1', g2', g3', g4'⟩ := (C31_fform_free_symbols S' hc').1 hs
  have hinj : ∀ s ∈ l, ∀ t ∈ l, s.name = t.name → s = t := fun s hs t ht =>
    hnames s t (.inl ((g4 s).1 hs)) (.inl ((g4 t).1 ht))
  obtain rfl : l = l' := eq_of_sorted_syms g2 g2' g3 g3' (fun s => (g4 s).trans (g4' s).symm) hinj
  have hlists : Lists fform l := ⟨g2, fun s hs => (g4 s).2 hs⟩
  have hpl : psi ∉ l := fun h => hpsi ((g4 _).1 h)
  have hmem : ∀ s ∈ l ++ [psi], IsParameter fform s := by
    intro s hs
    rcases List.mem_append.1 hs with h | h
    · exact .inl ((g4 s).1 h)
    · exact .inr (List.mem_singleton.1 h)
  have hl : (l ++ [psi]).Nodup := List.nodup_append.2 ⟨g2, by simp, fun a ha b hb => by
    rw [List.mem_singleton.1 hb]; rintro rfl; exact hpl ha⟩
  have hn : ((l ++ [psi]).map Sym.name).Nodup := (List.nodup_map_iff_inj_on hl).2 (fun s hs t ht => hnames s t (hmem s hs) (hmem t ht))
  have hpar := addModelParameters_ok (valid := valid) guess (l := l) (fun s hs => hvalid s (hmem s hs)) hn
  -- the data
  have hd : dat.Reachable := by
    unfold loadData at hdat
    obtain ⟨v, _, hdat⟩ := bind_ok hdat
    obtain ⟨⟨c, w⟩, h1, hdat⟩ := bind_ok hdat
    cases hdat
    exact ⟨_, _, _, _, _, [], h1, rfl⟩
  obtain ⟨fdat, t1, t2, t3, t4, t5⟩ := C89_transform hd 16 (fun k pts h => ⟨by have := (hi k pts h).1; omega, (hi k pts h).2.1⟩)
  have hpts : ∀ k ∈ dat.getKeys, ∃ pts, dat.getPc k sRadians = .ok pts := by
    intro k hkk
    obtain ⟨v, hv⟩ := Dict.mem_keys.1 hkk
    exact ⟨v, by rw [getPc_radians, Dict.get_ok_iff, Dict.get?_eq_some_iff (reachable_normalForm hd).1]; exact hv⟩
  have hN : ∀ k ∈ dat.getKeys, 32 < N k := by
    intro k hkk
    obtain ⟨pts, hp⟩ := hpts k hkk
    have := hi k pts hp
    omega
  have hD : ∀ k ∈ fdat.getKeys, ∀ m : ℤ, -(fdat.getM : ℤ) ≤ m → m ≤ fdat.getM → DRepresents fdat k m (dft (N k) (y k) m) := by
    intro k hkk m h1 h2
    obtain ⟨pts, hp⟩ := hpts k (t3 ▸ hkk)
    rw [t4] at h1 h2
    have := t5 k pts hp m h1 h2
    rwa [(hi k pts hp).2.2] at this
  obtain ⟨rows, p1, p2⟩ := (C74_fdata t2).1 (Or.inl (rfl : sMulti = sMulti))
  -- the model function
  obtain ⟨f, d', m1, m2⟩ := loaded_later S C L d hc hplain g1 hF folder (n := 3) (by norm_num)
  refine ⟨d', ?_, fun d₂ hd₂ => ?_⟩
  · unfold genModelExample
    rw [hform, ok_bind, m1]
    rfl
  obtain ⟨g, d'', m3, m4, -⟩ := m2 d₂ hd₂
  rw [hM16] at m4
  have hmodel : ∀ k ∈ fform.getKeys, ∀ m : ℤ, -16 ≤ m → m ≤ 16 → ∀ r,
      scriptModel g (valuesFor (l ++ [psi]) r) k m = .ok (turnedBack F k m (realVal r)) :=
    fun k hkk m h1 h2 r => scriptModel_ok hn (fun extra => m4 k hkk m h1 h2 r extra)
  have hcost : ∀ r, scriptCost g rows (valuesFor (l ++ [psi]) r) =
      .ok (misfit dat.getKeys 16 (turnedBack F) (fun k m => dft (N k) (y k) m) r) := by
    intro r
    obtain ⟨hrows, hsum⟩ := sum_rows t2 p2 hD (fun k m z => ‖turnedBack F k m (realVal r) - z‖ ^ 2)
    rw [t3, t4] at hrows
    have : scriptCost g rows (valuesFor (l ++ [psi]) r) = _ := foldlM_sum (l := rows)
      (g := fun row => ‖turnedBack F row.1.1 row.1.2 (realVal r) - row.2‖ ^ 2) (by
        intro t row hrow
        obtain ⟨k1, k2, k3⟩ := hrows row hrow
        rw [hmodel _ (hk _ k1) _ k2 k3, ok_bind, ← Complex.normSq_eq_norm_sq, ← Complex.ofReal_re (Complex.normSq _), ← Complex.mul_conj]
        rfl) 0
    rw [zero_add, hsum] at this
    rw [this, t3, t4]
    rfl
  obtain ⟨b1, b2⟩ := lmfit_within ho guess hl hcost
  unfold fitModelExample
  rw [hform']
  simp only [ok_bind, g1', m3, hpar, hdat, t1, p1]
  obtain ⟨R₀, hR0, hR⟩ := squares_misfit dat.getKeys 16 (turnedBack F) y (N := N) (fun k hkk => hN k hkk)
  simp only [squares_turnedBack] at hR
  have hm0 := fun r' => (C57_zero_iff dat.getKeys 16 (turnedBack F) (fun k m => dft (N k) (y k) m) r').1
  have hok : ∀ ret, lmfitMinimizeRaising opt (scriptCost g rows) (guessesFor (l ++ [psi]) guess) = .ok ret →
      ∃ iter c fit, fitIterable g ret = .ok iter ∧ FDataContainer.init iter 16 = .ok c ∧ fdatToDat c 1000 = .ok (fit, []) ∧
        BestModel (√ε) fform dat.getKeys F N y ret fit := by
    intro ret hret
    obtain ⟨r, r1, rfl, r3⟩ := b2 ret hret
    obtain ⟨iter, c, i1, i2, i3, i4, i5⟩ := fitIterable_ok (G := fun k m => turnedBack F k m (realVal r))
      (fun p q m h1 h2 => hmodel _ (hfour p q) m h1 h2 r)
    obtain ⟨fit, k1, k2, k3⟩ := C20_inverse_sampling (c := c) ⟨_, _, _, [], i2, rfl⟩ (N := 1000) (by norm_num)
    obtain ⟨w1, w2, w3⟩ := within_hundred r1
    refine ⟨iter, c, fit, i1, i2, k1, r, r psi, w1, w2, w3, ⟨_, valuesFor_get hn r (s := psi) (by simp), rfl⟩,
      fun s hs => ⟨_, valuesFor_get hn r (s := s) (by simp [(g4 s).2 hs]), rfl⟩, k2.trans i3, fun p q => ?_, R₀, hR0, fun r' ψ' => ?_⟩
    · rw [k3 _ _ (i5 p q), i4]
      congr 2
      funext x
      rw [series_pattern (c := fun m => turnedBack F (combo p q) m (realVal r)), pattern_turnedBack]
      intro m h1 h2
      exact component_freqs_map _ ⟨h1, h2⟩
    · let r'' : Sym → ℝ := fun s => if s = psi then pmod ψ' else r' s
      have hpt := pmod_inTurn ψ'
      have e : turnedBackSquares dat.getKeys F N y r' ψ' = turnedBackSquares dat.getKeys F N y r'' (r'' psi) := by
        rw [show r'' psi = pmod ψ' from if_pos rfl, turnedBackSquares_pmod]
        unfold turnedBackSquares
        congr 1
        refine List.map_congr_left (fun k hkk => ?_)
        congr 1
        funext x
        congr 3
        unfold pattern
        refine Finset.sum_congr rfl (fun m hm => ?_)
        rw [Finset.mem_Icc] at hm
        dsimp only
        rw [formulaIs_depends hF hlists (r := r') (r' := r'') (fun s hs => (if_neg (fun h : s = psi => hpl (h ▸ hs))).symm) (hk k hkk)
          (by rw [hM]; exact hm.1) (by rw [hM]; exact hm.2)]
      rw [e, hR, hR, add_sub_cancel_right, add_sub_cancel_right]
      refine ⟨by have := hm0 r''; linarith, fun hr' => ?_⟩
      refine (Real.sqrt_le_sqrt (r3 r'' (fun s hs => ?_))).trans (sqrt_add_le_sqrt_add hε)
      by_cases hs : s = psi
      · subst hs
        simp only [lowest, highest, if_true, r'']
        exact ⟨hpt.1, hpt.2.le⟩
      · simp only [lowest, highest, if_neg hs, r'']
        exact abs_le.1 (hr' s)
  cases hmin : lmfitMinimizeRaising opt (scriptCost g rows) (guessesFor (l ++ [psi]) guess) with
  | error e =>
    obtain ⟨call, e1, e2, e3, e4⟩ := b1 e hmin
    refine ⟨fun e' h => ?_, fun hε' hfi => ?_, fun _ _ _ _ h => by cases h⟩
    · cases h
      exact ⟨call, e1⟩
    · exfalso
      suffices hx : ∃ x, opt call = .ok x by
        obtain ⟨x, hx⟩ := hx
        rw [e1] at hx
        cases hx
      have hcont : Continuous (fun r => misfit dat.getKeys 16 (turnedBack F) (fun k m => dft (N k) (y k) m) r) := by
        unfold misfit
        suffices h : ∀ keys : List Key, (∀ k ∈ keys, k ∈ dat.getKeys) → Continuous (fun r : Sym → ℝ => (keys.map (fun k =>
            ∑ m ∈ Finset.Icc (-((16 : ℕ) : ℤ)) ((16 : ℕ) : ℤ), ‖turnedBack F k m (realVal r) - dft (N k) (y k) m‖ ^ 2)).sum) from
          h _ (fun _ h => h)
        intro keys hkeys
        induction keys with
        | nil => simpa using continuous_const
        | cons k keys ih =>
        simp only [List.map_cons, List.sum_cons]
        refine Continuous.add (continuous_finsetSum _ (fun m hm => ?_)) (ih (fun k' hk' => hkeys k' (List.mem_cons_of_mem _ hk')))
        have hkk := hkeys k List.mem_cons_self
        rw [Finset.mem_Icc] at hm
        have h1 := continuous_component hF (hk k hkk) (m := m) (by rw [hM]; exact hm.1) (by rw [hM]; exact hm.2)
        have h2 : Continuous (fun r : Sym → ℝ => turnedBack F k m (realVal r)) := by
          unfold turnedBack
          refine h1.mul (Complex.continuous_exp.comp ?_)
          have : Continuous (fun r : Sym → ℝ => realVal r psi) := Complex.continuous_ofReal.comp (continuous_apply psi)
          exact (continuous_const.mul this).neg
        exact (h2.sub continuous_const).norm.pow 2
      have hdep : ∀ r r' : Sym → ℝ, (l ++ [psi]).map r = (l ++ [psi]).map r' →
          misfit dat.getKeys 16 (turnedBack F) (fun k m => dft (N k) (y k) m) r =
            misfit dat.getKeys 16 (turnedBack F) (fun k m => dft (N k) (y k) m) r' := fun r r' h => by rw [← e3, ← e3, h]
      obtain ⟨r, r1, r2⟩ := exists_best hcont hdep (lo := lowest) (hi := highest) (fun s _ => (lowest_lt_highest s).le)
      let r₀ : Sym → ℝ := fun s => if s ∈ l ++ [psi] then r s else 0
      have hr₀ : (l ++ [psi]).map r₀ = (l ++ [psi]).map r := List.map_congr_left (fun s hs => if_pos hs)
      obtain ⟨r', q1, q2, q3⟩ := exists_rational_near (r := r₀) hcont (lo := lowest) (hi := highest) lowest_lt_highest (fun s => by
        by_cases hsl : s ∈ l ++ [psi]
        · rw [show r₀ s = r s from if_pos hsl]; exact r1 s hsl
        · rw [show r₀ s = 0 from if_neg hsl]; exact lowest_zero s) hε'
      refine hfi call ⟨(l ++ [psi]).map r', ⟨by rw [e2]; simp, fun b hb => ?_⟩, fun a ha => ?_, fun z hz => ?_⟩
      · rw [e4] at hb
        cases hb
        exact (between_map (lo := lowest) (hi := highest)).2 (fun s _ => q2 s)
      · obtain ⟨s, _, rfl⟩ := List.mem_map.1 ha
        exact q1 s
      · obtain ⟨rz, rfl⟩ := exists_map_eq hl (x := z) (by rw [hz.1, e2])
        have hb := (between_map (lo := lowest) (hi := highest)).1 (hz.2 _ e4)
        have n1 := r2 rz hb
        have n2 := hdep _ _ hr₀
        rw [e3, e3]
        linarith
  | ok ret =>
    obtain ⟨iter, c, fit, k1, k2, k3, k4⟩ := hok ret hmin
    simp only [ok_bind, k1, k2, k3]
    refine ⟨fun e' h => (by cases h), fun _ _ => ⟨_, rfl⟩, fun _ _ _ _ h => ?_⟩
    cases h
    exact ⟨rfl, rfl, k4⟩

/-- A sum in which a term raises. -/
theorem foldlM_raises {α : Type} {step : ℝ → α → Except Err ℝ} {l : List α} {e : Err}
    (h : ∀ t, ∀ a ∈ l, (∃ t', step t a = .ok t') ∨ step t a = .error e) (hbad : ∃ a ∈ l, ∀ t, step t a = .error e) (t : ℝ) :
    l.foldlM step t = .error e := by
  induction l generalizing t with
  | nil => obtain ⟨a, ha, _⟩ := hbad; cases ha
  | cons b l ih =>
    rw [List.foldlM_cons]
    rcases h t b (by simp) with ⟨t', e'⟩ | e'
    · rw [e', ok_bind]
      refine ih (fun t a ha => h t a (by simp [ha])) ?_ t'
      obtain ⟨a, ha, hb⟩ := hbad
      rcases List.mem_cons.1 ha with rfl | ha
      · rw [hb] at e'; cases e'
      · exact ⟨a, ha, hb⟩
    · rw [e']; rfl

/-- **C118, a combination without a formula.**  If a combination is measured of which the saved formula has no component, the second script
raises `KeyError`, whatever the optimizer does. -/
theorem C118_missing {S' : Sympy} (hsame : SameSympy S S') {R : Repr} {L : Listing} {float : Key → Option ℝ} {csv : CsvFiles}
    {files : Files} {interp : Interp} {names : Dict Key Key} {units fformName folder : Key} {dat : DataContainer ℝ}
    (hdat : loadData float csv names units false = .ok dat) (hform : loadFform S R files fformName = .ok fform)
    (hreal : RealSymbols fform) (hplain : ∀ k ∈ fform.getKeys, PlainName k)
    (hk : ∃ k ∈ dat.getKeys, k ∉ fform.getKeys)
    (hi : ∀ k pts, dat.getPc k sRadians = .ok pts → 32 < pts.length ∧ ∃ y, interp pts = .ok y)
    (hpsi : ¬ FOccurs fform psi) (hnames : ∀ s t, IsParameter fform s → IsParameter fform t → s.name = t.name → s = t)
    {valid : Key → Bool} (hvalid : ∀ s, IsParameter fform s → valid s.name = true) (guess : ℕ → ℝ) (opt : Optimizer DACall) (d : Disk) :
    ∃ d', genModelExample S C R files d fformName folder = .ok d' ∧ ∀ d₂, LaterFolder folder d' d₂ →
      fitModelExample S' R L float csv files interp valid guess opt d₂ names units fformName folder = .error .keyError := by
  classical
  have hform' : loadFform S' R files fformName = .ok fform := by rw [loadFform_same hsame, hform]
  obtain ⟨hc, hM, hs⟩ := loaded_symbolic hform
  obtain ⟨hc', -, -⟩ := loaded_symbolic hform'
  obtain ⟨F, hF⟩ := formulaIs_exists S hc
  have hM16 : (fform.getM : ℤ) = 16 := by rw [hM]; rfl
  obtain ⟨l, g1, g2, g3, g4⟩ := (C31_fform_free_symbols S hc).1 hs
  obtain ⟨l', g1', g2', g3', g4'⟩ := (C31_fform_free_symbols S' hc').1 hs
  have hinj : ∀ s ∈ l, ∀ t ∈ l, s.name = t.name → s = t := fun s hs t ht =>
    hnames s t (.inl ((g4 s).1 hs)) (.inl ((g4 t).1 ht))
  obtain rfl : l = l' := eq_of_sorted_syms g2 g2' g3 g3' (fun s => (g4 s).trans (g4' s).symm) hinj
  have hpl : psi ∉ l := fun h => hpsi ((g4 _).1 h)
  have hmem : ∀ s ∈ l ++ [psi], IsParameter fform s := by
    intro s hs
    rcases List.mem_append.1 hs with h | h
    · exact .inl ((g4 s).1 h)
    · exact .inr (List.mem_singleton.1 h)
  have hl : (l ++ [psi]).Nodup := List.nodup_append.2 ⟨g2, by simp, fun a ha b hb => by
    rw [List.mem_singleton.1 hb]; rintro rfl; exact hpl ha⟩
  have hn : ((l ++ [psi]).map Sym.name).Nodup := (List.nodup_map_iff_inj_on hl).2 (fun s hs t ht => hnames s t (hmem s hs) (hmem t ht))
  have hpar := addModelParameters_ok (valid := valid) guess (l := l) (fun s hs => hvalid s (hmem s hs)) hn
  have hd : dat.Reachable := by
    unfold loadData at hdat
    obtain ⟨v, _, hdat⟩ := bind_ok hdat
    obtain ⟨⟨c, w⟩, h1, hdat⟩ := bind_ok hdat
    cases hdat
    exact ⟨_, _, _, _, _, [], h1, rfl⟩
  have hy : ∃ y : Key → ℝ → ℝ, ∀ k pts, dat.getPc k sRadians = .ok pts → interp pts = .ok (y k) := by
    have h : ∀ k, ∃ y : ℝ → ℝ, ∀ pts, dat.getPc k sRadians = .ok pts → interp pts = .ok y := by
      intro k
      cases hp : dat.getPc k sRadians with
      | error e => exact ⟨fun _ => 0, fun _ h => by cases h⟩
      | ok pts =>
        obtain ⟨-, y, hy⟩ := hi k pts hp
        exact ⟨y, fun _ h => by cases h; exact hy⟩
    choose y hy using h
    exact ⟨y, hy⟩
  obtain ⟨y, hy⟩ := hy
  obtain ⟨fdat, t1, t2, t3, t4, t5⟩ := C89_transform hd 16 (f := y) (fun k pts h => ⟨by have := (hi k pts h).1; omega, hy k pts h⟩)
  have hpts : ∀ k ∈ dat.getKeys, ∃ pts, dat.getPc k sRadians = .ok pts := by
    intro k hkk
    obtain ⟨v, hv⟩ := Dict.mem_keys.1 hkk
    exact ⟨v, by rw [getPc_radians, Dict.get_ok_iff, Dict.get?_eq_some_iff (reachable_normalForm hd).1]; exact hv⟩
  have hD : ∃ D : Key → ℤ → ℂ, ∀ k ∈ fdat.getKeys, ∀ m : ℤ, -(fdat.getM : ℤ) ≤ m → m ≤ fdat.getM → DRepresents fdat k m (D k m) := by
    have h : ∀ (k : Key) (m : ℤ), ∃ z, k ∈ fdat.getKeys → -(fdat.getM : ℤ) ≤ m → m ≤ fdat.getM → DRepresents fdat k m z := by
      intro k m
      by_cases h : k ∈ fdat.getKeys ∧ -(fdat.getM : ℤ) ≤ m ∧ m ≤ fdat.getM
      · obtain ⟨pts, hp⟩ := hpts k (t3 ▸ h.1)
        exact ⟨_, fun _ _ _ => t5 k pts hp m (t4 ▸ h.2.1) (t4 ▸ h.2.2)⟩
      · exact ⟨0, fun h1 h2 h3 => absurd ⟨h1, h2, h3⟩ h⟩
    choose D hD using h
    exact ⟨D, fun k hk m h1 h2 => hD k m hk h1 h2⟩
  obtain ⟨D, hD⟩ := hD
  obtain ⟨rows, p1, p2⟩ := (C74_fdata t2).1 (Or.inl (rfl : sMulti = sMulti))
  obtain ⟨f, d', m1, m2⟩ := loaded_later S C L d hc hplain g1 hF folder (n := 3) (by norm_num)
  refine ⟨d', ?_, fun d₂ hd₂ => ?_⟩
  · unfold genModelExample
    rw [hform, ok_bind, m1]
    rfl
  obtain ⟨g, d'', m3, m4, m5⟩ := m2 d₂ hd₂
  rw [hM16] at m4
  obtain ⟨r, hr⟩ := guesses_are_values guess hl
  have hcost : scriptCost g rows (guessesFor (l ++ [psi]) guess) = .error .keyError := by
    rw [hr]
    have hpsi' := valuesFor_get hn r (s := psi) (by simp)
    have hbad : ∀ k, k ∉ fform.getKeys → ∀ m, scriptModel g (valuesFor (l ++ [psi]) r) k m = .error .keyError := by
      intro k hkk m
      unfold scriptModel turnedModel
      rw [hpsi', ok_bind, m5 k hkk]
      rfl
    obtain ⟨hrows, -⟩ := sum_rows t2 p2 hD (fun k m z => 0)
    refine foldlM_raises (fun t row hrow => ?_) ?_ 0
    · by_cases hin : row.1.1 ∈ fform.getKeys
      · left
        obtain ⟨_, k2, k3⟩ := hrows row hrow
        rw [t4] at k2 k3
        rw [scriptModel_ok hn (fun extra => m4 _ hin _ k2 k3 r extra)]
        exact ⟨_, rfl⟩
      · right
        rw [hbad _ hin]
        rfl
    · obtain ⟨k, hk1, hk2⟩ := hk
      have h1 := p2.2 k (t3 ▸ hk1)
      obtain ⟨v, hv, -, hv2⟩ := hD k (t3 ▸ hk1) 0 (by omega) (by omega)
      have h2 : (orders fdat.getM).zip v = (rows.filter (fun r => r.1.1 = k)).map (fun r => (r.1.2, r.2)) := by
        simp only [hv] at h1
        exact Except.ok.inj h1
      cases hfil : rows.filter (fun r => r.1.1 = k) with
      | nil =>
        exfalso
        rw [hfil] at h2
        have hlen := congrArg List.length h2
        have hvl : v.length ≠ 0 := by
          intro h0
          rw [List.length_eq_zero_iff.1 h0] at hv2
          simp at hv2
        simp [orders] at hlen
        exact hvl (by simp [hlen])
      | cons row rest =>
        have hrow : row ∈ rows.filter (fun r => r.1.1 = k) := by rw [hfil]; simp
        rw [List.mem_filter] at hrow
        refine ⟨row, hrow.1, fun t => ?_⟩
        rw [show row.1.1 = k by simpa using hrow.2, hbad k hk2]
        rfl
  unfold fitModelExample
  rw [hform']
  simp only [ok_bind, g1', m3, hpar, hdat, t1, p1]
  unfold lmfitMinimizeRaising
  rw [hcost]
  rfl

end

open PG TensorDef

section
variable (S : Sympy) (C : Compiler) (ex : Rewriting) (Rp : Repr)

/-- The symbols of the tensor of the script are those that `make_tensor_real` makes. -/
theorem scriptTensor_tag {solve : Solver} (hsolve : GoodSolver S solve) {n : ℕ} {table : Dict Key (Nd Expr)} {g : Key}
    {t₀ t : Nd Expr} {G : Set SymOp} (h0 : Dict.get table g = .ok t₀) (ht : OfTable S n t₀ G) {R : Fin 3 → Fin 3 → ℚ}
    (h : scriptTensor S solve table g R = .ok t) {s : Sym} (hs : OccursIn t s) : s.tag = 1 := by
  unfold scriptTensor at h
  rw [h0, ok_bind] at h
  obtain ⟨u, hu, h⟩ := bind_ok h
  have htt : TableTensor S n u G := .particularized ht hsolve hu
  obtain ⟨s', -, rfl⟩ := made_real_symbols S (tableTensor_from S htt)
    ((occursIn_transform S h hs).resolve_right (numMatrix_free R s))
  rfl

/-- The symbols of the formula that `gen_fform_from_form_example.py` stores are symbols of the tensor. -/
theorem generated_symbols {theta : Expr} (hth : theta.free = []) {t : Nd Expr} (ht : IsTensor 3 3 t) {form : FormContainer}
    {fform c : FFormContainer} (h1 : formgen S ex theta (some t) none none = .ok form) (h2 : formToFform S form 16 = .ok fform) {fs : Files}
    {save : Key} (h3 : loadFform S Rp (saveFform Rp fs fform save) save = .ok c) {s : Sym} (hs : FOccurs c s) : OccursIn t s := by
  obtain ⟨g1, g2, g3, g4⟩ := formToFform_symbols S (formgen_reachable S ex h1).wf h2
  have hsym : Symbolic fform := (FFormContainer.symbolic_iff g1).2 g3
  have hr : fform.Reachable S := by
    unfold formToFform at h2
    obtain ⟨it, _, h2⟩ := bind_ok h2
    exact ⟨_, _, _, [], h2, rfl⟩
  have hc : c = fform := by
    have := C33_round_trip_partial S Rp fs save hr hsym g2
    rw [h3] at this
    exact Except.ok.inj this
  subst hc
  obtain ⟨ho, hp⟩ := g4 s hs
  have hv : RightShapes (some t) none none := ⟨by rintro _ ⟨⟩; exact ht, by rintro _ ⟨⟩, by rintro _ ⟨⟩⟩
  have := formgen_free S ex (F := fun s => OccursIn t s ∨ s = phi) hv (.inr rfl) (fun s hs => by rw [hth] at hs; cases hs)
    (by rintro s ⟨u, hu | hu | hu, hs⟩ <;> cases hu; exact .inl hs) h1 s ho
  exact this.resolve_right hp

theorem turnedBackSquares_crystal {F : Key → ℤ → Valuation → ℂ} {r : Sym → ℝ} {T : Tens 3} {θ : ℝ}
    (h : formulaPatterns F r = crystalPatterns (dipoleCrystal T) θ) (N : Key → ℕ) (y : Key → ℝ → ℝ) (ψ : ℝ) {keys : List Key}
    (hp : keys.Perm [combo .P .P, combo .P .S, combo .S .P, combo .S .S]) :
    turnedBackSquares keys F N y r ψ = crystalSquares T θ (-ψ) N y := by
  have key : ∀ p q, gridMean (N (combo p q)) (fun x => ‖(y (combo p q) x : ℂ) -
      pattern 16 (fun m => F (combo p q) m (realVal r)) (x - ψ)‖ ^ 2) =
      gridMean (N (combo p q)) (fun x => |y (combo p q) x - intensity (dipoleCrystal T) θ (x + -ψ) p q| ^ 2) := by
    intro p q
    congr 1
    funext x
    have := congrFun (congrFun (congrFun h p) q) (x - ψ)
    unfold formulaPatterns crystalPatterns at this
    rw [this, ← Complex.ofReal_sub, Complex.norm_real, Real.norm_eq_abs, sub_eq_add_neg x ψ]
  unfold turnedBackSquares crystalSquares
  rw [(hp.map _).sum_eq]
  simp only [List.map_cons, List.map_nil, key]

/-- **C118, tensors.**  With a formula of `gen_fform_from_form_example.py`, for a number as the angle of incidence and for data of the four
combinations, the two scripts fit the crystals of the point group, turned by `R`: the curves that the second script returns are the
patterns of one of them, turned by some angle, and no crystal of the point group with elements up to 100, turned by any angle, comes closer
to the data, up to what the optimizer misses. -/
theorem C118_best_tensor {S' : Sympy} (hsame : SameSympy S S') {solve : Solver} (hsolve : GoodSolver S solve) {g : Key}
    {gens : List SymOp} (hg : (g, gens) ∈ pointGroups) (R : Fin 3 → Fin 3 → ℚ) {theta : Expr} (hth : theta.free = []) {θ : ℝ}
    (hθ : ∀ r : Sym → ℝ, theta.eval (realVal r) = (θ : ℂ)) (hex : ExpandsForms S ex theta) (hRp : ReadsNumbers Rp) {fs files : Files}
    {fformName : Key} (hgen : genFformExample S solve ex Rp fs g R theta fformName = .ok files) {L : Listing}
    {float : Key → Option ℝ} {csv : CsvFiles} {interp : Interp} {names : Dict Key Key} {units folder : Key} {dat : DataContainer ℝ}
    (hdat : loadData float csv names units false = .ok dat) (hk : dat.getKeys.Perm [combo .P .P, combo .P .S, combo .S .P, combo .S .S])
    {N : Key → ℕ} {y : Key → ℝ → ℝ}
    (hi : ∀ k pts, dat.getPc k sRadians = .ok pts → 32 < pts.length ∧ interp pts = .ok (y k) ∧ pts.length = N k)
    {valid : Key → Bool} (hvalid : ∀ fform s, loadFform S Rp files fformName = .ok fform → IsParameter fform s → valid s.name = true)
    (guess : ℕ → ℝ) {ε : ℝ} (hε : 0 ≤ ε) {opt : Optimizer DACall} (ho : AnnealsTo ε opt) (d : Disk) :
    ∃ d', genModelExample S C Rp files d fformName folder = .ok d' ∧ ∀ d₂, LaterFolder folder d' d₂ →
      (∀ e, fitModelExample S' Rp L float csv files interp valid guess opt d₂ names units fformName folder = .error e →
        ∃ call, opt call = .error e) ∧
      (0 < ε → FindsAnnealedFloats ε opt →
        ∃ out, fitModelExample S' Rp L float csv files interp valid guess opt d₂ names units fformName folder = .ok out) ∧
      ∀ dat' params fit w, fitModelExample S' Rp L float csv files interp valid guess opt d₂ names units fformName folder =
          .ok (dat', params, fit, w) →
        dat' = dat ∧ w = [] ∧ ∃ T ∈ realTensors 3 (generated gens), ∃ ψ,
          (∀ p q, fit.getPc (combo p q) sRadians = .ok (sampled 1000 (fun x =>
            intensity (dipoleCrystal (act (realMatrix R) T)) θ (x + ψ) p q))) ∧
          ∀ T' ∈ realTensors 3 (generated gens), (∀ i, ‖T' i‖ ≤ 100) → ∀ ψ',
            √(crystalSquares (act (realMatrix R) T) θ ψ N y) ≤ √(crystalSquares (act (realMatrix R) T') θ ψ' N y) + √ε := by
  obtain ⟨t₀, h0, ht⟩ := dipole_entry S hg
  have hgen' := hgen
  unfold genFformExample at hgen
  obtain ⟨t, ht', h⟩ := bind_ok hgen
  obtain ⟨f1, f2, f3, f4⟩ := scriptTensor_facts S hsolve (.inl rfl) h0 ht ht'
  have hphi : ¬ OccursIn t phi := fun hs =>
    no_letter (f2 _ hs).2 (n := phi.name) (by decide) (by decide) (by decide) rfl
  have hpsi : ¬ OccursIn t psi := fun hs =>
    no_letter (f2 _ hs).2 (n := psi.name) (by decide) (by decide) (by decide) rfl
  obtain ⟨form, fform, c, g1, g2, g3, g4, g5, g6⟩ :=
    generated_patterns S ex Rp (theta := theta) (by rw [hth]; exact List.not_mem_nil) hθ hex hRp f1 (fun s hs => (f2 s hs).1) hphi fs fformName
  rw [g1, ok_bind, g2, ok_bind] at h
  cases h
  obtain ⟨hc, -, -⟩ := loaded_symbolic g3
  obtain ⟨F, hF⟩ := formulaIs_exists S hc
  have hocc : ∀ {s}, FOccurs c s → OccursIn t s := fun hs => generated_symbols S ex Rp hth f1 g1 g2 g3 hs
  have htag : ∀ {s : Sym}, IsParameter c s → s.tag = 1 := by
    rintro s (hs | rfl)
    · exact scriptTensor_tag S hsolve h0 ht ht' (hocc hs)
    · rfl
  have hfour : ∀ p q, combo p q ∈ c.getKeys := by rw [g4]; intro p q; cases p <;> cases q <;> simp
  obtain ⟨d', a0, a1⟩ := C118_two_processes S C hsame (L := L) (folder := folder) hdat g3 hF (fun s hs => htag (.inl hs))
    (by
      rw [g4]
      intro k hk
      simp only [List.mem_cons, List.not_mem_nil, or_false] at hk
      rcases hk with rfl | rfl | rfl | rfl <;> (unfold PlainName; decide)) hfour
    (fun k hkk => by rw [g4]; exact hk.subset hkk) hi (fun h => hpsi (hocc h))
    (fun s s' hs hs' e => by
      have h1 := htag hs
      have h2 := htag hs'
      cases s; cases s'
      simp only at e h1 h2
      rw [e, h1, h2]) (fun s hs => hvalid _ s g3 hs) guess hε ho d
  refine ⟨d', a0, fun d₂ hd₂ => ?_⟩
  obtain ⟨b1, b2, b3⟩ := a1 d₂ hd₂
  refine ⟨b1, b2, fun dat' params fit w hout => ?_⟩
  obtain ⟨e1, e2, r, ψ, -, -, -, -, -, -, e3, R₀, hR₀, e4⟩ := b3 dat' params fit w hout
  obtain ⟨T, hT, e⟩ := f3 r
  have hpat : ∀ {r : Sym → ℝ} {T : Tens 3}, valueOf 3 t (realVal r) = act (realMatrix R) T →
      formulaPatterns F r = crystalPatterns (dipoleCrystal (act (realMatrix R) T)) θ := fun {r T} e => by
    rw [g6 F hF r, crystalOf_dipole e]
  refine ⟨e1, e2, T, hT, -ψ, fun p q => ?_, fun T' hT' hle ψ' => ?_⟩
  · rw [e3 p q]
    congr 2
    funext x
    have := congrFun (congrFun (congrFun (hpat e) p) q) (x - ψ)
    unfold formulaPatterns crystalPatterns at this
    rw [this, sub_eq_add_neg]
    rfl
  · classical
    obtain ⟨r', c1, c2, c3⟩ := f4 T' hT' (fun s => 0)
    have hbox' : InHundred r' := by
      intro s
      by_cases hso : OccursIn t s
      · obtain ⟨j, hj⟩ := c2 s hso
        have := hle j
        rwa [← hj, Complex.norm_real, Real.norm_eq_abs] at this
      · rw [c1 s hso]
        norm_num
    have key := (e4 r' (-ψ')).2 hbox'
    have k2 := (e4 r' (-ψ')).1
    rw [turnedBackSquares_crystal (hpat e) _ _ _ hk] at key
    rw [turnedBackSquares_crystal (hpat c3) _ _ _ hk, neg_neg] at key k2
    exact sqrt_le_beyond hR₀ k2 (Real.sqrt_nonneg _) key

end

/-! ## Concrete cases -/

namespace FitCases

/-- The lists of folders in the order of the disk. -/
def sameListing : Listing := ⟨id, fun _ => .refl _⟩

def realA : Sym := realSym ['a']

/-- A formula with one parameter: every component of every combination is `a`. -/
def onlyA : FFormContainer := fourFform (fun _ _ _ => .sym realA)

theorem onlyA_occurs {s : Sym} (h : FOccurs onlyA s) : s = realA := by
  obtain ⟨k, v, e, h1, h2, h3⟩ := FFormContainer.occurs_mem (fourFform_good _) (fourFform_symbolic _) h
  simp only [fourFform, fourCombos, List.mem_map, Prod.mk.injEq, FArr.obj.injEq] at h1
  obtain ⟨_, _, _, rfl⟩ := h1
  obtain ⟨_, _, rfl⟩ := List.mem_map.1 h2
  simpa [Expr.free] using h3

theorem onlyA_parameter {s : Sym} (h : IsParameter onlyA s) : s = realA ∨ s = psi := h.imp onlyA_occurs id

theorem onlyA_names {s t : Sym} (hs : IsParameter onlyA s) (ht : IsParameter onlyA t) (h : s.name = t.name) : s = t := by
  rcases onlyA_parameter hs with rfl | rfl <;> rcases onlyA_parameter ht with rfl | rfl <;> first | rfl | (exact absurd h (by decide))

theorem onlyA_plain : ∀ k ∈ onlyA.getKeys, PlainName k := by
  intro k hk
  have : k ∈ [combo .P .P, combo .P .S, combo .S .P, combo .S .S] := hk
  simp only [List.mem_cons, List.not_mem_nil, or_false] at this
  rcases this with rfl | rfl | rfl | rfl <;> (unfold PlainName; decide)

/-- The names of the data files. -/
def fourNames : Dict Key Key := [(combo .P .P, ['f']), (combo .P .S, ['f']), (combo .S .P, ['f']), (combo .S .S, ['f'])]

/-- The hypotheses of `C118_two_processes` are met, with success, for any `ε`. -/
example {ε : ℝ} (hε : 0 < ε) : ∃ F d' dat params fit, FormulaIs onlyA F ∧
    genModelExample Sympy.plain compiler exRepr (saveFform exRepr (fun _ => none) onlyA ['s']) noFiles ['s'] ['m'] = .ok d' ∧
    fitModelExample Sympy.turned exRepr sameListing unaryFloat unaryCsv (saveFform exRepr (fun _ => none) onlyA ['s'])
      (fun _ => .ok (fun _ => 1 / 4)) (fun _ => true) (fun _ => 7) (floatAnnealing ε) { d' with loaded := [] } fourNames sDegrees
      ['s'] ['m'] = .ok (dat, params, fit, []) ∧
    BestModel (√ε) onlyA dat.getKeys F (fun _ => 36) (fun _ _ => 1 / 4) params fit := by
  obtain ⟨F, hF⟩ := fourFform_is Sympy.plain exRepr (fun _ _ _ => .sym realA)
  obtain ⟨dat, l1, _, l2, l3⟩ := loadData_sampled (Or.inr rfl) (by unfold Dict.WF; decide) (by norm_num) (unary_samples_all fourNames)
  obtain ⟨o1, o2, o3⟩ := floatAnnealing_spec ε
  obtain ⟨d', t1, t2⟩ := C118_two_processes Sympy.plain compiler (S' := Sympy.turned) rfl (L := sameListing) (folder := ['m']) l1
    (fourFform_load Sympy.plain exRepr (fun _ => none) ['s'] _) hF (fun s hs => by rw [onlyA_occurs hs]; rfl) onlyA_plain
    (by intro p q; cases p <;> cases q <;> simp [fourFform, FFormContainer.getKeys, Dict.keys, fourCombos])
    (fun k hk => by rw [l2] at hk; exact hk) (interp := fun _ => .ok (fun _ => 1 / 4)) (N := fun _ => 36) (y := fun _ _ => 1 / 4)
    (fun k pts h => by
      have hk : k ∈ dat.getKeys := by
        rw [getPc_radians] at h
        exact Dict.mem_keys_of_mem (Dict.mem_of_get? (Dict.get_ok_iff.1 h))
      rw [l3 k (l2 ▸ hk)] at h
      cases h
      simp [sampled])
    (fun h => by have := onlyA_occurs h; revert this; decide) (fun s t hs ht h => onlyA_names hs ht h)
    (valid := fun _ => true) (fun _ _ => rfl) (fun _ => 7) hε.le o1 noFiles
  obtain ⟨-, t3, t4⟩ := t2 { d' with loaded := [] } ⟨rfl, by simp [Dict.keys]⟩
  obtain ⟨⟨dat', params, fit, w⟩, h⟩ := t3 hε o3
  obtain ⟨rfl, rfl, hb⟩ := t4 _ _ _ _ h
  exact ⟨F, d', dat', params, fit, hF, t1, h, hb⟩

/-- The hypotheses of `C118_missing` are met: a file of a fifth combination. -/
example (opt : Optimizer DACall) : ∃ d',
    genModelExample Sympy.plain compiler exRepr (saveFform exRepr (fun _ => none) onlyA ['s']) noFiles ['s'] ['m'] = .ok d' ∧
    fitModelExample Sympy.turned exRepr sameListing unaryFloat unaryCsv (saveFform exRepr (fun _ => none) onlyA ['s'])
      (fun _ => .ok (fun _ => 1 / 4)) (fun _ => true) (fun _ => 7) opt { d' with loaded := [] } (fourNames ++ [(['R', 'L'], ['f'])])
      sDegrees ['s'] ['m'] = .error .keyError := by
  obtain ⟨dat, l1, _, l2, l3⟩ := loadData_sampled (Or.inr rfl) (by unfold Dict.WF; decide) (by norm_num)
    (unary_samples_all (fourNames ++ [(['R', 'L'], ['f'])]))
  obtain ⟨d', t1, t2⟩ := C118_missing Sympy.plain compiler (S' := Sympy.turned) rfl (L := sameListing) (folder := ['m']) l1
    (fourFform_load Sympy.plain exRepr (fun _ => none) ['s'] _) (fun s hs => by rw [onlyA_occurs hs]; rfl) onlyA_plain
    ⟨['R', 'L'], by rw [l2]; decide, by
      show ['R', 'L'] ∉ [combo .P .P, combo .P .S, combo .S .P, combo .S .S]
      decide⟩ (interp := fun _ => .ok (fun _ => 1 / 4))
    (fun k pts h => by
      have hk : k ∈ dat.getKeys := by
        rw [getPc_radians] at h
        exact Dict.mem_keys_of_mem (Dict.mem_of_get? (Dict.get_ok_iff.1 h))
      rw [l3 k (l2 ▸ hk)] at h
      cases h
      simp [sampled])
    (fun h => by have := onlyA_occurs h; revert this; decide) (fun s t hs ht h => onlyA_names hs ht h)
    (valid := fun _ => true) (fun _ _ => rfl) (fun _ => 7) opt noFiles
  exact ⟨d', t1, t2 { d' with loaded := [] } ⟨rfl, by simp [Dict.keys]⟩⟩

/-- The hypotheses of `C118_best_tensor` are met, with success, for the point group `T`. -/
example {ε : ℝ} (hε : 0 < ε) : ∃ gens files d' dat params fit, ((['T'] : Key), gens) ∈ pointGroups ∧
    genFformExample expandingSympy (solverT expandingSympy) expanding exRepr (fun _ => none) ['T'] turn35 (.num (1 / 2)) ['s'] = .ok files ∧
    genModelExample expandingSympy compiler exRepr files noFiles ['s'] ['m'] = .ok d' ∧
    fitModelExample expandingSympy exRepr sameListing unaryFloat unaryCsv files
      (fun _ => .ok (fun _ => 1 / 4)) (fun _ => true) (fun _ => 7) (floatAnnealing ε) { d' with loaded := [] } fourNames sDegrees
      ['s'] ['m'] = .ok (dat, params, fit, []) ∧
    ∃ T ∈ realTensors 3 (generated gens), ∃ ψ, ∀ p q, fit.getPc (combo p q) sRadians = .ok (sampled 1000 (fun x =>
      intensity (dipoleCrystal (act (realMatrix turn35) T)) ((1 / 2 : ℚ) : ℝ) (x + ψ) p q)) := by
  obtain ⟨gens, hg⟩ := T_mem
  obtain ⟨files, h1, -⟩ := C115_formula expandingSympy expanding exRepr (solverT_good _) hg (T_entry _) (particularizeT _)
    turn35 (theta := .num (1 / 2)) (by simp [Expr.free]) (θ := ((1 / 2 : ℚ) : ℝ)) (fun r => by simp [Expr.eval])
    (expanding_forms (by simp [Expr.free])) exRepr_reads (fun _ => none) ['s']
  obtain ⟨dat, l1, _, l2, l3⟩ := loadData_sampled (Or.inr rfl) (by unfold Dict.WF; decide) (by norm_num) (unary_samples_all fourNames)
  obtain ⟨o1, o2, o3⟩ := floatAnnealing_spec ε
  obtain ⟨d', t1, t2⟩ := C118_best_tensor expandingSympy compiler expanding exRepr (S' := expandingSympy) rfl (solverT_good _) hg turn35
    (theta := .num (1 / 2)) (by simp [Expr.free]) (θ := ((1 / 2 : ℚ) : ℝ)) (fun r => by simp [Expr.eval])
    (expanding_forms (by simp [Expr.free])) exRepr_reads h1 (L := sameListing) (folder := ['m']) l1
    (by rw [l2]; exact .refl _) (interp := fun _ => .ok (fun _ => 1 / 4)) (N := fun _ => 36) (y := fun _ _ => 1 / 4)
    (fun k pts h => by
      have hk : k ∈ dat.getKeys := by
        rw [getPc_radians] at h
        exact Dict.mem_keys_of_mem (Dict.mem_of_get? (Dict.get_ok_iff.1 h))
      rw [l3 k (l2 ▸ hk)] at h
      cases h
      simp [sampled])
    (valid := fun _ => true) (fun _ _ _ _ => rfl) (fun _ => 7) hε.le o1 noFiles
  obtain ⟨-, t3, t4⟩ := t2 { d' with loaded := [] } ⟨rfl, by simp [Dict.keys]⟩
  obtain ⟨⟨dat', params, fit, w⟩, h⟩ := t3 hε o3
  obtain ⟨rfl, rfl, T, hT, ψ, hf, -⟩ := t4 _ _ _ _ h
  exact ⟨gens, files, d', dat', params, fit, hg, h1, t1, h, T, hT, ψ, hf⟩

end FitCases

end Shgpy
