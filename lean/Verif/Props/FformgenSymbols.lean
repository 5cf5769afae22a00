import Verif.Proofs.FformgenAll
import Verif.Props.FformRound
import Verif.Props.Selection
import Verif.Props.GenExample

/-!
# Theorems: the symbols of the files of `fformgen` (C116), and the patterns of rounded formulas (C81)
-/

namespace Shgpy
open Spec

set_option linter.unusedSectionVars false
set_option linter.unusedVariables false

section
variable (S : Sympy) (R : Repr)

/-! ### Free symbols -/

theorem closed_free {F : Sym → Prop} : FClosed S (FreeIn F) where
  num := FreeIn.num
  imag q := by intro s h; simp [Expr.free, Expr.freeL] at h
  add _ _ := FreeIn.addS S
  mul _ _ := FreeIn.mulS S
  sub a b ha hb := FreeIn.norm S (fun s hs => by
    rcases (by simpa [Expr.free, Expr.freeL] using hs) with h | h
    · exact ha s h
    · exact hb s h)

/-- Substituted symbols are gone. -/
theorem freeIn_subs {F : Sym → Prop} : ∀ {pairs : List (Sym × Expr)} {e : Expr}, (∀ p ∈ pairs, FreeIn F p.2) →
    FreeIn (fun s => F s ∨ s ∈ pairs.map Prod.fst) e → FreeIn F (S.subs pairs e) := by
  intro pairs
  induction pairs with
  | nil =>
    intro e _ h s hs
    exact (h s hs).resolve_right (by simp)
  | cons p r ih =>
    intro e hp h
    refine ih (fun q hq => hp q (by simp [hq])) ?_
    refine FreeIn.norm S (fun s hs => ?_)
    rcases Expr.free_subst e hs with ⟨h1, h2⟩ | ⟨-, h2⟩
    · rcases h s h1 with h3 | h3
      · exact .inl h3
      · rw [List.map_cons, List.mem_cons] at h3
        exact .inr (h3.resolve_left h2)
    · exact .inl (hp p (by simp) s h2)

theorem freeIn_mono {F F' : Sym → Prop} (h : ∀ s, F s → F' s) {e : Expr} (he : FreeIn F e) : FreeIn F' e := fun s hs => h s (he s hs)

theorem freeIn_trig {F : Sym → Prop} {e : Expr} (h : FreeIn F e) : FreeIn F (S.cos e) ∧ FreeIn F (S.sin e) :=
  ⟨FreeIn.norm S h, FreeIn.norm S h⟩

theorem freeIn_theta {F : Sym → Prop} (h : F thetaSym) : FreeIn F (.sym thetaSym) := by
  intro s hs
  rw [Expr.free, List.mem_singleton] at hs
  rw [hs]; exact h

theorem vectors_free {F : Sym → Prop} (h : F thetaSym) : AllEv (FreeIn F) (koutSym S) ∧ AllEv (FreeIn F) (kinSym S) := by
  obtain ⟨hc, hs⟩ := freeIn_trig S (freeIn_theta h)
  exact ⟨allEv_vec3 (closed_free S) (FreeIn.negS S hs) (FreeIn.num 0) (FreeIn.negS S hc),
    allEv_vec3 (closed_free S) (FreeIn.negS S hs) (FreeIn.num 0) hc⟩

/-- The symbols of the field are substituted. -/
theorem field_gone {F : Sym → Prop} {c s : Expr} (hc : FreeIn F c) (hs : FreeIn F s) (nfs : NpFiles) (pre : Key) {kout kin : Nd Expr}
    (hko : AllEv (FreeIn F) kout) (hki : AllEv (FreeIn F) kin) {t : List FTensor × List FTensor}
    (ht : uncontractedBoth S 16 kout kin = .ok t) : FilesAll (FreeIn F) (saveUncontracted S nfs pre c s t) pre := by
  have hmono : ∀ s, F s → F s ∨ s ∈ [FxSym, FySym, FzSym] := fun s h => .inl h
  have hf : ∀ u ∈ [FxSym, FySym, FzSym], FreeIn (fun s => F s ∨ s ∈ [FxSym, FySym, FzSym]) (.sym u) := by
    intro u hu s hs
    rw [Expr.free, List.mem_singleton] at hs
    rw [hs]; exact .inr hu
  obtain ⟨h1, h2⟩ := allF_both (closed_free S (F := fun s => F s ∨ s ∈ [FxSym, FySym, FzSym])) (fun i => freeIn_mono hmono (hko i))
    (fun i => freeIn_mono hmono (hki i)) (hf _ (by simp)) (hf _ (by simp)) (hf _ (by simp)) ht
  have hsub : ∀ {a b d : Expr}, FreeIn F a → FreeIn F b → FreeIn F d → ∀ e, FreeIn (fun s => F s ∨ s ∈ [FxSym, FySym, FzSym]) e →
      FreeIn F (S.subs [(FxSym, a), (FySym, b), (FzSym, d)] e) := by
    intro a b d ha hb hd e he
    refine freeIn_subs S (fun p hp => ?_) he
    simp only [List.mem_cons, List.not_mem_nil, or_false] at hp
    rcases hp with rfl | rfl | rfl
    · exact ha
    · exact hb
    · exact hd
  exact filesAll_saved h1 h2 (hsub hc (FreeIn.num 0) hs) (hsub (FreeIn.num 0) (FreeIn.num _) (FreeIn.num 0)) nfs pre

theorem files_num {F : Sym → Prop} {nfs nfs' : NpFiles} {aoi : ℚ} {pre : Key} (h : generateUncontracted S nfs aoi pre 16 = .ok nfs') :
    FilesAll (FreeIn F) nfs' pre := by
  unfold generateUncontracted at h
  dsimp only at h
  obtain ⟨t, ht, h⟩ := bind_ok h
  cases h
  have hv := vectors_free S (F := fun s => F s ∨ s ∈ [thetaSym]) (.inr (by simp))
  have hnum : ∀ p ∈ [(thetaSym, Expr.num aoi)], FreeIn F p.2 := by
    intro p hp
    rw [List.mem_singleton] at hp
    rw [hp]; exact FreeIn.num _
  refine field_gone S ?_ ?_ nfs pre (fun i => freeIn_subs S hnum (hv.1 i)) (fun i => freeIn_subs S hnum (hv.2 i)) ht
  · intro s hs; simp [Expr.free] at hs
  · intro s hs; simp [Expr.free] at hs

theorem files_symb {F : Sym → Prop} (hF : F thetaSym) {nfs nfs' : NpFiles} {pre : Key} (h : generateUncontractedSymb S nfs pre 16 = .ok nfs') :
    FilesAll (FreeIn F) nfs' pre := by
  unfold generateUncontractedSymb at h
  obtain ⟨t, ht, h⟩ := bind_ok h
  cases h
  exact field_gone S (freeIn_trig S (freeIn_theta hF)).1 (freeIn_trig S (freeIn_theta hF)).2 nfs pre (vectors_free S hF).1
    (vectors_free S hF).2 ht

/-! ### The loaded container -/

/-- The container with the formulas `g`. -/
def fourFform (g : Pol → Pol → ℤ → Expr) : FFormContainer :=
  ⟨fourCombos.map (fun pq => (combo pq.1 pq.2, .obj ((freqs 16).map (g pq.1 pq.2)))), 16⟩

theorem fourFform_good (g : Pol → Pol → ℤ → Expr) : (fourFform g).Good := by
  refine ⟨by show List.Nodup [combo .P .P, combo .P .S, combo .S .P, combo .S .S]; decide, ?_⟩
  intro it hit
  obtain ⟨pq, _, rfl⟩ := List.mem_map.1 hit
  simp [length_freqs, fourFform]

theorem fourFform_symbolic (g : Pol → Pol → ℤ → Expr) : ∀ it ∈ (fourFform g).fform, it.2.isNative = false := by
  intro it hit
  obtain ⟨pq, _, rfl⟩ := List.mem_map.1 hit
  rfl

theorem fourFform_load (fs : Files) (save : Key) (g : Pol → Pol → ℤ → Expr) :
    loadFform S R (saveFform R fs (fourFform g) save) save = .ok (fourFform g) := by
  have hF : ∀ it ∈ (fourFform g).fform, ∀ o ∈ it.2.objs, R.parse (R.srepr o) =
      .ok ((fun o => match o with | .sy e => e | .native _ _ => .num 0 : PyObj → Expr) o) := by
    intro it hit o ho
    obtain ⟨pq, _, rfl⟩ := List.mem_map.1 hit
    simp only [FArr.objs_obj, List.mem_map] at ho
    obtain ⟨e, _, rfl⟩ := ho
    exact R.round_trip e
  rw [load_save_eq S R fs save hF]
  have := FFormContainer.init_16 S (fourFform_good g) (fourFform_symbolic g) (Or.inl rfl)
  refine Eq.trans ?_ this
  simp [FFormContainer.toIterable, fourFform, Dict.mapVals, fourCombos, Function.comp_def, FArr.toRaw]

theorem fourFform_free (g : Pol → Pol → ℤ → Expr) {F : Sym → Prop} (h : ∀ p q n, -16 ≤ n ∧ n ≤ 16 → FreeIn F (g p q n)) :
    ∃ l, (fourFform g).getFreeSymbols S = .ok l ∧ ∀ s ∈ l, F s := by
  obtain ⟨l, h1, h2⟩ := FFormContainer.getFreeSymbols_ok S (fourFform_good g) (fourFform_symbolic g)
  refine ⟨_, h1, fun s hs => ?_⟩
  rw [S.mem_sortSyms, h2] at hs
  obtain ⟨k, v, e, hv, he, hs⟩ := hs
  obtain ⟨⟨p, q⟩, -, heq⟩ := List.mem_map.1 hv
  cases heq
  obtain ⟨n, hn, rfl⟩ := List.mem_map.1 he
  rw [mem_freqs] at hn
  exact h p q n (by simpa using hn) s hs

theorem fourFform_component (g : Pol → Pol → ℤ → Expr) {F : Key → ℤ → Valuation → ℂ} (hF : FormulaIs (fourFform g) F) (p q : Pol) {m : ℤ}
    (hm : -16 ≤ m ∧ m ≤ 16) (σ : Valuation) : F (combo p q) m σ = (g p q m).eval σ := by
  obtain ⟨a, o, ha, ho, hv⟩ := hF (combo p q) (by
    show _ ∈ [combo .P .P, combo .P .S, combo .S .P, combo .S .S]
    cases p <;> cases q <;> simp) m hm.1 hm.2
  have ha' : (fourFform g).getPc (combo p q) = .ok (.obj ((freqs 16).map (g p q))) := by cases p <;> cases q <;> rfl
  rw [ha'] at ha; cases ha
  have ho' : Component (FArr.obj ((freqs 16).map (g p q))).objs 16 m (PyObj.sy (g p q m)) :=
    component_map PyObj.sy (component_freqs_map (g p q) hm)
  have : o = PyObj.sy (g p q m) := Option.some.inj (ho.2.symm.trans ho'.2)
  subst this
  exact (hv σ).symm

/-- The formulas that `generate_contracted_fourier_transforms` computes, if the stored arrays have the property `Q`. -/
theorem contracted_formulas {Q : Expr → Prop} (h : FClosed S Q) (hconj : ∀ e, Q e → Q (S.conj e)) {nfs : NpFiles} {pre : Key}
    {θ : (Sym → ℝ) → ℝ} (hs : AllStored nfs pre θ) (hf : FilesAll Q nfs pre) {chiD chiQ : Nd Expr}
    (hv : ValidTensors (some chiD) none (some chiQ)) (hDq : AllIn Q chiD) (hQq : AllIn Q chiQ) :
    ∃ g : Pol → Pol → ℤ → Expr,
      contractedFform S nfs pre chiD chiQ 16 = .ok (fourCombos.map (fun pq => (combo pq.1 pq.2, (freqs 16).map (g pq.1 pq.2)))) ∧
      (∀ p q (r : Sym → ℝ) (n : ℤ), -16 ≤ n ∧ n ≤ 16 → (g p q n).eval (realVal r) =
        integralCoeff (fun x => (intensity (crystalOf (some chiD) none (some chiQ) (realVal r)) (θ r) (x + Real.pi) p q : ℂ)) n) ∧
      ∀ p q (n : ℤ), -16 ≤ n ∧ n ≤ 16 → Q (g p q n) := by
  obtain ⟨g, h1, h2⟩ := contracted_ok S hs (hv.eee3 _ rfl) (hv.qee4 _ rfl)
    (fun s hs => hs.elim (hv.real _ (Or.inl rfl) s) (hv.real _ (Or.inr (Or.inr rfl)) s))
  refine ⟨g, h1, h2, fun p q n hn => ?_⟩
  refine contracted_all h hconj hs hf (hv.eee3 _ rfl) (hv.qee4 _ rfl) hDq hQq h1 (combo p q) ((freqs 16).map (g p q)) ?_ _
    (List.mem_map.2 ⟨n, by rw [mem_freqs]; exact_mod_cast hn, rfl⟩)
  cases p <;> cases q <;> simp [fourCombos]

theorem contracted_saved {fs fs' : Files} {nfs : NpFiles} {save pre : Key} {chiD chiQ : Nd Expr} {g : Pol → Pol → ℤ → Expr}
    (hd : contractedFform S nfs pre chiD chiQ 16 = .ok (fourCombos.map (fun pq => (combo pq.1 pq.2, (freqs 16).map (g pq.1 pq.2)))))
    (h : generateContracted S R fs nfs save pre chiD chiQ 16 = .ok fs') : fs' = saveFform R fs (fourFform g) save := by
  unfold generateContracted at h
  rw [hd, ok_bind] at h
  cases h
  rfl

theorem rounded_saved {ex : Rewriting} {n : ℕ} (D : DecRound n) (fs : Files) {nfs : NpFiles} (save : Key) {pre : Key} {chiD chiQ : Nd Expr}
    {g : Pol → Pol → ℤ → Expr}
    (hd : contractedFform S nfs pre chiD chiQ 16 = .ok (fourCombos.map (fun pq => (combo pq.1 pq.2, (freqs 16).map (g pq.1 pq.2))))) :
    generateContractedRounded S ex D R fs nfs save pre chiD chiQ 16 =
      .ok (saveFform R fs (fourFform (fun p q m => roundExpr S ex D (g p q m))) save) := by
  unfold generateContractedRounded
  rw [hd, ok_bind]
  simp only [saveFform, fourFform, fourCombos, Dict.mapVals, List.map_cons, List.map_nil, List.map_map, FArr.objs_obj]
  rfl

/-! ## C116 -/

theorem occurs_allIn {chi : Nd Expr} {F : Sym → Prop} (h : ∀ s, OccursIn chi s → F s) : AllIn (FreeIn F) chi :=
  fun idx hi s hs => h s ⟨idx, hi, hs⟩

/-- **C116.**  The free symbols of the formulas that the two functions of `fformgen` compute, with a numerical angle of incidence, are
symbols of the given tensors: there are no symbols of the field, of the angle of incidence or of the azimuth left. -/
theorem C116_symbols {fs fs' : Files} {nfs nfs' : NpFiles} {pre save : Key} {aoi : ℚ} {chiD chiQ : Nd Expr}
    (hv : ValidTensors (some chiD) none (some chiQ)) (h1 : generateUncontracted S nfs aoi pre 16 = .ok nfs')
    (h2 : generateContracted S R fs nfs' save pre chiD chiQ 16 = .ok fs') {c : FFormContainer} (h3 : loadFform S R fs' save = .ok c) :
    ∃ l, c.getFreeSymbols S = .ok l ∧ ∀ s ∈ l, OccursIn chiD s ∨ OccursIn chiQ s := by
  obtain ⟨n', g1, g2⟩ := uncontracted_num S nfs aoi pre
  rw [h1] at g1; cases g1
  obtain ⟨g, hd, -, hq⟩ := contracted_formulas S (closed_free S (F := fun s => OccursIn chiD s ∨ OccursIn chiQ s))
    (fun e => freeIn_conjS S) g2 (files_num S h1) hv (occurs_allIn (fun s => .inl)) (occurs_allIn (fun s => .inr))
  rw [contracted_saved S R hd h2, fourFform_load] at h3
  cases h3
  exact fourFform_free S g hq

/-- **C116, symbolic angle of incidence.**  The only further symbol is `theta`. -/
theorem C116_symbols_symb {fs fs' : Files} {nfs nfs' : NpFiles} {pre save : Key} {chiD chiQ : Nd Expr}
    (hv : ValidTensors (some chiD) none (some chiQ)) (h1 : generateUncontractedSymb S nfs pre 16 = .ok nfs')
    (h2 : generateContracted S R fs nfs' save pre chiD chiQ 16 = .ok fs') {c : FFormContainer} (h3 : loadFform S R fs' save = .ok c) :
    ∃ l, c.getFreeSymbols S = .ok l ∧ ∀ s ∈ l, s = thetaSym ∨ OccursIn chiD s ∨ OccursIn chiQ s := by
  obtain ⟨n', g1, g2⟩ := uncontracted_symb S nfs pre
  rw [h1] at g1; cases g1
  obtain ⟨g, hd, -, hq⟩ := contracted_formulas S (closed_free S (F := fun s => s = thetaSym ∨ OccursIn chiD s ∨ OccursIn chiQ s))
    (fun e => freeIn_conjS S) g2 (files_symb S (.inl rfl) h1) hv (occurs_allIn (fun s h => .inr (.inl h)))
    (occurs_allIn (fun s h => .inr (.inr h)))
  rw [contracted_saved S R hd h2, fourFform_load] at h3
  cases h3
  exact fourFform_free S g hq

theorem freeIn_round {F : Sym → Prop} {ex : Rewriting} {n : ℕ} (D : DecRound n) {e : Expr} (h : FreeIn F e) :
    FreeIn F (roundExpr S ex D e) := by
  intro s hs
  have := S.free_norm _ _ hs
  rw [free_roundNums] at this
  exact h s (ex.free_run _ _ this)

/-- **C116, rounded formulas.**  The same with `ndigits`. -/
theorem C116_symbols_rounded {ex : Rewriting} {n : ℕ} (D : DecRound n) {fs fs' : Files} {nfs nfs' : NpFiles} {pre save : Key}
    {chiD chiQ : Nd Expr} (hv : ValidTensors (some chiD) none (some chiQ))
    (h2 : generateContractedRounded S ex D R fs nfs' save pre chiD chiQ 16 = .ok fs') {c : FFormContainer}
    (h3 : loadFform S R fs' save = .ok c) :
    (∀ aoi, generateUncontracted S nfs aoi pre 16 = .ok nfs' →
      ∃ l, c.getFreeSymbols S = .ok l ∧ ∀ s ∈ l, OccursIn chiD s ∨ OccursIn chiQ s) ∧
    (generateUncontractedSymb S nfs pre 16 = .ok nfs' →
      ∃ l, c.getFreeSymbols S = .ok l ∧ ∀ s ∈ l, s = thetaSym ∨ OccursIn chiD s ∨ OccursIn chiQ s) := by
  constructor
  · intro aoi h1
    obtain ⟨n', g1, g2⟩ := uncontracted_num S nfs aoi pre
    rw [h1] at g1; cases g1
    obtain ⟨g, hd, -, hq⟩ := contracted_formulas S (closed_free S (F := fun s => OccursIn chiD s ∨ OccursIn chiQ s))
      (fun e => freeIn_conjS S) g2 (files_num S h1) hv (occurs_allIn (fun s => .inl)) (occurs_allIn (fun s => .inr))
    rw [rounded_saved S R D fs save hd] at h2
    cases h2
    rw [fourFform_load] at h3
    cases h3
    exact fourFform_free S _ (fun p q m hm => freeIn_round S D (hq p q m hm))
  · intro h1
    obtain ⟨n', g1, g2⟩ := uncontracted_symb S nfs pre
    rw [h1] at g1; cases g1
    obtain ⟨g, hd, -, hq⟩ := contracted_formulas S (closed_free S (F := fun s => s = thetaSym ∨ OccursIn chiD s ∨ OccursIn chiQ s))
      (fun e => freeIn_conjS S) g2 (files_symb S (.inl rfl) h1) hv (occurs_allIn (fun s h => .inr (.inl h)))
      (occurs_allIn (fun s h => .inr (.inr h)))
    rw [rounded_saved S R D fs save hd] at h2
    cases h2
    rw [fourFform_load] at h3
    cases h3
    exact fourFform_free S _ (fun p q m hm => freeIn_round S D (hq p q m hm))

end

/-! ## C81: patterns of rounded formulas -/

theorem anglesPL_iff {P : Expr → Prop} (l : List Expr) : AnglesPL P l ↔ ∀ e ∈ l, AnglesP P e := by
  induction l with
  | nil => simp [AnglesPL]
  | cons e l ih => simp [AnglesPL, ih]

theorem digits_subst {n : ℕ} {s : Sym} {t : Expr} (ht : Digits n t) (e : Expr) : Digits n e → Digits n (Expr.subst s t e) := by
  induction e using Expr.ind with
  | num q => exact id
  | hI => exact id
  | sym u => intro _; rw [Expr.subst]; split_ifs; exacts [ht, trivial]
  | add l ih =>
    simp only [Expr.subst, Digits, digitsL_iff, Expr.substL_eq, List.mem_map]
    rintro h _ ⟨e, he, rfl⟩
    exact ih e he (h e he)
  | mul l ih =>
    simp only [Expr.subst, Digits, digitsL_iff, Expr.substL_eq, List.mem_map]
    rintro h _ ⟨e, he, rfl⟩
    exact ih e he (h e he)
  | pow b m ih => exact ih
  | cos e ih => exact ih
  | sin e ih => exact ih

theorem anglesP_subst {n : ℕ} {s : Sym} {t : Expr} (ht : Digits n t) (ht' : AnglesP (Digits n) t) (e : Expr) :
    AnglesP (Digits n) e → AnglesP (Digits n) (Expr.subst s t e) := by
  induction e using Expr.ind with
  | num q => exact id
  | hI => exact id
  | sym u => intro _; rw [Expr.subst]; split_ifs; exacts [ht', trivial]
  | add l ih =>
    simp only [Expr.subst, AnglesP, anglesPL_iff, Expr.substL_eq, List.mem_map]
    rintro h _ ⟨e, he, rfl⟩
    exact ih e he (h e he)
  | mul l ih =>
    simp only [Expr.subst, AnglesP, anglesPL_iff, Expr.substL_eq, List.mem_map]
    rintro h _ ⟨e, he, rfl⟩
    exact ih e he (h e he)
  | pow b m ih => exact ih
  | cos e ih => exact digits_subst ht e
  | sin e ih => exact digits_subst ht e

theorem digits_conj {n : ℕ} (e : Expr) : Digits n e → Digits n e.conj := by
  induction e using Expr.ind with
  | num q => exact id
  | hI =>
    intro _
    refine ⟨⟨-10 ^ n, ?_⟩, trivial, trivial⟩
    push_cast
    rw [neg_div, div_self (by positivity)]
  | sym u => exact id
  | add l ih =>
    simp only [Expr.conj, Digits, digitsL_iff, conjL_eq, List.mem_map]
    rintro h _ ⟨e, he, rfl⟩
    exact ih e he (h e he)
  | mul l ih =>
    simp only [Expr.conj, Digits, digitsL_iff, conjL_eq, List.mem_map]
    rintro h _ ⟨e, he, rfl⟩
    exact ih e he (h e he)
  | pow b m ih => exact ih
  | cos e ih => exact ih
  | sin e ih => exact ih

theorem anglesP_conj {n : ℕ} (e : Expr) : AnglesP (Digits n) e → AnglesP (Digits n) e.conj := by
  induction e using Expr.ind with
  | num q => exact id
  | hI => intro _; exact ⟨trivial, trivial, trivial⟩
  | sym u => exact id
  | add l ih =>
    simp only [Expr.conj, AnglesP, anglesPL_iff, conjL_eq, List.mem_map]
    rintro h _ ⟨e, he, rfl⟩
    exact ih e he (h e he)
  | mul l ih =>
    simp only [Expr.conj, AnglesP, anglesPL_iff, conjL_eq, List.mem_map]
    rintro h _ ⟨e, he, rfl⟩
    exact ih e he (h e he)
  | pow b m ih => exact ih
  | cos e ih => exact digits_conj e
  | sin e ih => exact digits_conj e

theorem digits_num {n₀ n : ℕ} (hn : n₀ ≤ n) {q : ℚ} (h : Digits n₀ (.num q)) : Digits n (.num q) := by
  obtain ⟨z, rfl⟩ := h
  refine ⟨z * 10 ^ (n - n₀), ?_⟩
  push_cast
  rw [div_eq_div_iff (by positivity) (by positivity), mul_assoc, ← pow_add, Nat.sub_add_cancel hn]

section
variable (S : Sympy) (R : Repr) {n₀ : ℕ} (hS : KeepsAngles S n₀)
include hS

theorem closed_angles : FClosed S (ShortAngles n₀) where
  num q := fun _ _ => trivial
  imag q := fun _ _ => ⟨trivial, trivial, trivial⟩
  add a b ha hb := fun n hn => hS n _ hn ⟨ha n hn, hb n hn, trivial⟩
  mul a b ha hb := fun n hn => hS n _ hn ⟨ha n hn, hb n hn, trivial⟩
  sub a b ha hb := fun n hn => hS n _ hn ⟨ha n hn, ⟨trivial, hb n hn, trivial⟩, trivial⟩

theorem short_conj {e : Expr} (h : ShortAngles n₀ e) : ShortAngles n₀ (S.conj e) := fun n hn => hS n _ hn (anglesP_conj e (h n hn))

theorem short_subs : ∀ {pairs : List (Sym × Expr)} {e : Expr}, (∀ p ∈ pairs, ∀ n, n₀ ≤ n → Digits n p.2 ∧ AnglesP (Digits n) p.2) →
    ShortAngles n₀ e → ShortAngles n₀ (S.subs pairs e) := by
  intro pairs
  induction pairs with
  | nil => intro e _ h; exact h
  | cons p r ih =>
    intro e hp h
    refine ih (fun q hq => hp q (by simp [hq])) (fun n hn => hS n _ hn ?_)
    obtain ⟨h1, h2⟩ := hp p (by simp) n hn
    exact anglesP_subst h1 h2 e (h n hn)

theorem short_vectors : AllEv (ShortAngles n₀) (koutSym S) ∧ AllEv (ShortAngles n₀) (kinSym S) := by
  have hc : ShortAngles n₀ (S.cos (.sym thetaSym)) := fun n hn => hS n _ hn trivial
  have hs : ShortAngles n₀ (S.sin (.sym thetaSym)) := fun n hn => hS n _ hn trivial
  have hneg : ∀ {e}, ShortAngles n₀ e → ShortAngles n₀ (S.neg e) := fun h n hn => hS n _ hn ⟨trivial, h n hn, trivial⟩
  exact ⟨allEv_vec3 (closed_angles S hS) (hneg hs) (fun _ _ => trivial) (hneg hc),
    allEv_vec3 (closed_angles S hS) (hneg hs) (fun _ _ => trivial) hc⟩

theorem short_field {c s : Expr} (hc : ∀ n, n₀ ≤ n → Digits n c ∧ AnglesP (Digits n) c) (hs : ∀ n, n₀ ≤ n → Digits n s ∧ AnglesP (Digits n) s)
    (nfs : NpFiles) (pre : Key) {kout kin : Nd Expr}
    (hko : AllEv (ShortAngles n₀) kout) (hki : AllEv (ShortAngles n₀) kin) {t : List FTensor × List FTensor}
    (ht : uncontractedBoth S 16 kout kin = .ok t) : FilesAll (ShortAngles n₀) (saveUncontracted S nfs pre c s t) pre := by
  obtain ⟨h1, h2⟩ := allF_both (closed_angles S hS) hko hki (fun _ _ => trivial) (fun _ _ => trivial) (fun _ _ => trivial) ht
  have hint : ∀ (z : ℤ) n, n₀ ≤ n → Digits n (.num z) ∧ AnglesP (Digits n) (.num z) := fun z n _ =>
    ⟨⟨z * 10 ^ n, by push_cast; rw [mul_div_assoc, div_self (by positivity), mul_one]⟩, trivial⟩
  have h0 : ∀ n, n₀ ≤ n → Digits n (.num 0) ∧ AnglesP (Digits n) (.num 0) := by simpa using hint 0
  refine filesAll_saved h1 h2 (fun e he => short_subs S hS ?_ he) (fun e he => short_subs S hS ?_ he) nfs pre
  · intro p hp
    simp only [List.mem_cons, List.not_mem_nil, or_false] at hp
    rcases hp with rfl | rfl | rfl
    · exact hc
    · exact h0
    · exact hs
  · intro p hp
    simp only [List.mem_cons, List.not_mem_nil, or_false] at hp
    rcases hp with rfl | rfl | rfl
    · exact h0
    · first | simpa using hint 1 | simpa using hint (-1)
    · exact h0

theorem short_num {nfs nfs' : NpFiles} {aoi : ℚ} (ha : Digits n₀ (.num aoi)) {pre : Key}
    (h : generateUncontracted S nfs aoi pre 16 = .ok nfs') : FilesAll (ShortAngles n₀) nfs' pre := by
  unfold generateUncontracted at h
  dsimp only at h
  obtain ⟨t, ht, h⟩ := bind_ok h
  cases h
  have hv := short_vectors S hS
  have hsub : ∀ p ∈ [(thetaSym, Expr.num aoi)], ∀ n, n₀ ≤ n → Digits n p.2 ∧ AnglesP (Digits n) p.2 := by
    intro p hp n hn
    rw [List.mem_singleton] at hp
    rw [hp]; exact ⟨digits_num hn ha, trivial⟩
  exact short_field S hS (c := .cos (.num aoi)) (s := .sin (.num aoi)) (fun n hn => ⟨digits_num hn ha, digits_num hn ha⟩)
    (fun n hn => ⟨digits_num hn ha, digits_num hn ha⟩) nfs pre
    (fun i => short_subs S hS hsub (hv.1 i)) (fun i => short_subs S hS hsub (hv.2 i)) ht

theorem short_symb {nfs nfs' : NpFiles} {pre : Key} (hc : S.cos (.sym thetaSym) = .cos (.sym thetaSym))
    (hs : S.sin (.sym thetaSym) = .sin (.sym thetaSym)) (h : generateUncontractedSymb S nfs pre 16 = .ok nfs') :
    FilesAll (ShortAngles n₀) nfs' pre := by
  unfold generateUncontractedSymb at h
  obtain ⟨t, ht, h⟩ := bind_ok h
  cases h
  have hv := short_vectors S hS
  refine short_field S hS (fun n hn => ?_) (fun n hn => ?_) nfs pre hv.1 hv.2 ht
  · rw [hc]; exact ⟨trivial, trivial⟩
  · rw [hs]; exact ⟨trivial, trivial⟩

/-- The size of all factors of the multiplied-out formulas. -/
noncomputable def roundSizes (g : Pol → Pol → ℤ → Expr) (r : Sym → ℝ) : ℝ :=
  (fourCombos.map (fun pq => ∑ m ∈ Finset.Icc (-16 : ℤ) 16,
    (1 / 2) * ((outTerms (g pq.1 pq.2 m)).map (fun t => ‖(t.2.map (fun f => f.eval (realVal r))).prod‖)).sum)).sum

omit hS in
theorem roundSizes_le (g : Pol → Pol → ℤ → Expr) (r : Sym → ℝ) (p q : Pol) : ∑ m ∈ Finset.Icc (-16 : ℤ) 16,
    (1 / 2) * ((outTerms (g p q m)).map (fun t => ‖(t.2.map (fun f => f.eval (realVal r))).prod‖)).sum ≤ roundSizes g r := by
  have hnn : ∀ p q, 0 ≤ ∑ m ∈ Finset.Icc (-16 : ℤ) 16,
      (1 / 2) * ((outTerms (g p q m)).map (fun t => ‖(t.2.map (fun f => f.eval (realVal r))).prod‖)).sum := fun p q =>
    Finset.sum_nonneg (fun m _ => mul_nonneg (by norm_num) (List.sum_nonneg (fun x hx => by
      obtain ⟨t, -, rfl⟩ := List.mem_map.1 hx; exact norm_nonneg _)))
  have h1 := hnn .P .P
  have h2 := hnn .P .S
  have h3 := hnn .S .P
  have h4 := hnn .S .S
  unfold roundSizes
  simp only [fourCombos, List.map_cons, List.map_nil, List.sum_cons, List.sum_nil]
  cases p <;> cases q <;> linarith

omit hS in
/-- For bounded values of the symbols the sizes are bounded. -/
theorem roundSizes_bounded (g : Pol → Pol → ℤ → Expr) (B : ℝ) : ∃ K, ∀ r : Sym → ℝ, (∀ s, |r s| ≤ B) → roundSizes g r ≤ K := by
  have hprod : ∀ l : List Expr, Continuous (fun r : Sym → ℝ => (l.map (fun f => f.eval (realVal r))).prod) := by
    intro l
    induction l with
    | nil => simpa using continuous_const
    | cons e l ih =>
      simp only [List.map_cons, List.prod_cons]
      exact (continuous_eval e).mul ih
  have hsum : ∀ ts : List (ℚ × List Expr), Continuous (fun r : Sym → ℝ => (ts.map (fun t => ‖(t.2.map (fun f => f.eval (realVal r))).prod‖)).sum) := by
    intro ts
    induction ts with
    | nil => simpa using continuous_const
    | cons t ts ih =>
      simp only [List.map_cons, List.sum_cons]
      exact ((hprod t.2).norm).add ih
  have hc : Continuous (roundSizes g) := by
    unfold roundSizes
    simp only [fourCombos, List.map_cons, List.map_nil, List.sum_cons, List.sum_nil]
    have h1 : ∀ p q, Continuous (fun r : Sym → ℝ => ∑ m ∈ Finset.Icc (-16 : ℤ) 16,
        (1 / 2) * ((outTerms (g p q m)).map (fun t => ‖(t.2.map (fun f => f.eval (realVal r))).prod‖)).sum) := fun p q =>
      continuous_finsetSum _ (fun m _ => continuous_const.mul (hsum _))
    exact (h1 _ _).add ((h1 _ _).add ((h1 _ _).add ((h1 _ _).add continuous_const)))
  have hK : IsCompact (Set.univ.pi (fun _ : Sym => Set.Icc (-B) B)) := isCompact_univ_pi (fun _ => isCompact_Icc)
  obtain ⟨K, hK⟩ := hK.exists_bound_of_continuousOn hc.continuousOn
  refine ⟨K, fun r hr => (le_abs_self _).trans ?_⟩
  rw [← Real.norm_eq_abs]
  exact hK r (fun s _ => abs_le.1 (hr s))

theorem rounded_patterns {nfs : NpFiles} {pre : Key} {θ : (Sym → ℝ) → ℝ} (hs : AllStored nfs pre θ) (hf : FilesAll (ShortAngles n₀) nfs pre)
    {chiD chiQ : Nd Expr} (hv : ValidTensors (some chiD) none (some chiQ)) (hDq : AllIn (ShortAngles n₀) chiD)
    (hQq : AllIn (ShortAngles n₀) chiQ) (fs : Files) (save : Key) :
    ∀ B : ℝ, ∃ K : ℝ, ∀ n, n₀ ≤ n → ∀ D : DecRound n, ∃ fs' c,
      generateContractedRounded S multiplyOut D R fs nfs save pre chiD chiQ 16 = .ok fs' ∧ loadFform S R fs' save = .ok c ∧
      ∀ F, FormulaIs c F → ∀ r, (∀ s, |r s| ≤ B) → ∀ p q x, ‖pattern 16 (fun m => F (combo p q) m (realVal r)) x -
        (intensity (crystalOf (some chiD) none (some chiQ) (realVal r)) (θ r) (x + Real.pi) p q : ℂ)‖ ≤ K * (1 / 10) ^ n := by
  obtain ⟨g, hd, hval, hq⟩ := contracted_formulas S (closed_angles S hS) (fun e => short_conj S hS) hs hf hv hDq hQq
  intro B
  obtain ⟨K, hK⟩ := roundSizes_bounded g B
  refine ⟨K, fun n hn D => ⟨_, _, rounded_saved S R D fs save hd, fourFform_load S R fs save _, fun F hF r hr p q x => ?_⟩⟩
  have hdeg := degree_shift (intensity_degree (crystalOf (some chiD) none (some chiQ) (realVal r)) (θ r) p q) Real.pi
  have hpat := pattern_coeff (M := 16) (by norm_num) hdeg x
  rw [← hpat]
  unfold pattern
  rw [← Finset.sum_sub_distrib]
  refine (norm_sum_le _ _).trans (le_trans ?_ (mul_le_mul_of_nonneg_right ((roundSizes_le g r p q).trans (hK r hr)) (by positivity)))
  rw [Finset.sum_mul]
  refine Finset.sum_le_sum (fun m hm => ?_)
  have hm' : -16 ≤ m ∧ m ≤ 16 := by simpa using hm
  dsimp only
  rw [fourFform_component _ hF p q hm', ← hval p q r m hm', ← sub_mul, norm_mul]
  have h1 : ‖harmonic m x‖ = 1 := norm_harmonic m x
  rw [h1, mul_one]
  refine (C81_multiplied S D (hq p q m hm' n hn) _).trans (le_of_eq (by ring))

/-- **C81, patterns.**  With a numerical angle of incidence of at most `n₀` digits and tensors whose cosines and sines have arguments with
at most `n₀` digits: the pattern of each polarization combination differs from the intensity of the crystal by at most a constant
times `10⁻ⁿ`, when the formulas are rounded to `n ≥ n₀` digits.  The constant is the same for all `n` and for all values of the symbols
that are at most `B`. -/
theorem C81_patterns {fs : Files} {nfs : NpFiles} {pre save : Key} {aoi : ℚ} (ha : Digits n₀ (.num aoi)) {chiD chiQ : Nd Expr}
    (hv : ValidTensors (some chiD) none (some chiQ)) (hD : AllIn (ShortAngles n₀) chiD) (hQ : AllIn (ShortAngles n₀) chiQ) :
    ∃ nfs', generateUncontracted S nfs aoi pre 16 = .ok nfs' ∧ ∀ B : ℝ, ∃ K : ℝ, ∀ n, n₀ ≤ n → ∀ D : DecRound n, ∃ fs' c,
      generateContractedRounded S multiplyOut D R fs nfs' save pre chiD chiQ 16 = .ok fs' ∧ loadFform S R fs' save = .ok c ∧
      ∀ F, FormulaIs c F → ∀ r, (∀ s, |r s| ≤ B) → ∀ p q x, ‖pattern 16 (fun m => F (combo p q) m (realVal r)) x -
        (intensity (crystalOf (some chiD) none (some chiQ) (realVal r)) aoi (x + Real.pi) p q : ℂ)‖ ≤ K * (1 / 10) ^ n := by
  obtain ⟨nfs', g1, g2⟩ := uncontracted_num S nfs aoi pre
  exact ⟨nfs', g1, rounded_patterns S R hS g2 (short_num S hS ha g1) hv hD hQ fs save⟩

/-- **C81, patterns with a symbolic angle of incidence.**  The same, with the value of the symbol `theta` as the angle of incidence. -/
theorem C81_patterns_symb {fs : Files} {nfs : NpFiles} {pre save : Key} (hcos : S.cos (.sym thetaSym) = .cos (.sym thetaSym))
    (hsin : S.sin (.sym thetaSym) = .sin (.sym thetaSym)) {chiD chiQ : Nd Expr}
    (hv : ValidTensors (some chiD) none (some chiQ)) (hD : AllIn (ShortAngles n₀) chiD) (hQ : AllIn (ShortAngles n₀) chiQ) :
    ∃ nfs', generateUncontractedSymb S nfs pre 16 = .ok nfs' ∧ ∀ B : ℝ, ∃ K : ℝ, ∀ n, n₀ ≤ n → ∀ D : DecRound n, ∃ fs' c,
      generateContractedRounded S multiplyOut D R fs nfs' save pre chiD chiQ 16 = .ok fs' ∧ loadFform S R fs' save = .ok c ∧
      ∀ F, FormulaIs c F → ∀ r, (∀ s, |r s| ≤ B) → ∀ p q x, ‖pattern 16 (fun m => F (combo p q) m (realVal r)) x -
        (intensity (crystalOf (some chiD) none (some chiQ) (realVal r)) (r thetaSym) (x + Real.pi) p q : ℂ)‖ ≤ K * (1 / 10) ^ n := by
  obtain ⟨nfs', g1, g2⟩ := uncontracted_symb S nfs pre
  exact ⟨nfs', g1, rounded_patterns S R hS g2 (short_symb S hS hcos hsin g1) hv hD hQ fs save⟩

end

/-! ### The hypotheses can be met -/

theorem plain_keeps (n₀ : ℕ) : KeepsAngles Sympy.plain n₀ := fun _ _ _ h => h

example : ∃ nfs' fs' c, generateUncontracted Sympy.plain (fun _ => none) (1 / 2) ['f'] 16 = .ok nfs' ∧
    generateContracted Sympy.plain exRepr (fun _ => none) nfs' ['s'] ['f'] sampleTensor sampleQuadrupole 16 = .ok fs' ∧
    loadFform Sympy.plain exRepr fs' ['s'] = .ok c ∧
    ∃ l, c.getFreeSymbols Sympy.plain = .ok l ∧ ∀ s ∈ l, OccursIn sampleTensor s ∨ OccursIn sampleQuadrupole s := by
  obtain ⟨nfs', g1, g2⟩ := uncontracted_num Sympy.plain (fun _ => none) (1 / 2) ['f']
  obtain ⟨g, hd, -⟩ := contracted_ok Sympy.plain g2 (sample_valid'.eee3 _ rfl) (sample_valid'.qee4 _ rfl)
    (fun s hs => hs.elim (sample_valid'.real _ (Or.inl rfl) s) (sample_valid'.real _ (Or.inr (Or.inr rfl)) s))
  have h2 : generateContracted Sympy.plain exRepr (fun _ => none) nfs' ['s'] ['f'] sampleTensor sampleQuadrupole 16 =
      .ok (saveFform exRepr (fun _ => none) (fourFform g) ['s']) := by
    unfold generateContracted
    rw [hd, ok_bind]
    rfl
  have h3 := fourFform_load Sympy.plain exRepr (fun _ => none) ['s'] g
  exact ⟨nfs', _, _, g1, h2, h3, C116_symbols Sympy.plain exRepr sample_valid' g1 h2 h3⟩

example : ∃ nfs', generateUncontracted Sympy.plain (fun _ => none) (1 / 2) ['f'] 16 = .ok nfs' ∧ ∀ B : ℝ, ∃ K : ℝ,
    ∀ n, 1 ≤ n → ∀ D : DecRound n, ∃ fs' c,
      generateContractedRounded Sympy.plain multiplyOut D exRepr (fun _ => none) nfs' ['s'] ['f'] sampleTensor sampleQuadrupole 16 = .ok fs' ∧
      loadFform Sympy.plain exRepr fs' ['s'] = .ok c ∧
      ∀ F, FormulaIs c F → ∀ r, (∀ s, |r s| ≤ B) → ∀ p q x, ‖pattern 16 (fun m => F (combo p q) m (realVal r)) x -
        (intensity (crystalOf (some sampleTensor) none (some sampleQuadrupole) (realVal r)) ((1 / 2 : ℚ) : ℝ) (x + Real.pi) p q : ℂ)‖ ≤
        K * (1 / 10) ^ n := by
  refine C81_patterns Sympy.plain exRepr (plain_keeps 1) ⟨5, by norm_num⟩ sample_valid' ?_ ?_
  · intro idx _ n _
    simp only [sampleTensor]
    split_ifs <;> trivial
  · intro idx _ n _
    simp only [sampleQuadrupole]
    split_ifs <;> trivial

end Shgpy
