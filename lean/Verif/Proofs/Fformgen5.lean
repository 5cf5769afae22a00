import Verif.Proofs.Fformgen4
import Verif.Proofs.FormToFform
import Verif.Proofs.Integral
import Verif.Props.SaveFform

/-!
# Lemmas: the two stages of `fformgen`
-/

namespace Shgpy
open Spec
open scoped ComplexConjugate

set_option linter.unusedSectionVars false
set_option linter.unusedSimpArgs false

variable (S : Sympy)

/-- The array holds the uncontracted terms for the angle of incidence `θ` and the polarizations `p`, `q`. -/
def Stored (l : List FTensor) (θ : (Sym → ℝ) → ℝ) (p q : Pol) : Prop :=
  ∃ G F κ, TermsOf l G F κ ∧ ∀ r : Sym → ℝ,
    (∀ i a : Fin 3, G (realVal r) i a =
      if seen q i then (if i = a then 1 else 0) - flipV (kOut (θ r)) i * flipV (kOut (θ r)) a else 0) ∧
    (∀ a : Fin 3, F (realVal r) a = flipV (fieldIn (θ r) p) a) ∧ ∀ a : Fin 3, κ (realVal r) a = flipV (kIn (θ r)) a

theorem stored_contract {l : List FTensor} {θ : (Sym → ℝ) → ℝ} {p q : Pol} (h : Stored l θ p q) {chiD chiQ : Nd Expr}
    (hD : chiD.shape = [3, 3, 3]) (hQ : chiQ.shape = [3, 3, 3, 3]) :
    ∃ g : ℤ → Expr, contractAll S 16 l chiD chiQ = .ok ((freqs 16).map g) ∧
      ∀ (r : Sym → ℝ) (n : ℤ), -16 ≤ n ∧ n ≤ 16 → (g n).eval (realVal r) =
        integralCoeff (fun x => (intensity ⟨value3 chiD (realVal r), 0, value4 chiQ (realVal r)⟩ (θ r) (x + Real.pi) p q : ℂ)) n := by
  obtain ⟨G, F, κ, ht, hr⟩ := h
  obtain ⟨g, hg, _, hv⟩ := contractAll_ok S G F κ ht hD hQ
  refine ⟨g, hg, fun r n hn => ?_⟩
  obtain ⟨h1, h2, h3⟩ := hr r
  simp only [← totalF_eq S h1 h2 h3, ← hv]
  have := integralCoeff_sum (Finset.Icc (-16 : ℤ) 16) (fun n => (g n).eval (realVal r)) (fun n => n) n
  unfold harmonic
  rw [this, Finset.sum_ite_eq', if_pos (Finset.mem_Icc.2 hn)]

/-- The valuations agree except on the symbols of the field. -/
def AgreeOff (σ τ : Valuation) : Prop := ∀ s, s ≠ FxSym → s ≠ FySym → s ≠ FzSym → σ s = τ s

/-- The symbols of the geometry have the values for the angle of incidence `θ`. -/
structure Geometry (kout kin : Nd Expr) (c s : Expr) (θ : (Sym → ℝ) → ℝ) : Prop where
  koutShape : kout.shape = [3]
  kinShape : kin.shape = [3]
  kout : ∀ r σ, AgreeOff σ (realVal r) → ∀ i : Fin 3, (kout.get [i.val]).eval σ = flipV (kOut (θ r)) i
  kin : ∀ r σ, AgreeOff σ (realVal r) → ∀ i : Fin 3, (kin.get [i.val]).eval σ = flipV (kIn (θ r)) i
  cos : ∀ r σ, AgreeOff σ (realVal r) → c.eval σ = Real.cos (θ r)
  sin : ∀ r σ, AgreeOff σ (realVal r) → s.eval σ = Real.sin (θ r)

theorem agreeOff_subst (fx fy fz : Expr) (σ : Valuation) :
    AgreeOff (substVal [(FxSym, fx), (FySym, fy), (FzSym, fz)] σ) σ := by
  intro s h1 h2 h3
  simp [substVal, assign, h1, h2, h3]

theorem stored_of {l : List FTensor} {kout kin : Nd Expr} {c s : Expr} {θ : (Sym → ℝ) → ℝ}
    (hg : Geometry kout kin c s θ) {G : Nd Expr → Valuation → ℕ → ℕ → ℂ} {p q : Pol}
    (hG : ∀ σ (i a : Fin 3), G kout σ i a = if seen q i then rowF kout i σ a else 0)
    (h : TermsOf l (G kout) (vecF fieldSymbols) (vecF kin)) {fx fy fz : Expr}
    (hf : ∀ r σ, AgreeOff σ (realVal r) →
      ![fx.eval σ, fy.eval σ, fz.eval σ] = flipV (fieldIn (θ r) p)) :
    Stored (substTerms S fx fy fz l) θ p q := by
  refine ⟨_, _, _, termsOf_subst S h fx fy fz, fun r => ⟨fun i a => ?_, fun a => ?_, fun a => ?_⟩⟩
  · have ha := agreeOff_subst fx fy fz (realVal r)
    rw [hG]
    unfold rowF
    rw [hg.kout r _ ha i, hg.kout r _ ha a]
    congr 2
    simp only [Fin.ext_iff]
  · have h0 : AgreeOff (realVal r) (realVal r) := fun _ _ _ _ => rfl
    have h1 : AgreeOff (assign (realVal r) FzSym (fz.eval (realVal r))) (realVal r) := by
      intro s _ _ h3
      simp [assign, h3]
    have h2 : AgreeOff (assign (assign (realVal r) FzSym (fz.eval (realVal r))) FySym
        (fy.eval (assign (realVal r) FzSym (fz.eval (realVal r))))) (realVal r) := by
      intro s _ h2 h3
      simp [assign, h2, h3]
    have e0 := congrFun (hf r _ h2) 0
    have e1 := congrFun (hf r _ h1) 1
    have e2 := congrFun (hf r _ h0) 2
    fin_cases a
    · exact e0
    · exact e1
    · exact e2
  · exact hg.kin r _ (agreeOff_subst fx fy fz (realVal r)) a

theorem Gp_eq (kout : Nd Expr) (σ : Valuation) (i a : Fin 3) : Gp kout σ i a = if seen .P i then rowF kout i σ a else 0 := by
  fin_cases i <;> simp [Gp, seen]

theorem Gs_eq (kout : Nd Expr) (σ : Valuation) (i a : Fin 3) : Gs kout σ i a = if seen .S i then rowF kout i σ a else 0 := by
  fin_cases i <;> simp [Gs, seen]

/-- The letter of a polarization in the names of the files. -/
def Spec.Pol.lower : Pol → Char
  | .P => 'p'
  | .S => 's'

/-- The name of the file of uncontracted terms. -/
def termsFile (pre : Key) (p q : Pol) : Key := pre ++ ['_'] ++ [p.lower, q.lower] ++ ['.', 'n', 'p', 'y']

/-- The four files of uncontracted terms are there. -/
def AllStored (nfs : NpFiles) (pre : Key) (θ : (Sym → ℝ) → ℝ) : Prop :=
  ∀ p q, ∃ l, nfs (termsFile pre p q) = some l ∧ Stored l θ p q

theorem saved {kout kin : Nd Expr} {c s : Expr} {θ : (Sym → ℝ) → ℝ} (hg : Geometry kout kin c s θ) (nfs : NpFiles)
    (pre : Key) : ∃ t, uncontractedBoth S 16 kout kin = .ok t ∧ AllStored (saveUncontracted S nfs pre c s t) pre θ := by
  obtain ⟨lp, ls, h, hp, hs⟩ := both_ok S hg.koutShape hg.kinShape
  have fP : ∀ r σ, AgreeOff σ (realVal r) → ![c.eval σ, (Expr.num 0).eval σ, s.eval σ] = flipV (fieldIn (θ r) .P) := by
    intro r σ ha
    rw [hg.cos r σ ha, hg.sin r σ ha]
    simp [flipV, fieldIn, Expr.eval]
  have fS : ∀ r σ, AgreeOff σ (realVal r) → ![(Expr.num 0).eval σ, (Expr.num (-1)).eval σ, (Expr.num 0).eval σ] =
      flipV (fieldIn (θ r) .S) := by
    intro r σ ha
    simp [flipV, fieldIn, Expr.eval]
  refine ⟨_, h, ?_⟩
  have e : ∀ p q p' q', termsFile pre p q = (pre ++ ['_', Pol.lower p', Pol.lower q']) ++ ['.', 'n', 'p', 'y'] ↔
      p = p' ∧ q = q' := by
    intro p q p' q'
    unfold termsFile
    simp only [List.append_assoc, List.append_cancel_left_eq]
    cases p <;> cases q <;> cases p' <;> cases q' <;> simp [Spec.Pol.lower]
  have e1 := fun p q => e p q .P .P
  have e2 := fun p q => e p q .P .S
  have e3 := fun p q => e p q .S .P
  have e4 := fun p q => e p q .S .S
  simp only [Spec.Pol.lower] at e1 e2 e3 e4
  intro p q
  simp only [saveUncontracted, npSave, e1, e2, e3, e4]
  cases p <;> cases q
  · exact ⟨_, by simp, stored_of S hg (Gp_eq kout) hp fP⟩
  · exact ⟨_, by simp, stored_of S hg (Gs_eq kout) hs fP⟩
  · exact ⟨_, by simp, stored_of S hg (Gp_eq kout) hp fS⟩
  · exact ⟨_, by simp, stored_of S hg (Gs_eq kout) hs fS⟩

theorem geometry_symb : Geometry (koutSym S) (kinSym S) (S.cos (.sym thetaSym)) (S.sin (.sym thetaSym)) (fun r => r thetaSym) := by
  have ht : ∀ (r : Sym → ℝ) (σ : Valuation), AgreeOff σ (realVal r) → σ thetaSym = (r thetaSym : ℂ) := by
    intro r σ h
    exact h thetaSym (by decide) (by decide) (by decide)
  refine ⟨rfl, rfl, fun r σ h i => ?_, fun r σ h i => ?_, fun r σ h => ?_, fun r σ h => ?_⟩
  · fin_cases i <;> simp [koutSym, vec3, flipV, kOut, eval_neg, S.eval_sin, S.eval_cos, Expr.eval, ht r σ h]
  · fin_cases i <;> simp [kinSym, vec3, flipV, kIn, eval_neg, S.eval_sin, S.eval_cos, Expr.eval, ht r σ h]
  · simp [S.eval_cos, Expr.eval, ht r σ h]
  · simp [S.eval_sin, Expr.eval, ht r σ h]

theorem geometry_num (aoi : ℚ) : Geometry (substituteIntoArray S [(thetaSym, .num aoi)] (koutSym S))
    (substituteIntoArray S [(thetaSym, .num aoi)] (kinSym S)) (.cos (.num aoi)) (.sin (.num aoi)) (fun _ => (aoi : ℝ)) := by
  have ht : ∀ σ : Valuation, substVal [(thetaSym, .num aoi)] σ thetaSym = ((aoi : ℝ) : ℂ) := by
    intro σ
    simp [substVal, assign, Expr.eval]
  refine ⟨rfl, rfl, fun r σ h i => ?_, fun r σ h i => ?_, fun r σ h => ?_, fun r σ h => ?_⟩
  · show (S.subs _ _).eval σ = _
    rw [eval_subs']
    fin_cases i <;> simp [koutSym, vec3, flipV, kOut, eval_neg, S.eval_sin, S.eval_cos, Expr.eval, ht σ]
  · show (S.subs _ _).eval σ = _
    rw [eval_subs']
    fin_cases i <;> simp [kinSym, vec3, flipV, kIn, eval_neg, S.eval_sin, S.eval_cos, Expr.eval, ht σ]
  · simp [Expr.eval]
  · simp [Expr.eval]

theorem uncontracted_num (nfs : NpFiles) (aoi : ℚ) (pre : Key) :
    ∃ nfs', generateUncontracted S nfs aoi pre 16 = .ok nfs' ∧ AllStored nfs' pre (fun _ => (aoi : ℝ)) := by
  obtain ⟨t, h1, h2⟩ := saved S (geometry_num S aoi) nfs pre
  refine ⟨_, ?_, h2⟩
  unfold generateUncontracted
  dsimp only
  rw [h1, ok_bind]
  rfl

theorem uncontracted_symb (nfs : NpFiles) (pre : Key) :
    ∃ nfs', generateUncontractedSymb S nfs pre 16 = .ok nfs' ∧ AllStored nfs' pre (fun r => r thetaSym) := by
  obtain ⟨t, h1, h2⟩ := saved S (geometry_symb S) nfs pre
  refine ⟨_, ?_, h2⟩
  unfold generateUncontractedSymb
  rw [h1, ok_bind]
  rfl

/-- The four combinations in the order of the program. -/
def fourCombos : List (Pol × Pol) := [(.P, .P), (.P, .S), (.S, .P), (.S, .S)]

theorem contracted_ok {nfs : NpFiles} {pre : Key} {θ : (Sym → ℝ) → ℝ} (hs : AllStored nfs pre θ) {chiD chiQ : Nd Expr}
    (hD : IsTensor 3 3 chiD) (hQ : IsTensor 3 4 chiQ) (hr : ∀ s, OccursIn chiD s ∨ OccursIn chiQ s → s.isReal = some true) :
    ∃ g : Pol → Pol → ℤ → Expr,
      contractedFform S nfs pre chiD chiQ 16 = .ok (fourCombos.map (fun pq => (combo pq.1 pq.2, (freqs 16).map (g pq.1 pq.2)))) ∧
      ∀ p q (r : Sym → ℝ) (n : ℤ), -16 ≤ n ∧ n ≤ 16 → (g p q n).eval (realVal r) =
        integralCoeff (fun x => (intensity (crystalOf (some chiD) none (some chiQ) (realVal r)) (θ r) (x + Real.pi) p q : ℂ)) n := by
  choose l hl1 hl2 using hs
  have hc := fun p q => stored_contract S (hl2 p q) hD hQ
  choose g hg1 hg2 using hc
  refine ⟨g, ?_, hg2⟩
  unfold contractedFform
  rw [assertRealParams_ok (fun s h => hr s (.inl h)), ok_bind, assertRealParams_ok (fun s h => hr s (.inr h)), ok_bind]
  have hload : lowerPc.mapM (fun pc => do
      let a ← npLoad nfs pre pc.2
      return (pc.1, a)) = .ok (fourCombos.map (fun pq => (combo pq.1 pq.2, l pq.1 pq.2))) := by
    have h : ∀ p q, npLoad nfs pre [p.lower, q.lower] = .ok (l p q) := by
      intro p q
      unfold npLoad
      rw [show pre ++ ['_'] ++ [p.lower, q.lower] ++ ['.', 'n', 'p', 'y'] = termsFile pre p q from rfl, hl1]
    show ((npLoad nfs pre [Pol.lower .P, Pol.lower .P] >>= _) >>= fun _ => (npLoad nfs pre [Pol.lower .P, Pol.lower .S] >>= _) >>=
      fun _ => (npLoad nfs pre [Pol.lower .S, Pol.lower .P] >>= _) >>= fun _ =>
      (npLoad nfs pre [Pol.lower .S, Pol.lower .S] >>= _) >>= _) = _
    rw [h, h, h, h]
    rfl
  rw [hload, ok_bind]
  show ((contractAll S 16 (l .P .P) chiD chiQ >>= _) >>= fun _ => (contractAll S 16 (l .P .S) chiD chiQ >>= _) >>=
      fun _ => (contractAll S 16 (l .S .P) chiD chiQ >>= _) >>= fun _ => (contractAll S 16 (l .S .S) chiD chiQ >>= _) >>= _) = _
  rw [hg1, hg1, hg1, hg1]
  rfl

theorem generated_load (R : Repr) (fs : Files) {nfs : NpFiles} {pre save : Key} {θ : (Sym → ℝ) → ℝ} (hs : AllStored nfs pre θ)
    {chiD chiQ : Nd Expr} (hD : IsTensor 3 3 chiD) (hQ : IsTensor 3 4 chiQ)
    (hr : ∀ s, OccursIn chiD s ∨ OccursIn chiQ s → s.isReal = some true) :
    ∃ fs' c, generateContracted S R fs nfs save pre chiD chiQ 16 = .ok fs' ∧ (∀ n, n ≠ save → fs' n = fs n) ∧
      loadFform S R fs' save = .ok c ∧ c.getKeys = [combo .P .P, combo .P .S, combo .S .P, combo .S .S] ∧ c.getM = 16 ∧
      ∀ p q m, -16 ≤ m ∧ m ≤ 16 → RealComponent c (combo p q) m (fun r => integralCoeff (fun x =>
        (intensity (crystalOf (some chiD) none (some chiQ) (realVal r)) (θ r) (x + Real.pi) p q : ℂ)) m) := by
  obtain ⟨g, hg, hv⟩ := contracted_ok S hs hD hQ hr
  let c : FFormContainer := ⟨fourCombos.map (fun pq => (combo pq.1 pq.2, .obj ((freqs 16).map (g pq.1 pq.2)))), 16⟩
  have hgood : c.Good := by
    refine ⟨by show List.Nodup [combo .P .P, combo .P .S, combo .S .P, combo .S .S]; decide, ?_⟩
    intro it hit
    obtain ⟨pq, _, rfl⟩ := List.mem_map.1 hit
    simp [length_freqs, c]
  have hn : ∀ it ∈ c.fform, it.2.isNative = false := by
    intro it hit
    obtain ⟨pq, _, rfl⟩ := List.mem_map.1 hit
    rfl
  refine ⟨saveFform R fs c save, c, ?_, ?_, ?_, rfl, rfl, ?_⟩
  · unfold generateContracted
    rw [hg, ok_bind]
    unfold saveFform
    rfl
  · intro n h
    unfold saveFform
    simp [h]
  · have hF : ∀ it ∈ c.fform, ∀ o ∈ it.2.objs, R.parse (R.srepr o) =
        .ok ((fun o => match o with | .sy e => e | .native _ _ => .num 0 : PyObj → Expr) o) := by
      intro it hit o ho
      obtain ⟨pq, _, rfl⟩ := List.mem_map.1 hit
      simp only [FArr.objs_obj, List.mem_map] at ho
      obtain ⟨e, _, rfl⟩ := ho
      exact R.round_trip e
    rw [load_save_eq S R fs save hF]
    have := FFormContainer.init_16 S hgood hn (Or.inl rfl)
    rw [← this]
    simp [FFormContainer.toIterable, c, Dict.mapVals, fourCombos, Function.comp_def, FArr.toRaw]
  · intro p q m hm
    refine ⟨.obj ((freqs 16).map (g p q)), .sy (g p q m), ?_, ?_, fun r => hv p q r m hm⟩
    · cases p <;> cases q <;> rfl
    · exact component_map PyObj.sy (component_freqs_map (g p q) hm)

end Shgpy
