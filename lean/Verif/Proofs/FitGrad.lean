import Verif.Proofs.Fit
import Mathlib.Analysis.SpecialFunctions.Trigonometric.Deriv
import Mathlib.Analysis.Complex.RealDeriv
import Mathlib.Analysis.Calculus.Deriv.Pow

/-!
# Lemmas: the gradient of the cost
-/

set_option linter.unusedSectionVars false
set_option linter.unusedSimpArgs false

namespace Shgpy
open Spec

theorem update_self' (σ : Valuation) (s : Sym) : Function.update σ s (σ s) = σ := Function.update_eq_self s σ

theorem hasDerivAt_sum (s : Sym) (σ : Valuation) : ∀ (l : List Expr)
    (_ : ∀ e ∈ l, HasDerivAt (fun z => e.eval (Function.update σ s z)) ((e.diff s).eval σ) (σ s)),
    HasDerivAt (fun z => Expr.evalSum (Function.update σ s z) l) (Expr.evalSum σ (Expr.diffSum s l)) (σ s)
  | [], _ => by simpa [Expr.evalSum, Expr.diffSum] using hasDerivAt_const (σ s) (0 : ℂ)
  | e :: r, h => by
      have := (h e (by simp)).fun_add (hasDerivAt_sum s σ r (fun e he => h e (by simp [he])))
      simpa [Expr.evalSum, Expr.diffSum] using this

theorem hasDerivAt_prod (s : Sym) (σ : Valuation) : ∀ (l : List Expr)
    (_ : ∀ e ∈ l, HasDerivAt (fun z => e.eval (Function.update σ s z)) ((e.diff s).eval σ) (σ s)),
    HasDerivAt (fun z => Expr.evalProd (Function.update σ s z) l) ((Expr.diffProd s l).eval σ) (σ s)
  | [], _ => by simpa [Expr.evalProd, Expr.diffProd, Expr.eval] using hasDerivAt_const (σ s) (1 : ℂ)
  | e :: r, h => by
      have := (h e (by simp)).fun_mul (hasDerivAt_prod s σ r (fun e he => h e (by simp [he])))
      simp only [update_self'] at this
      simpa [Expr.evalProd, Expr.evalSum, Expr.diffProd, Expr.eval] using this

/-- The derivative of the value is the value of the derivative. -/
theorem hasDerivAt_eval (s : Sym) (σ : Valuation) (e : Expr) :
    HasDerivAt (fun z => e.eval (Function.update σ s z)) ((e.diff s).eval σ) (σ s) := by
  induction e using Expr.ind with
  | num q => simpa [Expr.eval, Expr.diff] using hasDerivAt_const (σ s) (q : ℂ)
  | hI => simpa [Expr.eval, Expr.diff] using hasDerivAt_const (σ s) Complex.I
  | sym t =>
    by_cases h : t = s
    · subst h
      simpa [Expr.eval, Expr.diff] using hasDerivAt_id' (σ t)
    · simpa [Expr.eval, Expr.diff, h, Function.update_of_ne h] using hasDerivAt_const (σ s) (σ t)
  | add l ih => exact hasDerivAt_sum s σ l ih
  | mul l ih => exact hasDerivAt_prod s σ l ih
  | pow b n ih =>
    have := ih.fun_pow n
    simp only [update_self'] at this
    simp only [Expr.eval, Expr.diff, Expr.evalProd]
    refine this.congr_deriv ?_
    push_cast
    ring
  | cos e ih =>
    have := ih.ccos
    simp only [update_self'] at this
    simp only [Expr.eval, Expr.diff, Expr.evalProd]
    refine this.congr_deriv ?_
    push_cast
    ring
  | sin e ih =>
    have := ih.csin
    simp only [update_self'] at this
    simp only [Expr.eval, Expr.diff, Expr.evalProd]
    refine this.congr_deriv ?_
    ring

theorem free_diff (s : Sym) (e : Expr) : ∀ t ∈ (e.diff s).free, t ∈ e.free := by
  have hprod : ∀ (l : List Expr), (∀ e ∈ l, ∀ t ∈ (e.diff s).free, t ∈ e.free) →
      ∀ t ∈ (Expr.diffProd s l).free, t ∈ Expr.freeL l := by
    intro l
    induction l with
    | nil => intro _ t ht; simp [Expr.diffProd, Expr.free] at ht
    | cons e r ih =>
      intro h t ht
      simp only [Expr.diffProd, Expr.free, Expr.freeL, List.append_nil, List.mem_append] at ht ⊢
      rcases ht with (ht | ht) | (ht | ht)
      · exact Or.inl (h e (by simp) t ht)
      · exact Or.inr ht
      · exact Or.inl ht
      · exact Or.inr (ih (fun e he => h e (by simp [he])) t ht)
  have hsum : ∀ (l : List Expr), (∀ e ∈ l, ∀ t ∈ (e.diff s).free, t ∈ e.free) →
      ∀ t ∈ Expr.freeL (Expr.diffSum s l), t ∈ Expr.freeL l := by
    intro l
    induction l with
    | nil => intro _ t ht; simp [Expr.diffSum, Expr.freeL] at ht
    | cons e r ih =>
      intro h t ht
      simp only [Expr.diffSum, Expr.freeL, List.mem_append] at ht ⊢
      rcases ht with ht | ht
      · exact Or.inl (h e (by simp) t ht)
      · exact Or.inr (ih (fun e he => h e (by simp [he])) t ht)
  induction e using Expr.ind with
  | num q => intro t ht; simp [Expr.diff, Expr.free] at ht
  | hI => intro t ht; simp [Expr.diff, Expr.free] at ht
  | sym u =>
    intro t ht
    unfold Expr.diff at ht
    split at ht <;> simp [Expr.free] at ht
  | add l ih => exact hsum l ih
  | mul l ih => exact hprod l ih
  | pow b n ih =>
    intro t ht
    simp only [Expr.diff, Expr.free, Expr.freeL, List.append_nil, List.nil_append, List.mem_append] at ht ⊢
    exact ht.elim id (ih t)
  | cos e ih =>
    intro t ht
    simp only [Expr.diff, Expr.free, Expr.freeL, List.append_nil, List.nil_append, List.mem_append] at ht ⊢
    exact ht.elim id (ih t)
  | sin e ih =>
    intro t ht
    simp only [Expr.diff, Expr.free, Expr.freeL, List.append_nil, List.nil_append, List.mem_append] at ht ⊢
    exact ht.elim id (ih t)

/-- Changing the value of one parameter is changing one element of `xs`. -/
theorem xsVal_update {l : List Sym} (hl : l.Nodup) (r : Sym → ℝ) {i : ℕ} {s : Sym} (hi : l[i]? = some s) (t : ℝ) {j : ℕ}
    (hj : j < l.length) :
    xsVal (l.map (Function.update r s t)) (xsElem j) = Function.update (xsVal (l.map r)) (xsElem i) (t : ℂ) (xsElem j) := by
  obtain ⟨hi', his⟩ := List.getElem?_eq_some_iff.1 hi
  rw [xsVal_elem, List.getD_eq_getElem?_getD, List.getElem?_map, List.getElem?_eq_getElem hj]
  simp only [Option.map_some, Option.getD_some]
  by_cases hij : j = i
  · subst hij
    rw [his, Function.update_self, Function.update_self]
  · have h1 : l[j] ≠ s := by
      intro h
      rw [← his] at h
      exact hij ((List.Nodup.getElem_inj_iff hl).1 h)
    have h2 : xsElem j ≠ xsElem i := fun h => hij (xsElem_inj h)
    rw [Function.update_of_ne h1, Function.update_of_ne h2, xsVal_elem, List.getD_eq_getElem?_getD, List.getElem?_map,
      List.getElem?_eq_getElem hj]
    rfl

theorem CostExpr.hasDerivAt {l : List Sym} (hl : l.Nodup) {g : (Sym → ℝ) → ℝ} {e : Expr} (h : CostExpr l g e) (S : Sympy)
    (C : Compiler) (r : Sym → ℝ) {i : ℕ} {s : Sym} (hi : l[i]? = some s) :
    HasDerivAt (fun t => g (Function.update r s t)) (C.run (S.norm (e.diff (xsElem i))) (l.map r)) (r s) := by
  have hfree : ∀ u ∈ (S.norm (e.diff (xsElem i))).free, ∃ j, j < (l.map r).length ∧ u = xsElem j := by
    intro u hu
    obtain ⟨j, hj, rfl⟩ := h.free u (free_diff _ _ _ (S.free_norm _ _ hu))
    exact ⟨j, by simpa using hj, rfl⟩
  rw [C.spec _ _ hfree, S.eval_norm]
  have h1 := hasDerivAt_eval (xsElem i) (xsVal (l.map r)) e
  have hrs : xsVal (l.map r) (xsElem i) = ((r s : ℝ) : ℂ) := by
    rw [xsVal_elem, List.getD_eq_getElem?_getD, List.getElem?_map, hi]
    rfl
  rw [hrs] at h1
  have h2 := h1.real_of_complex
  have h3 : (fun t : ℝ => g (Function.update r s t)) =
      fun t : ℝ => (e.eval (Function.update (xsVal (l.map r)) (xsElem i) (t : ℂ))).re := by
    funext t
    have : e.eval (Function.update (xsVal (l.map r)) (xsElem i) (t : ℂ)) = e.eval (xsVal (l.map (Function.update r s t))) := by
      refine Expr.eval_congr e (fun u hu => ?_)
      obtain ⟨j, hj, rfl⟩ := h.free u hu
      exact (xsVal_update hl r hi t hj).symm
    rw [this, h.eval, Complex.ofReal_re]
  rw [h3]
  exact h2

theorem denergyFuncs_fst (C : Compiler) (save : Option Key) : ∀ (es : List Expr) (i : ℕ) (d : Disk),
    (denergyFuncs C save es i d).1 = es.map C.run
  | [], _, _ => rfl
  | e :: r, i, d => by
      unfold denergyFuncs
      simp only [fixedAutowrap, denergyFuncs_fst C save r, List.map_cons]

/-- A cost that depends on the parameters mentions one. -/
theorem CostExpr.free_ne_nil {l : List Sym} {g : (Sym → ℝ) → ℝ} {e : Expr} (h : CostExpr l g e) {r r' : Sym → ℝ}
    (hne : g r ≠ g r') : e.free ≠ [] := by
  intro hnil
  apply hne
  have h1 : e.eval (xsVal (l.map r)) = e.eval (xsVal (l.map r')) := Expr.eval_congr e (fun s hs => by rw [hnil] at hs; cases hs)
  rw [h.eval, h.eval] at h1
  exact Complex.ofReal_injective h1

theorem energyAndDenergy_ok (S : Sympy) (C : Compiler) (d : Disk) {fform : FFormContainer} (hc : fform.Good)
    {fdat : FDataContainer} {l : List Sym} (hl : Lists fform l)
    (hM : fdat.getM = fform.getM) {F : Key → ℤ → Valuation → ℂ} {D : Key → ℤ → ℂ} (hF : FormulaIs fform F)
    (hD : DataIs fform fdat D) {r₁ r₂ : Sym → ℝ}
    (hne : misfit fform.getKeys fform.getM F D r₁ ≠ misfit fform.getKeys fform.getM F D r₂) (save gradSave : Option Key) :
    ∃ e, CostExpr l (misfit fform.getKeys fform.getM F D) e ∧
      energyAndDenergy S C d fform fdat l false save gradSave =
        .ok (fun x => (C.run e x, (List.range l.length).map (fun i => C.run (S.norm (e.diff (xsElem i))) x)),
          (denergyFuncs C gradSave ((List.range l.length).map (fun i => S.norm (e.diff (xsElem i)))) 0
            (d.save (C.run e) save)).2) := by
  obtain ⟨e, h1, h2⟩ := energyExpr_ok S hc (arguments := some l) (Or.inl ⟨rfl, hl⟩) hF (reads_of_dataIs hD hM)
  refine ⟨e, h2, ?_⟩
  have h4 : denergyExpr S l.length e = .ok ((List.range l.length).map (fun i => S.norm (e.diff (xsElem i)))) := by
    unfold denergyExpr
    rw [if_neg (h2.free_ne_nil hne)]
  unfold energyAndDenergy
  simp only [Bool.false_eq_true, if_false]
  rw [h1]
  show (denergyExpr S l.length e >>= _) = _
  rw [h4]
  show Except.ok _ = _
  simp only [fixedAutowrap, denergyFuncs_fst, List.map_map]
  rfl

end Shgpy
