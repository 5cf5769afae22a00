import Verif.Proofs.CPrint
import Verif.Proofs.FitModel
import Verif.Proofs.FormToDat
import Verif.Props.BestFit

/-!
# C112: what the generated C code computes
-/

namespace Shgpy
open Spec

/-! ## Powers of real quantities -/

theorem realPowersL_iff {l : List Expr} : RealPowersL l ↔ ∀ e ∈ l, RealPowers e := by
  induction l with
  | nil => simp [RealPowersL]
  | cons e l ih => simp [RealPowersL, ih]

theorem xsVal_real (x : List ℝ) : ∃ r : Sym → ℝ, xsVal x = realVal r := by
  refine ⟨fun s => if s.name = ['x', 's'] then x.getD (s.tag - 2) 0 else 0, funext fun s => ?_⟩
  simp only [xsVal, realVal]
  split <;> simp

theorem cEval_eq {e : Expr} (h : RealPowers e) (x : List ℝ) : cEval x e = e.eval (xsVal x) := by
  obtain ⟨r, hr⟩ := xsVal_real x
  have hre : ∀ {z : ℂ}, z.im = 0 → ((z.re : ℝ) : ℂ) = z := fun hz => Complex.ext rfl (by simp [hz])
  induction e using Expr.ind with
  | num q => simp [cEval, Expr.eval]
  | hI => simp [cEval, Expr.eval]
  | sym s => simp [cEval, Expr.eval]
  | add l ih =>
    rw [RealPowers, realPowersL_iff] at h
    simp only [cEval, Expr.eval]
    induction l with
    | nil => simp [cEvalSum, Expr.evalSum]
    | cons e l ih' =>
      rw [cEvalSum, Expr.evalSum, ih e List.mem_cons_self (h e List.mem_cons_self),
        ih' (fun e he => ih e (List.mem_cons_of_mem _ he)) (fun e he => h e (List.mem_cons_of_mem _ he))]
  | mul l ih =>
    rw [RealPowers, realPowersL_iff] at h
    simp only [cEval, Expr.eval]
    induction l with
    | nil => simp [cEvalProd, Expr.evalProd]
    | cons e l ih' =>
      rw [cEvalProd, Expr.evalProd, ih e List.mem_cons_self (h e List.mem_cons_self),
        ih' (fun e he => ih e (List.mem_cons_of_mem _ he)) (fun e he => h e (List.mem_cons_of_mem _ he))]
  | pow b n ih =>
    rw [RealPowers] at h
    simp only [cEval, Expr.eval]
    rw [ih h.1, Complex.ofReal_pow, hre (by rw [hr]; exact h.2 r)]
  | cos e ih =>
    rw [RealPowers] at h
    simp only [cEval, Expr.eval]
    rw [ih h.1, Complex.ofReal_cos, hre (by rw [hr]; exact h.2 r)]
  | sin e ih =>
    rw [RealPowers] at h
    simp only [cEval, Expr.eval]
    rw [ih h.1, Complex.ofReal_sin, hre (by rw [hr]; exact h.2 r)]

theorem realPowers_conj {e : Expr} (h : RealPowers e) : RealPowers e.conj := by
  induction e using Expr.ind with
  | num q => simp [Expr.conj, RealPowers]
  | hI => simp [Expr.conj, RealPowers, RealPowersL]
  | sym s => simp [Expr.conj, RealPowers]
  | add l ih =>
    rw [RealPowers, realPowersL_iff] at h
    simp only [Expr.conj, RealPowers, realPowersL_iff, conjL_eq, List.forall_mem_map]
    exact fun e he => ih e he (h e he)
  | mul l ih =>
    rw [RealPowers, realPowersL_iff] at h
    simp only [Expr.conj, RealPowers, realPowersL_iff, conjL_eq, List.forall_mem_map]
    exact fun e he => ih e he (h e he)
  | pow b n ih =>
    rw [RealPowers] at h
    rw [Expr.conj, RealPowers]
    exact ⟨ih h.1, fun r => by rw [eval_conj, Complex.conj_im, h.2 r, neg_zero]⟩
  | cos e ih =>
    rw [RealPowers] at h
    rw [Expr.conj, RealPowers]
    exact ⟨ih h.1, fun r => by rw [eval_conj, Complex.conj_im, h.2 r, neg_zero]⟩
  | sin e ih =>
    rw [RealPowers] at h
    rw [Expr.conj, RealPowers]
    exact ⟨ih h.1, fun r => by rw [eval_conj, Complex.conj_im, h.2 r, neg_zero]⟩

theorem realPowers_xreplace (mp : Dict Sym Sym) {e : Expr} (h : RealPowers e) : RealPowers (e.xreplace mp) := by
  have him : ∀ {b : Expr}, (∀ r : Sym → ℝ, (b.eval (realVal r)).im = 0) → ∀ r : Sym → ℝ, ((b.xreplace mp).eval (realVal r)).im = 0 := by
    intro b hb r
    rw [eval_xreplace]
    exact hb (fun s => r ((Dict.get? mp s).getD s))
  induction e using Expr.ind with
  | num q => simp [Expr.xreplace, RealPowers]
  | hI => simp [Expr.xreplace, RealPowers]
  | sym s => simp [Expr.xreplace, RealPowers]
  | add l ih =>
    rw [RealPowers, realPowersL_iff] at h
    simp only [Expr.xreplace, RealPowers, realPowersL_iff, xreplaceL_eq, List.forall_mem_map]
    exact fun e he => ih e he (h e he)
  | mul l ih =>
    rw [RealPowers, realPowersL_iff] at h
    simp only [Expr.xreplace, RealPowers, realPowersL_iff, xreplaceL_eq, List.forall_mem_map]
    exact fun e he => ih e he (h e he)
  | pow b n ih =>
    rw [RealPowers] at h
    rw [Expr.xreplace, RealPowers]
    exact ⟨ih h.1, him h.2⟩
  | cos e ih =>
    rw [RealPowers] at h
    rw [Expr.xreplace, RealPowers]
    exact ⟨ih h.1, him h.2⟩
  | sin e ih =>
    rw [RealPowers] at h
    rw [Expr.xreplace, RealPowers]
    exact ⟨ih h.1, him h.2⟩

theorem realPowers_diff (s : Sym) {e : Expr} (h : RealPowers e) : RealPowers (e.diff s) := by
  induction e using Expr.ind with
  | num q => simp [Expr.diff, RealPowers]
  | hI => simp [Expr.diff, RealPowers]
  | sym t =>
    rw [Expr.diff]
    split <;> simp [RealPowers]
  | add l ih =>
    rw [RealPowers] at h
    rw [Expr.diff, RealPowers]
    induction l with
    | nil => simp [Expr.diffSum, RealPowersL]
    | cons e l ih' =>
      rw [RealPowersL] at h
      rw [Expr.diffSum, RealPowersL]
      exact ⟨ih e List.mem_cons_self h.1, ih' (fun e he => ih e (List.mem_cons_of_mem _ he)) h.2⟩
  | mul l ih =>
    rw [RealPowers] at h
    rw [Expr.diff]
    induction l with
    | nil => simp [Expr.diffProd, RealPowers]
    | cons e l ih' =>
      rw [RealPowersL] at h
      simp only [Expr.diffProd, RealPowers, RealPowersL, and_true]
      exact ⟨⟨ih e List.mem_cons_self h.1, h.2⟩, h.1, ih' (fun e he => ih e (List.mem_cons_of_mem _ he)) h.2⟩
  | pow b n ih =>
    rw [RealPowers] at h
    simp only [Expr.diff, RealPowers, RealPowersL, and_true, true_and]
    exact ⟨h, ih h.1⟩
  | cos e ih =>
    rw [RealPowers] at h
    simp only [Expr.diff, RealPowers, RealPowersL, and_true, true_and]
    exact ⟨h, ih h.1⟩
  | sin e ih =>
    rw [RealPowers] at h
    simp only [Expr.diff, RealPowers, RealPowersL, and_true]
    exact ⟨h, ih h.1⟩

section
variable {S : Sympy}

theorem realPowers_native (hS : KeepsRealPowers S) (re im : ℚ) : RealPowers ((PyObj.native re im).sympify S) := by
  simp only [PyObj.sympify]
  split
  · simp [RealPowers]
  · exact hS _ (by simp [RealPowers, RealPowersL])

theorem realPowers_floatExpr (hS : KeepsRealPowers S) (z : ℂ) : RealPowers (floatExpr S z) := by
  unfold floatExpr
  split
  · exact realPowers_native hS _ _
  · simp [RealPowers]

theorem realPowers_term (hS : KeepsRealPowers S) {fform : FFormContainer} (hf : FormulaRealPowers fform) {fdat : FDataContainer}
    {mp : Dict Sym Sym} {k : Key} {m : ℤ} {t : Expr} (h : energyTerm S fform fdat mp k m = .ok t) : RealPowers t := by
  unfold energyTerm at h
  obtain ⟨a, h1, h⟩ := bind_ok h
  obtain ⟨o, h2, h⟩ := bind_ok h
  obtain ⟨v, h3, h⟩ := bind_ok h
  obtain ⟨z, h4, h⟩ := bind_ok h
  obtain rfl := Except.ok.inj h
  have ho : RealPowers (o.sympify S) := by
    cases o with
    | native re im => exact realPowers_native hS re im
    | sy e => exact hf k a h1 e (pyGet_mem h2)
  have h0 : RealPowers (S.sub (o.sympify S) (floatExpr S z)) := hS _ (by
    simp only [RealPowers, RealPowersL, and_true, true_and]
    exact ⟨ho, realPowers_floatExpr hS z⟩)
  refine hS _ (realPowers_xreplace _ (hS _ ?_))
  simp only [RealPowers, RealPowersL, and_true]
  exact ⟨h0, hS _ (realPowers_conj h0)⟩

theorem foldlM_inv {α β : Type} {f : β → α → Except Err β} {p : β → Prop} (h : ∀ b a b', p b → f b a = .ok b' → p b') :
    ∀ (l : List α) {b b' : β}, p b → l.foldlM f b = .ok b' → p b'
  | [], b, b', hb, hl => by
      obtain rfl := Except.ok.inj hl
      exact hb
  | a :: l, b, b', hb, hl => by
      rw [List.foldlM_cons] at hl
      obtain ⟨c, h1, h2⟩ := bind_ok hl
      exact foldlM_inv h l (h _ _ _ hb h1) h2

end

/-- C112.  If simplification makes no powers of quantities that are not real and the formula has none, the expressions of the cost have
none. -/
theorem C112_real_powers {S : Sympy} (hS : KeepsRealPowers S) {fform : FFormContainer} (hf : FormulaRealPowers fform)
    (fdat : FDataContainer) (arguments : Option (List Sym)) (chunk : Bool) : CostRealPowers S fform fdat arguments chunk := by
  cases chunk with
  | false =>
    intro e he
    unfold energyExpr at he
    obtain ⟨l, _, h⟩ := bind_ok he
    refine foldlM_inv (fun b k b' hb h => foldlM_inv (fun b m b' hb h => ?_) _ hb h) _ (by simp [RealPowers]) h
    obtain ⟨t, h1, h2⟩ := bind_ok h
    obtain rfl := Except.ok.inj h2
    refine hS _ ?_
    simp only [RealPowers, RealPowersL, and_true]
    exact ⟨hb, realPowers_term hS hf h1⟩
  | true =>
    intro es hes e he
    unfold energyExprList at hes
    obtain ⟨l, _, h⟩ := bind_ok hes
    obtain ⟨ls, h1, h2⟩ := bind_ok h
    obtain rfl := Except.ok.inj h2
    obtain ⟨row, hrow, her⟩ := List.mem_flatten.1 he
    obtain ⟨k, _, hk⟩ := mapM_mem h1 hrow
    obtain ⟨m, _, hm⟩ := mapM_mem hk her
    exact realPowers_term hS hf hm

/-! ## The files -/

/-- The expressions of the chunks contain elements of `xs` only. -/
theorem energyExprList_free {S : Sympy} {fform : FFormContainer} (hc : fform.Reachable S) {fdat : FDataContainer}
    {arguments : Option (List Sym)} {l : List Sym} (hl : ArgumentOrder S fform arguments l)
    (hM : fdat.getM = fform.getM) {F : Key → ℤ → Valuation → ℂ} {D : Key → ℤ → ℂ} (hF : FormulaIs fform F)
    (hD : DataIs fform fdat D) {es : List Expr} (h1 : energyExprList S fform fdat arguments = .ok es) :
    ∀ e ∈ es, ∀ s ∈ e.free, ∃ i, i < l.length ∧ s = xsElem i := by
  intro e he
  obtain ⟨h4, h5⟩ := argumentSymbols_ok hc.good hl
  have h6 := h1
  unfold energyExprList at h6
  rw [h4, ok_bind] at h6
  obtain ⟨ls, h7, h8⟩ := bind_ok h6
  obtain rfl := Except.ok.inj h8
  obtain ⟨row, hrow, her⟩ := List.mem_flatten.1 he
  obtain ⟨k, hk, hk'⟩ := mapM_mem h7 hrow
  obtain ⟨m, hm, hm'⟩ := mapM_mem hk' her
  obtain ⟨t, ht, ht'⟩ := energyTerms_ok S h5 hF (reads_of_dataIs hD hM) k hk m hm
  rw [ht] at hm'
  obtain rfl := Except.ok.inj hm'
  exact ht'.free

/-- A text computes one function only. -/
theorem C112_unique {n : ℕ} {text : List Char} {f g : List ℝ → ℝ} (hf : Computes n text f) (hg : Computes n text g) {x : List ℝ}
    (hx : x.length = n) : f x = g x := by
  obtain ⟨lib, f', h1, h2, h3⟩ := hf
  obtain ⟨lib', g', h4, h5, h6⟩ := hg
  obtain rfl := defines_unique h1 h4
  rw [h2] at h5
  obtain rfl := Option.some.inj h5
  rw [← h3 x hx, h6 x hx]

section
variable {P : Printer} (hP : Prints P)
include hP

/-- C112.  The file for an expression computes the real part of its value: what the other theorems about fits assume of the compiler. -/
theorem C112_expression {e : Expr} (he : RealPowers e) {n : ℕ} (hfree : ∀ s ∈ e.free, ∃ i, i < n ∧ s = xsElem i) (pre : Key)
    (f : List ℝ → ℝ) : Computes n (autowrapFile P pre e) f ↔ ∀ x, x.length = n → f x = (e.eval (xsVal x)).re := by
  rw [computes_autowrap hP hfree]
  simp only [cEval_eq he]

/-- C112.  The file that `gen_cost_func` compiles defines a function that computes the misfit, in chunks or not. -/
theorem C112_cost_partial (S : Sympy) {fform : FFormContainer} (hc : fform.Reachable S) {fdat : FDataContainer}
    {arguments : Option (List Sym)} {l : List Sym} (hl : ArgumentOrder S fform arguments l)
    (hM : fdat.getM = fform.getM) {F : Key → ℤ → Valuation → ℂ} {D : Key → ℤ → ℂ} (hF : FormulaIs fform F)
    (hD : DataIs fform fdat D) (chunk : Bool) (hne : chunk = true → fform.getKeys ≠ [])
    (hp : CostRealPowers S fform fdat arguments chunk) :
    ∃ text cost, costFile S P fform fdat arguments chunk = .ok text ∧ Computes l.length text cost ∧
      ∀ r : Sym → ℝ, cost (l.map r) = misfit fform.getKeys fform.getM F D r := by
  cases chunk with
  | false =>
    obtain ⟨e, h1, h2⟩ := energyExpr_ok S hc.good hl hF (reads_of_dataIs hD hM)
    refine ⟨_, fun x => (e.eval (xsVal x)).re, by unfold costFile; rw [h1]; rfl,
      (C112_expression hP (hp e h1) h2.free _ _).2 (fun _ _ => rfl), fun r => ?_⟩
    simp only [h2.eval, Complex.ofReal_re]
  | true =>
    obtain ⟨es, h1, h2, h3⟩ := energyExprList_ok S hc.good hl hF (reads_of_dataIs hD hM) FitCases.compiler
    have hfree : ∀ e ∈ es, ∀ s ∈ e.free, ∃ i, i < l.length ∧ s = xsElem i := energyExprList_free hc hl hM hF hD h1
    refine ⟨_, fun x => (es.map (fun e => (cEval x e).re)).sum, by unfold costFile; rw [h1]; rfl,
      (computes_chunked hP hfree _ _).2 ⟨h2 (hne rfl), fun _ _ => rfl⟩, fun r => ?_⟩
    rw [← h3 r]
    refine congrArg List.sum (List.map_congr_left (fun e he => ?_))
    rw [cEval_eq (hp es h1 e he), FitCases.compiler.spec e _ (by simpa using hfree e he)]

/-- C112.  Without combinations the chunked file is not a program: `autofunc_result = ;`. -/
theorem C112_empty {S : Sympy} {fform : FFormContainer} (hk : fform.getKeys = []) {fdat : FDataContainer} {arguments : Option (List Sym)}
    {text : List Char} (h : costFile S P fform fdat arguments true = .ok text) (n : ℕ) (f : List ℝ → ℝ) : ¬ Computes n text f := by
  unfold costFile energyExprList at h
  simp only [if_true] at h
  obtain ⟨l, h1, h⟩ := bind_ok h
  obtain rfl := Except.ok.inj h
  obtain ⟨_, _, h2⟩ := bind_ok h1
  rw [hk] at h2
  obtain ⟨ls, h3, h4⟩ := bind_ok h2
  obtain rfl := Except.ok.inj h3
  obtain rfl := Except.ok.inj h4
  intro hcomp
  exact ((computes_chunked hP (l := []) (by simp) _ f).1 hcomp).1 rfl

/-- C112.  The files for the cost and its derivatives. -/
theorem C112_gradient_partial (S : Sympy) {fform : FFormContainer} (hc : fform.Reachable S) (_hreal : RealSymbols fform)
    {fdat : FDataContainer} {l : List Sym} (hl : Lists fform l) (hM : fdat.getM = fform.getM)
    {F : Key → ℤ → Valuation → ℂ} {D : Key → ℤ → ℂ} (hF : FormulaIs fform F) (hD : DataIs fform fdat D) {r₁ r₂ : Sym → ℝ}
    (hne : misfit fform.getKeys fform.getM F D r₁ ≠ misfit fform.getKeys fform.getM F D r₂)
    (hp : ∀ e, energyExpr S fform fdat (some l) = .ok e → RealPowers e ∧ ∀ i, RealPowers (S.norm (e.diff (xsElem i)))) :
    ∃ text texts cost grads, gradFiles S P fform fdat l = .ok (text, texts) ∧ Computes l.length text cost ∧
      List.Forall₂ (Computes l.length) texts grads ∧ IsMisfitGrad fform F D l (fun x => (cost x, grads.map (fun g => g x))) := by
  obtain ⟨e, h1, h2⟩ := energyExpr_ok S hc.good (arguments := some l) (Or.inl ⟨rfl, hl⟩) hF (reads_of_dataIs hD hM)
  have h3 : denergyExpr S l.length e = .ok ((List.range l.length).map (fun i => S.norm (e.diff (xsElem i)))) := by
    unfold denergyExpr
    rw [if_neg (h2.free_ne_nil hne)]
  have hfree : ∀ i, ∀ s ∈ (S.norm (e.diff (xsElem i))).free, ∃ j, j < l.length ∧ s = xsElem j :=
    fun i s hs => h2.free s (free_diff _ _ _ (S.free_norm _ _ hs))
  refine ⟨_, _, fun x => (e.eval (xsVal x)).re,
    (List.range l.length).map (fun i x => ((S.norm (e.diff (xsElem i))).eval (xsVal x)).re),
    by unfold gradFiles; rw [h1, ok_bind, h3]; rfl, (C112_expression hP (hp e h1).1 h2.free _ _).2 (fun _ _ => rfl), ?_, fun r => ?_⟩
  · rw [List.map_map, List.forall₂_map_left_iff, List.forall₂_map_right_iff]
    exact List.forall₂_same.2 (fun i _ => (C112_expression hP ((hp e h1).2 i) (hfree i) _ _).2 (fun _ _ => rfl))
  · refine ⟨by simp only; rw [h2.eval, Complex.ofReal_re], by simp, fun i s hs => ?_⟩
    have hi : i < l.length := (List.getElem?_eq_some_iff.1 hs).1
    refine ⟨((S.norm (e.diff (xsElem i))).eval (xsVal (l.map r))).re, ?_, ?_⟩
    · simp [List.getElem?_map, List.getElem?_range hi]
    · have := h2.hasDerivAt hl.1 S FitCases.compiler r hs
      rwa [FitCases.compiler.spec _ _ (by simpa using hfree i)] at this

/-- C112.  The files for a component of the model function: their values add up to the real or imaginary part of the component. -/
theorem C112_model_partial (S : Sympy) {fform : FFormContainer} (hc : fform.Reachable S) (_hreal : RealSymbols fform)
    {arguments : Option (List Sym)} {l : List Sym} (hl : ArgumentOrder S fform arguments l) {k : Key} {m : ℤ} {f : Valuation → ℂ}
    (hf : FRepresents fform k m f) (p : Part) {n : ℤ} (hn : 0 < n)
    (hp : ∀ e cs, modelExpr S fform k m p arguments = .ok e → splitExpr e n = .ok cs → ∀ c ∈ cs, RealPowers c) :
    ∃ texts gs, modelFiles S P fform arguments n (k, m, p) = .ok texts ∧ List.Forall₂ (Computes l.length) texts gs ∧
      ∀ r : Sym → ℝ, (gs.map (fun g => g (l.map r))).sum = p.value (f (realVal r)) := by
  obtain ⟨e, h1, h2⟩ := modelExpr_ok S hc.good hl hf p
  obtain ⟨cs, h3, h4, h5⟩ := splitExpr_ok e hn
  refine ⟨_, cs.map (fun c x => (c.eval (xsVal x)).re), by unfold modelFiles; simp only; rw [h1, ok_bind, h3]; rfl, ?_, fun r => ?_⟩
  · rw [List.forall₂_map_left_iff, List.forall₂_map_right_iff]
    have : ∀ (cs' : List Expr) (i : ℕ), (∀ c ∈ cs', c ∈ cs) → List.Forall₂ (fun (q : Expr × ℕ) c => Computes l.length
        (autowrapFile P (partName k m p ++ '_' :: natStr q.2) q.1) (fun x => (c.eval (xsVal x)).re)) (cs'.zipIdx i) cs' := by
      intro cs'
      induction cs' with
      | nil => intro i _; exact .nil
      | cons c cs' ih =>
        intro i hcs
        rw [List.zipIdx_cons]
        refine .cons ?_ (ih _ (fun c hc => hcs c (List.mem_cons_of_mem _ hc)))
        exact (C112_expression hP (hp e cs h1 h3 c (hcs c List.mem_cons_self))
          (fun s hs => h2.free s (h4 c (hcs c List.mem_cons_self) s hs)) _ _).2 (fun _ _ => rfl)
    exact this cs 0 (fun _ h => h)
  · have := h5 (xsVal (l.map r))
    rw [h2.eval] at this
    have h6 := congrArg Complex.re this
    rw [Complex.ofReal_re] at h6
    rw [← h6, List.map_map]
    clear this h6 h3 h4 h5 hp
    induction cs with
    | nil => simp
    | cons c cs ih => simp only [List.map_cons, List.sum_cons, Complex.add_re, Function.comp_apply, ih]

end

/-! ## Cases -/

theorem keepsRealPowers_plain : KeepsRealPowers Sympy.plain := fun _ h => h

namespace FitCases

theorem formula_realPowers : FormulaRealPowers formula := by
  intro k a h e he
  have := Dict.mem_of_get? (Dict.get_ok_iff.1 h)
  simp only [formula, List.mem_singleton, Prod.mk.injEq] at this
  obtain ⟨rfl, rfl⟩ := this
  simp only [FArr.objs, List.map_cons, List.map_nil, List.mem_cons, List.not_mem_nil, or_false, PyObj.sy.injEq] at he
  rcases he with rfl | rfl | rfl <;> simp [RealPowers]

/-- The file for the formula `b, a, b` and the data, written with parentheses everywhere. -/
example (chunk : Bool) : ∃ text cost, costFile Sympy.plain plainPrinter formula data none chunk = .ok text ∧ Computes 2 text cost ∧
    ∀ r : Sym → ℝ, cost [r symA, r symB] = misfit formula.getKeys formula.getM F D r :=
  C112_cost_partial plainPrinter_prints Sympy.plain formula_reachable (.inr ⟨rfl, free_symbols⟩) rfl formulaIs dataIs chunk
    (fun _ => by simp [formula, FFormContainer.getKeys, Dict.keys])
    (C112_real_powers keepsRealPowers_plain formula_realPowers data none chunk)

/-- The files for its gradient. -/
example :
    ∃ text texts cost grads, gradFiles Sympy.plain plainPrinter formula data [symA, symB] = .ok (text, texts) ∧ Computes 2 text cost ∧
      List.Forall₂ (Computes 2) texts grads ∧ IsMisfitGrad formula F D [symA, symB] (fun x => (cost x, grads.map (fun g => g x))) :=
  C112_gradient_partial plainPrinter_prints Sympy.plain formula_reachable real_symbols
    (getFreeSymbols_lists formula_reachable.good free_symbols).2 rfl formulaIs dataIs not_constant
    (fun e he => ⟨C112_real_powers keepsRealPowers_plain formula_realPowers data _ false e he,
      fun _ => realPowers_diff _ (C112_real_powers keepsRealPowers_plain formula_realPowers data _ false e he)⟩)

/-- The files for the real part of the component `a`. -/
example : ∃ texts gs, modelFiles Sympy.plain plainPrinter formula none 10 (kPP, 0, .real) = .ok texts ∧
    List.Forall₂ (Computes 2) texts gs ∧ ∀ r : Sym → ℝ, (gs.map (fun g => g [r symA, r symB])).sum = r symA := by
  obtain ⟨texts, gs, h1, h2, h3⟩ := C112_model_partial plainPrinter_prints Sympy.plain formula_reachable real_symbols
    (.inr ⟨rfl, free_symbols⟩) (formulaIs kPP (by simp [formula, FFormContainer.getKeys, Dict.keys]) 0 (by decide) (by decide)) .real
    (n := 10) (by norm_num) (fun e cs he hcs c hc => by
      have he' : modelExpr Sympy.plain formula kPP 0 .real none = .ok (.mul [.num (1 / 2), .add [.sym (xsElem 0), .sym (xsElem 0)]]) := by
        unfold modelExpr
        simp only [argumentSymbols]
        rw [free_symbols]
        rfl
      rw [he'] at he
      obtain rfl := Except.ok.inj he
      obtain rfl := Except.ok.inj hcs
      rw [List.mem_singleton.1 hc]
      simp [RealPowers, RealPowersL])
  refine ⟨texts, gs, h1, h2, fun r => ?_⟩
  have := h3 r
  simpa [Part.value, F, realVal] using this

/-- A formula with the component `(a + I b)²`. -/
def square : FFormContainer := ⟨[(kPP, .obj [.pow (.add [.sym symA, .mul [.I, .sym symB]]) 2])], 0⟩

/-- Data with the component `0`. -/
noncomputable def zeroData : FDataContainer := ⟨[(kPP, [0])], 0, 1, .num 0⟩

theorem square_reachable : square.Reachable Sympy.plain :=
  ⟨[(.str kPP, .objArr [.sy (.pow (.add [.sym symA, .mul [.I, .sym symB]]) 2)])], 0, square, [], rfl, rfl⟩

theorem zeroData_reachable : zeroData.Reachable := ⟨[(.str kPP, .arr1 .complex64 [0])], 0, zeroData, [], rfl, rfl⟩

theorem squareIs : FormulaIs square (fun _ _ σ => (σ symA + Complex.I * σ symB) ^ 2) := by
  intro k hk m h1 h2
  simp only [square, FFormContainer.getKeys, Dict.keys, List.map_cons, List.map_nil, List.mem_singleton] at hk
  subst hk
  obtain rfl : m = 0 := by
    simp only [square, FFormContainer.getM] at h1 h2
    omega
  exact ⟨_, _, rfl, ⟨⟨by decide, by decide⟩, rfl⟩, fun σ => by simp [objValue, Expr.eval, Expr.evalSum, Expr.evalProd]⟩

theorem zeroDataIs : DataIs square zeroData (fun _ _ => 0) := by
  intro k hk m h1 h2
  simp only [square, FFormContainer.getKeys, Dict.keys, List.map_cons, List.map_nil, List.mem_singleton] at hk
  subst hk
  obtain rfl : m = 0 := by
    simp only [square, FFormContainer.getM] at h1 h2
    omega
  exact ⟨⟨_, rfl, ⟨by decide, by decide⟩, by simp [zeroData, FDataContainer.getM]⟩, 0, 0, by simp⟩

theorem square_misfit (r : Sym → ℝ) : misfit square.getKeys square.getM (fun _ _ σ => (σ symA + Complex.I * σ symB) ^ 2)
    (fun _ _ => 0) r = (r symA ^ 2 + r symB ^ 2) ^ 2 := by
  have h : Finset.Icc (-((0 : ℕ) : ℤ)) (0 : ℕ) = {0} := by decide
  simp only [misfit, square, FFormContainer.getKeys, FFormContainer.getM, Dict.keys, List.map_cons, List.map_nil, List.sum_cons,
    List.sum_nil, add_zero, h, Finset.sum_singleton, sub_zero, norm_pow, realVal]
  rw [Complex.sq_norm, Complex.normSq_apply]
  simp
  ring

theorem square_lists : Lists square [symA, symB] := by
  refine ⟨by decide, ?_⟩
  rintro s ⟨k, a, m, e, ha, ⟨hm, he⟩, hs⟩
  have := Dict.mem_of_get? (Dict.get_ok_iff.1 ha)
  simp only [square, List.mem_singleton, Prod.mk.injEq] at this
  obtain ⟨rfl, rfl⟩ := this
  have h2 := List.mem_of_getElem? he
  simp only [FArr.objs, List.map_cons, List.map_nil, List.mem_singleton, PyObj.sy.injEq] at h2
  subst h2
  simpa [Expr.free, Expr.freeL] using hs

/-- C112 is false for formulas with powers of complex quantities: the misfit of the formula `(a + I b)²` and the data `0` is
`(a² + b²)²`, but the function that is compiled, in chunks or not, computes `a⁴`, because `pow` sees the real part of `a + I b`. -/
theorem C112_complex_power_broken {P : Printer} (hP : Prints P) (chunk : Bool) :
    (∀ r : Sym → ℝ, misfit square.getKeys square.getM (fun _ _ σ => (σ symA + Complex.I * σ symB) ^ 2) (fun _ _ => 0) r =
      (r symA ^ 2 + r symB ^ 2) ^ 2) ∧
    ∃ text cost, costFile Sympy.plain P square zeroData (some [symA, symB]) chunk = .ok text ∧ Computes 2 text cost ∧
      ∀ r : Sym → ℝ, cost [r symA, r symB] = r symA ^ 4 := by
  refine ⟨square_misfit, ?_⟩
  have hterm : energyTerm Sympy.plain square zeroData (xsMapping [symA, symB]) kPP 0 = .ok
      (.mul [.add [.pow (.add [.sym (xsElem 0), .mul [.I, .sym (xsElem 1)]]) 2,
          .mul [.num (-1), (floatExpr Sympy.plain 0).xreplace (xsMapping [symA, symB])]],
        .add [.pow (.add [.sym (xsElem 0), .mul [.mul [.num (-1), .I], .sym (xsElem 1)]]) 2,
          .mul [.num (-1), (floatExpr Sympy.plain 0).conj.xreplace (xsMapping [symA, symB])]]]) := rfl
  have hz : ∀ x : List ℝ, cEval x ((floatExpr Sympy.plain 0).xreplace (xsMapping [symA, symB])) = 0 := by
    intro x
    rw [cEval_eq (realPowers_xreplace _ (realPowers_floatExpr keepsRealPowers_plain 0)), eval_xreplace,
      eval_floatExpr _ ⟨0, 0, by simp⟩]
  have hz' : ∀ x : List ℝ, cEval x ((floatExpr Sympy.plain 0).conj.xreplace (xsMapping [symA, symB])) = 0 := by
    intro x
    rw [cEval_eq (realPowers_xreplace _ (realPowers_conj (realPowers_floatExpr keepsRealPowers_plain 0))), eval_xreplace, eval_conj_all,
      eval_floatExpr _ ⟨0, 0, by simp⟩, map_zero]
  generalize (floatExpr Sympy.plain 0).xreplace (xsMapping [symA, symB]) = z1 at hterm hz
  generalize (floatExpr Sympy.plain 0).conj.xreplace (xsMapping [symA, symB]) = z2 at hterm hz'
  obtain ⟨t, ht, hfree⟩ := energyTerms_ok Sympy.plain square_lists squareIs (reads_of_dataIs zeroDataIs rfl) kPP
    (by simp [square, FFormContainer.getKeys, Dict.keys]) 0 (by simp [square, FFormContainer.getM, mem_freqs])
  have hfree := hfree.free
  have hval : ∀ a b : ℝ, (cEval [a, b] t).re = a ^ 4 := by
    intro a b
    rw [hterm] at ht
    rw [← Except.ok.inj ht]
    simp only [cEval, cEvalProd, cEvalSum, hz, hz', xsVal_elem]
    simp
    norm_cast
    ring
  cases chunk with
  | false =>
    have he : energyExpr Sympy.plain square zeroData (some [symA, symB]) = .ok (.add [.num 0, t]) := by
      show (energyTerm Sympy.plain square zeroData (xsMapping [symA, symB]) kPP 0 >>= fun t => Except.ok (Sympy.plain.add (.num 0) t)) >>=
        _ = _
      rw [ht]
      rfl
    refine ⟨_, fun x => (cEval x (.add [.num 0, t])).re, by unfold costFile; rw [he]; rfl,
      (computes_autowrap hP (fun s hs => hfree s (by simpa [Expr.free, Expr.freeL] using hs)) _ _).2 (fun _ _ => rfl), fun r => ?_⟩
    simp only [cEval, cEvalSum, add_zero, Rat.cast_zero, zero_add, hval]
  | true =>
    have he : energyExprList Sympy.plain square zeroData (some [symA, symB]) = .ok [t] := by
      unfold energyExprList
      simp only [argumentSymbols, ok_bind]
      rw [mapM_ok' (g := fun _ => [t]) (fun k hk => ?_)]
      · rfl
      · simp only [square, FFormContainer.getKeys, Dict.keys, List.map_cons, List.map_nil, List.mem_singleton] at hk
        subst hk
        exact mapM_ok' (l := [0]) (g := fun _ => t) (fun m hm => by rw [List.mem_singleton.1 hm]; exact ht)
    refine ⟨_, fun x => ([t].map (fun e => (cEval x e).re)).sum, by unfold costFile; rw [he]; rfl,
      (computes_chunked hP (by simpa using hfree) _ _).2 ⟨by simp, fun _ _ => rfl⟩, fun r => ?_⟩
    simp only [List.map_cons, List.map_nil, List.sum_cons, List.sum_nil, add_zero, hval]

end FitCases

end Shgpy
