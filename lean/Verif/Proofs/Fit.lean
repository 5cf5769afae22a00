import Verif.Model.FFormFit
import Verif.Spec.Fit
import Verif.Proofs.Formgen3
import Verif.Proofs.Form
import Verif.Proofs.FData
import Verif.Proofs.Fformgen

/-!
# Lemmas: the cost expression
-/

set_option linter.unusedSectionVars false
set_option linter.unusedSimpArgs false

namespace Shgpy
open Spec
open scoped ComplexConjugate

theorem xreplaceL_eq (mp : Dict Sym Sym) (l : List Expr) : Expr.xreplaceL mp l = l.map (Expr.xreplace mp) := by
  induction l with
  | nil => rfl
  | cons a l ih => simp [Expr.xreplaceL, ih]

theorem eval_xreplace (mp : Dict Sym Sym) (σ : Valuation) (e : Expr) :
    (e.xreplace mp).eval σ = e.eval (fun s => σ ((Dict.get? mp s).getD s)) := by
  induction e using Expr.ind with
  | num q => rfl
  | hI => rfl
  | sym s => rfl
  | add l ih =>
    simp only [Expr.xreplace, Expr.eval, Expr.evalSum_eq, xreplaceL_eq, List.map_map]
    congr 1
    exact List.map_congr_left (fun e he => ih e he)
  | mul l ih =>
    simp only [Expr.xreplace, Expr.eval, Expr.evalProd_eq, xreplaceL_eq, List.map_map]
    congr 1
    exact List.map_congr_left (fun e he => ih e he)
  | pow b n ih => simp [Expr.xreplace, Expr.eval, ih]
  | cos e ih => simp [Expr.xreplace, Expr.eval, ih]
  | sin e ih => simp [Expr.xreplace, Expr.eval, ih]

theorem free_xreplace (mp : Dict Sym Sym) (e : Expr) {s : Sym} (h : s ∈ (e.xreplace mp).free) :
    ∃ t ∈ e.free, s = (Dict.get? mp t).getD t := by
  induction e using Expr.ind with
  | num q => simp [Expr.xreplace, Expr.free] at h
  | hI => simp [Expr.xreplace, Expr.free] at h
  | sym t => simp [Expr.xreplace, Expr.free] at h; exact ⟨t, by simp [Expr.free], h⟩
  | add l ih =>
    simp only [Expr.xreplace, Expr.free, xreplaceL_eq, Expr.mem_freeL, List.mem_map] at h ⊢
    obtain ⟨_, ⟨e, he, rfl⟩, hs⟩ := h
    obtain ⟨t, ht, h'⟩ := ih e he hs
    exact ⟨t, ⟨e, he, ht⟩, h'⟩
  | mul l ih =>
    simp only [Expr.xreplace, Expr.free, xreplaceL_eq, Expr.mem_freeL, List.mem_map] at h ⊢
    obtain ⟨_, ⟨e, he, rfl⟩, hs⟩ := h
    obtain ⟨t, ht, h'⟩ := ih e he hs
    exact ⟨t, ⟨e, he, ht⟩, h'⟩
  | pow b n ih => exact ih h
  | cos e ih => exact ih h
  | sin e ih => exact ih h

theorem xsElem_inj {i j : ℕ} (h : xsElem i = xsElem j) : i = j := by
  unfold xsElem at h
  simp only [Sym.mk.injEq, true_and] at h
  omega

theorem map_fst_zipIdx {α β : Type} (l : List α) (f : ℕ → β) :
    (l.zipIdx.map (fun p => (p.1, f p.2))).map Prod.fst = l := by
  rw [List.map_map]
  have : (Prod.fst ∘ fun p : α × ℕ => (p.1, f p.2)) = Prod.fst := rfl
  rw [this]
  simp

theorem xsMapping_get {l : List Sym} (hl : l.Nodup) {i : ℕ} {s : Sym} (h : l[i]? = some s) :
    Dict.get? (xsMapping l) s = some (xsElem i) := by
  have hnd : ((l.zipIdx.map (fun p => (p.1, xsElem p.2))).map Prod.fst).Nodup := by rwa [map_fst_zipIdx]
  unfold xsMapping
  rw [Dict.ofPairs_of_nodup hnd, Dict.get?_eq_some_iff hnd, List.mem_map]
  exact ⟨(s, i), List.mem_zipIdx_iff_getElem?.2 h, rfl⟩

theorem xsVal_elem (x : List ℝ) (i : ℕ) : xsVal x (xsElem i) = ((x.getD i 0 : ℝ) : ℂ) := by
  simp [xsVal, xsElem]

/-- Reading the elements of `xs` as the values of the parameters, in order, is reading the parameters. -/
theorem xsVal_mapping {l : List Sym} (hl : l.Nodup) (r : Sym → ℝ) {s : Sym} (hs : s ∈ l) :
    xsVal (l.map r) ((Dict.get? (xsMapping l) s).getD s) = realVal r s := by
  obtain ⟨i, hi⟩ := List.mem_iff_getElem?.1 hs
  rw [xsMapping_get hl hi, Option.getD_some, xsVal_elem, List.getD_eq_getElem?_getD, List.getElem?_map, hi]
  rfl

theorem eval_mapped {l : List Sym} (hl : l.Nodup) (r : Sym → ℝ) {e : Expr} (he : ∀ s ∈ e.free, s ∈ l) :
    (e.xreplace (xsMapping l)).eval (xsVal (l.map r)) = e.eval (realVal r) := by
  rw [eval_xreplace]
  exact Expr.eval_congr e (fun s hs => xsVal_mapping hl r (he s hs))

theorem free_mapped {l : List Sym} (hl : l.Nodup) {e : Expr} (he : ∀ s ∈ e.free, s ∈ l) :
    ∀ s ∈ (e.xreplace (xsMapping l)).free, ∃ i, i < l.length ∧ s = xsElem i := by
  intro s hs
  obtain ⟨t, ht, rfl⟩ := free_xreplace _ _ hs
  obtain ⟨i, hi⟩ := List.mem_iff_getElem?.1 (he t ht)
  rw [xsMapping_get hl hi]
  exact ⟨i, (List.getElem?_eq_some_iff.1 hi).1, rfl⟩

theorem eval_floatExpr (S : Sympy) {z : ℂ} (hz : MachineNumber z) (σ : Valuation) : (floatExpr S z).eval σ = z := by
  have h : ∃ q : ℚ × ℚ, z = (q.1 : ℂ) + (q.2 : ℂ) * Complex.I := by
    obtain ⟨a, b, h⟩ := hz
    exact ⟨(a, b), h⟩
  unfold floatExpr
  rw [dif_pos h, PyObj.eval_sympify]
  exact h.choose_spec.symm

theorem free_native (S : Sympy) (a b : ℚ) : ((PyObj.native a b).sympify S).free = [] := by
  unfold PyObj.sympify
  simp only
  split
  · rfl
  · apply List.eq_nil_iff_forall_not_mem.2
    intro s hs
    have := S.free_norm _ _ hs
    simp [Expr.free, Expr.freeL] at this

theorem free_floatExpr (S : Sympy) (z : ℂ) : (floatExpr S z).free = [] := by
  unfold floatExpr
  split
  · exact free_native S _ _
  · rfl

theorem free_sub (S : Sympy) {a b : Expr} {s : Sym} (h : s ∈ (S.sub a b).free) : s ∈ a.free ∨ s ∈ b.free := by
  have := S.free_norm _ _ h
  simp only [Expr.free, Expr.freeL, List.append_nil, List.mem_append, List.nil_append] at this
  exact this

theorem free_abs2 (S : Sympy) {e : Expr} {s : Sym} (h : s ∈ (S.mul e (S.conj e)).free) : s ∈ e.free := by
  rcases S.free_mul h with h | h
  · exact h
  · exact free_conj _ _ (S.free_norm _ _ h)

theorem eval_abs2 (S : Sympy) (e : Expr) (r : Sym → ℝ) :
    (S.mul e (S.conj e)).eval (realVal r) = ((‖e.eval (realVal r)‖ ^ 2 : ℝ) : ℂ) := by
  rw [S.eval_mul, Sympy.conj, S.eval_norm, eval_conj, Complex.mul_conj, Complex.normSq_eq_norm_sq]

/-- The symbols of a component of the formula. -/
theorem free_component {S : Sympy} {fform : FFormContainer} {k : Key} {m : ℤ} {a : FArr} {o : PyObj} (ha : fform.getPc k = .ok a)
    (ho : Component a.objs fform.getM m o) {s : Sym} (hs : s ∈ (o.sympify S).free) : FOccurs fform s := by
  cases o with
  | native p q => rw [free_native] at hs; cases hs
  | sy e => exact ⟨k, a, m, e, ha, ho, hs⟩

/-- The numbers that the cost reads from the data: they are addressed with the `M` of the formula. -/
def Reads (fform : FFormContainer) (fdat : FDataContainer) (D : Key → ℤ → ℂ) : Prop :=
  ∀ k ∈ fform.getKeys, ∀ m, -(fform.getM : ℤ) ≤ m → m ≤ fform.getM →
    (∃ v, fdat.getPc k = .ok v ∧ v[(m + fform.getM).toNat]? = some (D k m)) ∧ MachineNumber (D k m)

theorem reads_of_dataIs {fform : FFormContainer} {fdat : FDataContainer} {D : Key → ℤ → ℂ} (h : DataIs fform fdat D)
    (hM : fdat.getM = fform.getM) : Reads fform fdat D := by
  intro k hk m h1 h2
  obtain ⟨⟨v, hv, hc⟩, hz⟩ := h k hk m h1 h2
  rw [hM] at hc
  exact ⟨⟨v, hv, hc.2⟩, hz⟩

/-- What is known of a term of the cost. -/
theorem energyTerm_ok (S : Sympy) {fform : FFormContainer} {fdat : FDataContainer} {l : List Sym} (hl : Lists fform l)
    {k : Key} {m : ℤ} {f : Valuation → ℂ} {z : ℂ} (hf : FRepresents fform k m f)
    (hd : ∃ v, fdat.getPc k = .ok v ∧ v[(m + fform.getM).toNat]? = some z) (hz : MachineNumber z) :
    ∃ t, energyTerm S fform fdat (xsMapping l) k m = .ok t ∧ (∀ s ∈ t.free, ∃ i, i < l.length ∧ s = xsElem i) ∧
      ∀ r : Sym → ℝ, t.eval (xsVal (l.map r)) = ((‖f (realVal r) - z‖ ^ 2 : ℝ) : ℂ) := by
  obtain ⟨a, o, ha, ho, hv⟩ := hf
  obtain ⟨v, hv1, hv2⟩ := hd
  have hm : m ∈ freqs fform.getM := mem_freqs.2 ho.1
  have h1 : pyGet a.objs (n2i m fform.getM) = .ok o := (pyGet_n2i_iff hm).2 ho.2
  have h2 : pyGet v (n2i m fform.getM) = .ok z := (pyGet_n2i_iff hm).2 hv2
  have hfree : ∀ s ∈ (S.sub (o.sympify S) (floatExpr S z)).free, s ∈ l := by
    intro s hs
    rcases free_sub S hs with hs | hs
    · exact hl.2 s (free_component ha ho hs)
    · rw [free_floatExpr] at hs; cases hs
  refine ⟨S.norm ((S.mul (S.sub (o.sympify S) (floatExpr S z)) (S.conj (S.sub (o.sympify S) (floatExpr S z)))).xreplace
    (xsMapping l)), ?_, ?_, ?_⟩
  · unfold energyTerm
    rw [ha, ok_bind, h1, ok_bind, hv1, ok_bind, h2, ok_bind]
    rfl
  · intro s hs
    exact free_mapped hl.1 (fun s hs => hfree s (free_abs2 S hs)) s (S.free_norm _ _ hs)
  · intro r
    rw [S.eval_norm, eval_mapped hl.1 r (fun s hs => hfree s (free_abs2 S hs)), eval_abs2, eval_sub, PyObj.eval_sympify, hv,
      eval_floatExpr S hz]

/-- What is known of an expression for the cost. -/
structure CostExpr (l : List Sym) (g : (Sym → ℝ) → ℝ) (e : Expr) : Prop where
  free : ∀ s ∈ e.free, ∃ i, i < l.length ∧ s = xsElem i
  eval : ∀ r : Sym → ℝ, e.eval (xsVal (l.map r)) = ((g r : ℝ) : ℂ)

theorem CostExpr.run {l : List Sym} {g : (Sym → ℝ) → ℝ} {e : Expr} (h : CostExpr l g e) (C : Compiler) (r : Sym → ℝ) :
    C.run e (l.map r) = g r := by
  rw [C.spec e _ (by simpa using h.free), h.eval, Complex.ofReal_re]

theorem CostExpr.add {l : List Sym} {g g' : (Sym → ℝ) → ℝ} {e e' : Expr} (S : Sympy) (h : CostExpr l g e) (h' : CostExpr l g' e') :
    CostExpr l (fun r => g r + g' r) (S.add e e') := by
  refine ⟨fun s hs => ?_, fun r => ?_⟩
  · rcases S.free_add hs with hs | hs
    · exact h.free s hs
    · exact h'.free s hs
  · rw [S.eval_add, h.eval, h'.eval, Complex.ofReal_add]

theorem CostExpr.zero (l : List Sym) : CostExpr l (fun _ => 0) (.num 0) :=
  ⟨fun s hs => by simp [Expr.free] at hs, fun r => by simp [Expr.eval]⟩

theorem foldlM_cost {ι : Type} (S : Sympy) {l : List Sym} {term : ι → Except Err Expr} {g : ι → (Sym → ℝ) → ℝ} :
    ∀ (is : List ι) (_ : ∀ i ∈ is, ∃ t, term i = .ok t ∧ CostExpr l (g i) t) {acc : Expr} {ga : (Sym → ℝ) → ℝ}
      (_ : CostExpr l ga acc),
      ∃ e, is.foldlM (fun acc i => do
        let t ← term i
        return S.add acc t) acc = .ok e ∧ CostExpr l (fun r => ga r + (is.map (fun i => g i r)).sum) e
  | [], _, acc, ga, ha => ⟨acc, rfl, by simpa using ha⟩
  | i :: is, h, acc, ga, ha => by
      obtain ⟨t, h1, h2⟩ := h i (by simp)
      obtain ⟨e, h3, h4⟩ := foldlM_cost S is (fun j hj => h j (by simp [hj])) (ha.add S h2)
      refine ⟨e, ?_, ?_⟩
      · rw [List.foldlM_cons, h1, ok_bind]
        exact h3
      · have : (fun r => ga r + ((i :: is).map (fun i => g i r)).sum) = fun r => ga r + g i r + (is.map (fun i => g i r)).sum := by
          funext r
          simp [add_assoc]
        rw [this]
        exact h4

theorem foldlM_cost2 (S : Sympy) {l : List Sym} {ms : List ℤ} {term : Key → ℤ → Except Err Expr} {g : Key → ℤ → (Sym → ℝ) → ℝ} :
    ∀ (ks : List Key) (_ : ∀ k ∈ ks, ∀ m ∈ ms, ∃ t, term k m = .ok t ∧ CostExpr l (g k m) t) {acc : Expr} {ga : (Sym → ℝ) → ℝ}
      (_ : CostExpr l ga acc),
      ∃ e, ks.foldlM (fun acc k => ms.foldlM (fun acc m => do
        let t ← term k m
        return S.add acc t) acc) acc = .ok e ∧
        CostExpr l (fun r => ga r + (ks.map (fun k => (ms.map (fun m => g k m r)).sum)).sum) e
  | [], _, acc, ga, ha => ⟨acc, rfl, by simpa using ha⟩
  | k :: ks, h, acc, ga, ha => by
      obtain ⟨t, h1, h2⟩ := foldlM_cost S (term := term k) (g := g k) ms (h k (by simp)) ha
      obtain ⟨e, h3, h4⟩ := foldlM_cost2 S ks (fun j hj => h j (by simp [hj])) h2
      refine ⟨e, ?_, ?_⟩
      · rw [List.foldlM_cons, h1, ok_bind]
        exact h3
      · have : (fun r => ga r + ((k :: ks).map (fun k => (ms.map (fun m => g k m r)).sum)).sum) =
            fun r => ga r + (ms.map (fun m => g k m r)).sum + (ks.map (fun k => (ms.map (fun m => g k m r)).sum)).sum := by
          funext r
          simp [add_assoc]
        rw [this]
        exact h4

theorem sum_freqs_Icc (M : ℕ) (g : ℤ → ℝ) : ((freqs M).map g).sum = ∑ m ∈ Finset.Icc (-(M : ℤ)) M, g m := by
  have h1 : (freqs M).toFinset = Finset.Icc (-(M : ℤ)) M := by
    ext m
    simp [mem_freqs]
  rw [← h1, List.sum_toFinset _ (freqs_nodup M)]

theorem getFreeSymbols_lists {S : Sympy} {fform : FFormContainer} (hc : fform.Good) {l : List Sym}
    (h : fform.getFreeSymbols S = .ok l) : (∀ it ∈ fform.fform, it.2.isNative = false) ∧ Lists fform l := by
  have hn : ∀ it ∈ fform.fform, it.2.isNative = false := by
    by_contra hcon
    have h2 : ∃ it ∈ fform.fform, it.2.isNative = true := by
      by_contra h3
      apply hcon
      intro it hit
      by_contra h4
      exact h3 ⟨it, hit, by simpa using h4⟩
    rw [FFormContainer.getFreeSymbols_error S hc h2] at h
    cases h
  refine ⟨hn, ?_⟩
  obtain ⟨l', h1, h2⟩ := FFormContainer.getFreeSymbols_ok S hc hn
  rw [h1] at h
  cases h
  refine ⟨S.sortSyms_nodup l', fun s hs => ?_⟩
  rw [S.mem_sortSyms, h2]
  obtain ⟨k, a, m, e, ha, he, hse⟩ := hs
  have hmem := hc.getPc_iff.1 ha
  have := hn _ hmem
  cases a with
  | native v => cases this
  | obj v =>
    obtain ⟨e', he', heq⟩ := List.mem_map.1 (List.mem_of_getElem? he.2)
    cases heq
    exact ⟨k, v, e, hmem, he', hse⟩

theorem argumentSymbols_ok {S : Sympy} {fform : FFormContainer} (hc : fform.Good) {arguments : Option (List Sym)} {l : List Sym}
    (h : ArgumentOrder S fform arguments l) : argumentSymbols S fform arguments = .ok l ∧ Lists fform l := by
  rcases h with ⟨rfl, h⟩ | ⟨rfl, h⟩
  · exact ⟨rfl, h⟩
  · exact ⟨h, (getFreeSymbols_lists hc h).2⟩

theorem energyTerms_ok (S : Sympy) {fform : FFormContainer} {fdat : FDataContainer} {l : List Sym} (hl : Lists fform l)
    {F : Key → ℤ → Valuation → ℂ} {D : Key → ℤ → ℂ} (hF : FormulaIs fform F)
    (hD : Reads fform fdat D) :
    ∀ k ∈ fform.getKeys, ∀ m ∈ freqs fform.getM, ∃ t, energyTerm S fform fdat (xsMapping l) k m = .ok t ∧
      CostExpr l (fun r => ‖F k m (realVal r) - D k m‖ ^ 2) t := by
  intro k hk m hm
  rw [mem_freqs] at hm
  obtain ⟨h1, h2⟩ := hD k hk m hm.1 hm.2
  obtain ⟨t, h3, h4, h5⟩ := energyTerm_ok S hl (hF k hk m hm.1 hm.2) h1 h2
  exact ⟨t, h3, h4, h5⟩

theorem energyExpr_ok (S : Sympy) {fform : FFormContainer} (hc : fform.Good) {fdat : FDataContainer}
    {arguments : Option (List Sym)} {l : List Sym} (hl : ArgumentOrder S fform arguments l)
    {F : Key → ℤ → Valuation → ℂ} {D : Key → ℤ → ℂ} (hF : FormulaIs fform F)
    (hD : Reads fform fdat D) :
    ∃ e, energyExpr S fform fdat arguments = .ok e ∧ CostExpr l (misfit fform.getKeys fform.getM F D) e := by
  obtain ⟨h1, h2⟩ := argumentSymbols_ok hc hl
  obtain ⟨e, h3, h4⟩ := foldlM_cost2 S fform.getKeys (energyTerms_ok S h2 hF hD) (CostExpr.zero l)
  refine ⟨e, ?_, ?_⟩
  · unfold energyExpr
    rw [h1, ok_bind]
    exact h3
  · have : misfit fform.getKeys fform.getM F D = fun r => 0 + (fform.getKeys.map (fun k =>
        ((freqs fform.getM).map (fun m => ‖F k m (realVal r) - D k m‖ ^ 2)).sum)).sum := by
      funext r
      simp only [zero_add, sum_freqs_Icc]
      rfl
    rw [this]
    exact h4

theorem energyExprList_ok (S : Sympy) {fform : FFormContainer} (hc : fform.Good) {fdat : FDataContainer}
    {arguments : Option (List Sym)} {l : List Sym} (hl : ArgumentOrder S fform arguments l)
    {F : Key → ℤ → Valuation → ℂ} {D : Key → ℤ → ℂ} (hF : FormulaIs fform F)
    (hD : Reads fform fdat D) (C : Compiler) :
    ∃ es, energyExprList S fform fdat arguments = .ok es ∧ (fform.getKeys ≠ [] → es ≠ []) ∧
      ∀ r, (es.map (fun e => C.run e (l.map r))).sum = misfit fform.getKeys fform.getM F D r := by
  obtain ⟨h1, h2⟩ := argumentSymbols_ok hc hl
  have h3 := energyTerms_ok S h2 hF hD
  have : Inhabited Expr := ⟨.num 0⟩
  choose! t ht hc using h3
  refine ⟨(fform.getKeys.map (fun k => (freqs fform.getM).map (t k))).flatten, ?_, ?_, ?_⟩
  · unfold energyExprList
    rw [h1, ok_bind, mapM_ok' (g := fun k => (freqs fform.getM).map (t k)) (fun k hk => mapM_ok' (fun m hm => ht k hk m hm))]
    rfl
  · intro hne heq
    obtain ⟨k, hk⟩ := List.exists_mem_of_ne_nil _ hne
    have := List.flatten_eq_nil_iff.1 heq _ (List.mem_map.2 ⟨k, hk, rfl⟩)
    have h0 := congrArg List.length this
    simp [length_freqs] at h0
  · intro r
    rw [List.map_flatten, List.sum_flatten, List.map_map, List.map_map]
    unfold misfit
    congr 1
    refine List.map_congr_left (fun k hk => ?_)
    simp only [Function.comp_apply, List.map_map]
    rw [← sum_freqs_Icc]
    congr 1
    exact List.map_congr_left (fun m hm => (hc k hk m hm).run C r)

theorem foldl_run (C : Compiler) (x : List ℝ) (es : List Expr) (a : ℝ) :
    es.foldl (fun acc e => acc + C.run e x) a = a + (es.map (fun e => C.run e x)).sum := by
  induction es generalizing a with
  | nil => simp
  | cons e es ih => rw [List.foldl_cons, ih, List.map_cons, List.sum_cons, add_assoc]

theorem energyFuncChunked_ok (C : Compiler) (d : Disk) {es : List Expr} (h : es ≠ []) (save : Option Key) :
    energyFuncChunked C d es save = .ok (fun x => (es.map (fun e => C.run e x)).sum,
      d.save (fun x => (es.map (fun e => C.run e x)).sum) save) := by
  cases es with
  | nil => exact absurd rfl h
  | cons e es =>
    have : (fun x => es.foldl (fun acc e => acc + C.run e x) (C.run e x)) =
        fun x => ((e :: es).map (fun e => C.run e x)).sum := by
      funext x
      rw [foldl_run, List.map_cons, List.sum_cons]
    unfold energyFuncChunked
    simp only [this]

/-- The cost function. -/
theorem genCostFunc_reads (S : Sympy) (C : Compiler) (d : Disk) {fform : FFormContainer} (hc : fform.Good) {fdat : FDataContainer}
    {arguments : Option (List Sym)} {l : List Sym} (hl : ArgumentOrder S fform arguments l)
    {F : Key → ℤ → Valuation → ℂ} {D : Key → ℤ → ℂ} (hF : FormulaIs fform F)
    (hD : Reads fform fdat D) (chunk : Bool) (hne : chunk = true → fform.getKeys ≠ []) (save : Option Key) :
    ∃ f, genCostFunc S C d fform fdat arguments chunk save = .ok (f, d.save f save) ∧
      ∀ r : Sym → ℝ, f (l.map r) = misfit fform.getKeys fform.getM F D r := by
  unfold genCostFunc
  cases chunk with
  | true =>
    obtain ⟨es, h1, h2, h3⟩ := energyExprList_ok S hc hl hF hD C
    simp only [if_true]
    rw [h1, ok_bind, energyFuncChunked_ok C d (h2 (hne rfl))]
    exact ⟨_, rfl, h3⟩
  | false =>
    obtain ⟨e, h1, h2⟩ := energyExpr_ok S hc hl hF hD
    simp only [Bool.false_eq_true, if_false]
    rw [h1, ok_bind]
    exact ⟨C.run e, rfl, fun r => h2.run C r⟩

theorem genCostFunc_ok (S : Sympy) (C : Compiler) (d : Disk) {fform : FFormContainer} (hc : fform.Good) {fdat : FDataContainer}
    {arguments : Option (List Sym)} {l : List Sym} (hl : ArgumentOrder S fform arguments l)
    (hM : fdat.getM = fform.getM) {F : Key → ℤ → Valuation → ℂ} {D : Key → ℤ → ℂ} (hF : FormulaIs fform F)
    (hD : DataIs fform fdat D) (chunk : Bool) (hne : chunk = true → fform.getKeys ≠ []) (save : Option Key) :
    ∃ f, genCostFunc S C d fform fdat arguments chunk save = .ok (f, d.save f save) ∧
      ∀ r : Sym → ℝ, f (l.map r) = misfit fform.getKeys fform.getM F D r :=
  genCostFunc_reads S C d hc hl hF (reads_of_dataIs hD hM) chunk hne save

end Shgpy
