import Verif.Model.FormConvert
import Verif.Spec.Subs
import Verif.Proofs.FormToFform

/-!
# Proofs about the conversions from formulas to data
-/

set_option linter.unusedSectionVars false
set_option linter.unusedSimpArgs false

namespace Shgpy
open Spec

theorem ok_bind {α β : Type} (a : α) (f : α → Except Err β) : ((Except.ok a : Except Err α) >>= f) = f a := rfl

theorem error_bind {α β : Type} (e : Err) (f : α → Except Err β) :
    ((Except.error e : Except Err α) >>= f) = .error e := rfl

/-! ### Substituting numbers -/

theorem Expr.eval_closed {e : Expr} (h : e.free = []) (σ τ : Valuation) : e.eval σ = e.eval τ :=
  Expr.eval_congr e (fun s hs => by rw [h] at hs; cases hs)

theorem Sympy.free_subs (S : Sympy) {pairs : List (Sym × Expr)} (hp : ∀ p ∈ pairs, p.2.free = []) {e : Expr} {s : Sym}
    (h : s ∈ (S.subs pairs e).free) : s ∈ e.free ∧ s ∉ pairs.map Prod.fst := by
  unfold Sympy.subs at h
  induction pairs generalizing e with
  | nil => exact ⟨h, by simp⟩
  | cons p r ih =>
    simp only [List.foldl_cons] at h
    obtain ⟨h1, h2⟩ := ih (fun q hq => hp q (List.mem_cons_of_mem _ hq)) h
    rcases Expr.free_subst e (S.free_norm _ _ h1) with ⟨h3, h4⟩ | ⟨_, h4⟩
    · refine ⟨h3, ?_⟩
      simp only [List.map_cons, List.mem_cons, not_or]
      exact ⟨h4, h2⟩
    · rw [hp p List.mem_cons_self] at h4; cases h4

theorem assigned_closed {pairs : List (Sym × Expr)} (hp : ∀ p ∈ pairs, p.2.free = []) {σ : Valuation}
    (hσ : ∀ p ∈ pairs, σ p.1 = p.2.eval σ) (τ : Valuation) (s : Sym) :
    assigned pairs τ s = if s ∈ pairs.map Prod.fst then σ s else τ s := by
  induction pairs with
  | nil => simp [assigned]
  | cons p r ih =>
    obtain ⟨k, e⟩ := p
    simp only [assigned, assign]
    by_cases h : s = k
    · rw [if_pos h, if_pos (by simp [h]), h, hσ (k, e) List.mem_cons_self]
      exact Expr.eval_closed (hp (k, e) List.mem_cons_self) _ _
    · rw [if_neg h, ih (fun q hq => hp q (List.mem_cons_of_mem _ hq)) (fun q hq => hσ q (List.mem_cons_of_mem _ hq))]
      have : (s ∈ ((k, e) :: r).map Prod.fst) ↔ s ∈ r.map Prod.fst := by simp [h]
      simp only [this]

theorem Expr.toComplex_ok {e : Expr} (h : e.free = []) (σ : Valuation) : e.toComplex = .ok (e.eval σ) := by
  unfold Expr.toComplex
  rw [if_pos h, Expr.eval_closed h _ σ]

/-- After substituting numbers for all symbols, an expression is the number it has at the valuation. -/
theorem subs_toComplex (S : Sympy) {pairs : List (Sym × Expr)} (hp : ∀ p ∈ pairs, p.2.free = []) {σ : Valuation}
    (hσ : ∀ p ∈ pairs, σ p.1 = p.2.eval σ) {e : Expr} (hc : ∀ s ∈ e.free, s ∈ pairs.map Prod.fst) :
    (S.subs pairs e).toComplex = .ok (e.eval σ) := by
  have hf : (S.subs pairs e).free = [] := by
    rw [List.eq_nil_iff_forall_not_mem]
    intro s hs
    obtain ⟨h1, h2⟩ := S.free_subs hp hs
    exact h2 (hc s h1)
  rw [Expr.toComplex_ok hf σ, S.eval_subs]
  congr 1
  refine Expr.eval_congr e (fun s hs => ?_)
  rw [assigned_closed hp hσ, if_pos (hc s hs)]

theorem lookups_ok {subs : Dict Sym Expr} {syms : List Sym} (h : ∀ s ∈ syms, s ∈ Dict.keys subs) :
    ∃ pairs, syms.mapM (fun k => do
      let v ← Dict.get subs k
      return (k, v)) = Except.ok pairs ∧ pairs.map Prod.fst = syms ∧ ∀ p ∈ pairs, Dict.get subs p.1 = .ok p.2 := by
  induction syms with
  | nil => exact ⟨[], rfl, rfl, by simp⟩
  | cons s l ih =>
    obtain ⟨pairs, h1, h2, h3⟩ := ih (fun s hs => h s (List.mem_cons_of_mem _ hs))
    cases hv : Dict.get subs s with
    | error e =>
      exfalso
      have := (Dict.get_error_iff.1 hv).1
      exact absurd (h s List.mem_cons_self) (by first | exact Dict.get?_eq_none.1 this | exact this)
    | ok v =>
      refine ⟨(s, v) :: pairs, ?_, by simp [h2], ?_⟩
      · rw [List.mapM_cons, hv]
        show (l.mapM (fun k => do
          let v ← Dict.get subs k
          return (k, v)) >>= fun r => _) = _
        rw [h1]
        rfl
      · intro p hp
        rcases List.mem_cons.1 hp with rfl | hp
        · exact hv
        · exact h3 p hp

theorem lookups_error {subs : Dict Sym Expr} {syms : List Sym} (h : ∃ s ∈ syms, s ∉ Dict.keys subs) :
    syms.mapM (fun k => do
      let v ← Dict.get subs k
      return (k, v)) = Except.error .keyError := by
  have hg : ∀ s, s ∉ Dict.keys subs → Dict.get subs s = .error .keyError := by
    intro s hs
    unfold Dict.get
    rw [Dict.get?_eq_none.2 hs]
  refine mapM_error ?_ ?_
  · intro s _
    by_cases hs : s ∈ Dict.keys subs
    · obtain ⟨pairs, h1, _⟩ := lookups_ok (subs := subs) (syms := [s]) (by simpa using hs)
      left
      cases hv : Dict.get subs s with
      | ok v => exact ⟨(s, v), rfl⟩
      | error e =>
        rw [List.mapM_cons, hv] at h1
        cases h1
    · right
      rw [hg s hs]; rfl
  · obtain ⟨s, h1, h2⟩ := h
    exact ⟨s, h1, by rw [hg s h2]; rfl⟩

/-! ### `fform_to_fdat` -/

namespace FFormContainer

/-- The items as a defining iterable of a container of size `16`. -/
theorem init_16 (S : Sympy) {c : FFormContainer} (hc : c.Good) (hn : ∀ it ∈ c.fform, it.2.isNative = false)
    (hM : c.M = 16 ∨ c.fform = []) : init S c.toIterable 16 = .ok ⟨c.fform, 16⟩ := by
  rcases hM with hM | hM
  · have := copy_ok S hc hn
    unfold copy at this
    rw [hM] at this
    rw [this, ← hM]
  · unfold toIterable
    rw [hM]
    rfl

theorem init_16_error (S : Sympy) {c : FFormContainer} (hc : c.Good) (hM : c.M ≠ 16) (hne : c.fform ≠ []) :
    init S c.toIterable 16 = .error .valueError := by
  cases h : init S c.toIterable 16 with
  | error e =>
    unfold init at h
    cases hch : checkFFIterable 16 (Dict.ofPairs c.toIterable) with
    | error e' =>
      rw [hch] at h
      have := checkFFIterable_error hch
      subst this
      cases h
      rfl
    | ok d => rw [hch] at h; cases h
  | ok c' =>
    exfalso
    obtain ⟨d, hd, _⟩ := init_ok_iff.1 h
    have hf := checkFFIterable_ok hd
    have : Dict.ofPairs c.toIterable = c.toIterable := by
      apply Dict.ofPairs_of_nodup
      exact FormContainer.str_map_nodup hc.wf FArr.toRaw
    rw [this] at hf
    obtain ⟨it, l, hl⟩ := List.exists_cons_of_ne_nil hne
    have hit : it ∈ c.fform := by rw [hl]; simp
    obtain ⟨q, _, _, hq⟩ := forall₂_mem_left hf (List.mem_map.2 ⟨it, hit, rfl⟩ : _ ∈ c.toIterable)
    have hlen := hc.len it hit
    obtain ⟨k, a⟩ := it
    obtain ⟨h1, h2⟩ := checkFFVal_length hq
    cases a with
    | native v => cases h1
    | obj v =>
      simp only [FArr.toRaw, RawFF.objArr.injEq] at h1
      rw [← h1] at h2
      simp only [FArr.objs] at hlen
      omega

theorem mem_occurs {c : FFormContainer} (hc : c.Good) {k : Key} {v : List Expr} {e : Expr} {s : Sym}
    (h : (k, FArr.obj v) ∈ c.fform) (he : e ∈ v) (hs : s ∈ e.free) : FOccurs c s := by
  obtain ⟨m, hm⟩ := exists_component_of_mem (M := c.M) (by simpa using hc.len _ h) he
  exact ⟨k, _, m, e, hc.getPc_iff.2 h, component_map _ hm, hs⟩

theorem occurs_mem {c : FFormContainer} (hc : c.Good) (hn : ∀ it ∈ c.fform, it.2.isNative = false) {s : Sym}
    (h : FOccurs c s) : ∃ k v e, (k, FArr.obj v) ∈ c.fform ∧ e ∈ v ∧ s ∈ e.free := by
  obtain ⟨k, a, m, e, h, he, hse⟩ := h
  have h' := hc.getPc_iff.1 h
  have := hn _ h'
  cases a with
  | native v => cases this
  | obj v =>
    obtain ⟨e', he', heq⟩ := List.mem_map.1 he.mem
    cases heq
    exact ⟨k, v, e, h', he', hse⟩

end FFormContainer

theorem fformToFdat_ok (S : Sympy) {c : FFormContainer} (hc : c.Good) (hn : ∀ it ∈ c.fform, it.2.isNative = false)
    (hM : c.M = 16 ∨ c.fform = []) {subs : Dict Sym Expr} (hs : Numeric subs)
    (hcov : ∀ s, FOccurs c s → s ∈ Dict.keys subs) {σ : Valuation} (hσ : Agrees σ subs) :
    fformToFdat S c subs = .ok ⟨c.fform.mapVals (fun a => a.objs.map (objValue σ)), 16, 1, .num 0⟩ := by
  obtain ⟨l, hl, hmem⟩ := FFormContainer.getFreeSymbols_ok S hc hn
  have hocc : ∀ s ∈ S.sortSyms l, s ∈ Dict.keys subs := by
    intro s hs
    rw [S.mem_sortSyms, hmem] at hs
    obtain ⟨k, v, e, h1, h2, h3⟩ := hs
    exact hcov s (FFormContainer.mem_occurs hc h1 h2 h3)
  obtain ⟨pairs, hp1, hp2, hp3⟩ := lookups_ok hocc
  have hclosed : ∀ p ∈ pairs, p.2.free = [] := fun p hp =>
    hs (p.1, p.2) (Dict.mem_of_get? (Dict.get_ok_iff.1 (hp3 p hp)))
  have hval : ∀ p ∈ pairs, σ p.1 = p.2.eval σ := fun p hp => hσ _ _ (hp3 p hp)
  have hg16 : FFormContainer.Good ⟨c.fform, 16⟩ := by
    refine ⟨hc.wf, ?_⟩
    intro it hit
    rcases hM with hM | hM
    · have := hc.len it hit
      rw [hM] at this
      exact this
    · simp only [hM] at hit; cases hit
  have hcall : FFormContainer.call S ⟨c.fform, 16⟩ (.subs pairs) =
      .ok ⟨c.fform.mapVals (FFormContainer.subsF S pairs), 16⟩ := by
    unfold FFormContainer.call
    rw [FFormContainer.step_subs_ok S hg16 pairs hn]
  have hmap : Dict.mapValsM FArr.astypeComplex (c.fform.mapVals (FFormContainer.subsF S pairs)) =
      .ok (c.fform.mapVals (fun a => a.objs.map (objValue σ))) := by
    have key : ∀ it ∈ c.fform, FArr.astypeComplex (FFormContainer.subsF S pairs it.2) =
        .ok (it.2.objs.map (objValue σ)) := by
      intro it hit
      obtain ⟨k, a⟩ := it
      have := hn _ hit
      cases a with
      | native v => cases this
      | obj v =>
        simp only [FFormContainer.subsF, FArr.astypeComplex, FArr.objs, List.map_map]
        have : (v.map (S.subs pairs)).mapM Expr.toComplex = v.mapM (fun e => (S.subs pairs e).toComplex) := by
          rw [List.mapM_map]; rfl
        rw [this]
        refine mapM_ok (fun e he => ?_)
        exact subs_toComplex S hclosed hval (fun s hs' => by
          rw [hp2, S.mem_sortSyms, hmem]
          exact ⟨k, v, e, hit, he, hs'⟩)
    clear hcall hg16 hcov hmem hM hn hocc
    generalize c.fform = d at key
    induction d with
    | nil => rfl
    | cons p d ih =>
      obtain ⟨k, a⟩ := p
      simp only [Dict.mapVals_cons, Dict.mapValsM]
      rw [key (k, a) List.mem_cons_self, ih (fun it hit => key it (List.mem_cons_of_mem _ hit))]
      rfl
  unfold fformToFdat
  rw [hl, ok_bind, hp1, ok_bind, FFormContainer.init_16 S hc hn hM, ok_bind, hcall, ok_bind]
  simp only [FFormContainer.getItems, FFormContainer.getM]
  rw [hmap, ok_bind]
  exact FDataContainer.init_items .complex128 (Or.inr rfl) (by have := hc.wf; simpa [Dict.WF] using this) (by
    rintro ⟨k, v⟩ hit
    obtain ⟨a, ha, rfl⟩ := Dict.mem_mapVals.1 hit
    have := hg16.len _ ha
    simpa using this)

theorem fformToFdat_keyError (S : Sympy) {c : FFormContainer} (hc : c.Good) (hn : ∀ it ∈ c.fform, it.2.isNative = false)
    {subs : Dict Sym Expr} (hcov : ∃ s, FOccurs c s ∧ s ∉ Dict.keys subs) :
    fformToFdat S c subs = .error .keyError := by
  obtain ⟨l, hl, hmem⟩ := FFormContainer.getFreeSymbols_ok S hc hn
  obtain ⟨s, h1, h2⟩ := hcov
  unfold fformToFdat
  rw [hl, ok_bind, lookups_error ⟨s, by rw [S.mem_sortSyms, hmem]; exact FFormContainer.occurs_mem hc hn h1, h2⟩]
  rfl

theorem fformToFdat_native (S : Sympy) {c : FFormContainer} (hc : c.Good) (hn : ∃ it ∈ c.fform, it.2.isNative = true)
    {subs : Dict Sym Expr} : fformToFdat S c subs = .error .attributeError := by
  unfold fformToFdat
  rw [FFormContainer.getFreeSymbols_error S hc hn]
  rfl

theorem fformToFdat_M (S : Sympy) {c : FFormContainer} (hc : c.Good) (hn : ∀ it ∈ c.fform, it.2.isNative = false)
    (hM : c.M ≠ 16) (hne : c.fform ≠ []) {subs : Dict Sym Expr} (hcov : ∀ s, FOccurs c s → s ∈ Dict.keys subs) :
    fformToFdat S c subs = .error .valueError := by
  obtain ⟨l, hl, hmem⟩ := FFormContainer.getFreeSymbols_ok S hc hn
  have hocc : ∀ s ∈ S.sortSyms l, s ∈ Dict.keys subs := by
    intro s hs
    rw [S.mem_sortSyms, hmem] at hs
    obtain ⟨k, v, e, h1, h2, h3⟩ := hs
    exact hcov s (FFormContainer.mem_occurs hc h1 h2 h3)
  obtain ⟨pairs, hp1, hp2, hp3⟩ := lookups_ok hocc
  unfold fformToFdat
  rw [hl, ok_bind, hp1, ok_bind, FFormContainer.init_16_error S hc hM hne]
  rfl

end Shgpy
