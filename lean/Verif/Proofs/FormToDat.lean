import Verif.Proofs.FormConvert

/-!
# Proofs about `form_to_dat` and about the symbols of a transform
-/

set_option linter.unusedSectionVars false
set_option linter.unusedSimpArgs false

namespace Shgpy
open Spec

theorem lookups_self {subs : Dict Sym Expr} (h : Dict.WF subs) :
    (Dict.keys subs).mapM (fun k => do
      let v ← Dict.get subs k
      return (k, v)) = Except.ok subs := by
  unfold Dict.keys
  rw [List.mapM_map]
  have := mapM_ok (f := (fun p : Sym × Expr => (do
    let v ← Dict.get subs p.1
    return (p.1, v) : Except Err (Sym × Expr)))) (g := fun p => p) (l := subs) (fun p hp => by
      rw [Dict.get_ok_iff.2 ((Dict.get?_eq_some_iff h).2 hp : Dict.get? subs p.1 = some p.2)]
      rfl)
  rw [List.map_id'] at this
  exact this

theorem sortSyms_singleton (S : Sympy) {l : List Sym} {t : Sym} : S.sortSyms l = [t] ↔ ∀ s, s ∈ l ↔ s = t := by
  constructor
  · intro h s
    rw [← S.mem_sortSyms, h, List.mem_singleton]
  · intro h
    have hnd := S.sortSyms_nodup l
    have hm : ∀ s, s ∈ S.sortSyms l ↔ s = t := fun s => by rw [S.mem_sortSyms, h]
    generalize S.sortSyms l = m at hnd hm
    match m with
    | [] => exact absurd ((hm t).2 rfl) (by simp)
    | [a] => rw [(hm a).1 (by simp)]
    | a :: b :: r =>
      have h1 := (hm a).1 (by simp)
      have h2 := (hm b).1 (by simp)
      rw [h1, h2] at hnd
      simp at hnd

open Classical in
/-- What is left of `form_to_dat` after the substitution. -/
theorem formToDat_eq (S : Sympy) {form : FormContainer} (hf : Dict.WF form.form) {subs : Dict Sym Expr}
    (hs : Dict.WF subs) (N : ℕ) :
    formToDat S form subs N =
      if (∀ s, Occurs ⟨form.form.mapVals (S.subs subs)⟩ s ↔ s = phi) then
        DataContainer.init ((form.form.mapVals (fun e => sampled N (fun x => (lambdifyPhi (S.subs subs e) x).re))).map
          (fun it => (.str it.1, .arr2 .float [it.2.map Prod.fst, it.2.map Prod.snd]))) sRadians false
      else .error .valueError := by
  have hwf : Dict.WF (form.form.mapVals (S.subs subs)) := by simpa [Dict.WF] using hf
  have hinit : FormContainer.init S (form.getItems.map (fun kv => (.str kv.1, .sy kv.2))) = .ok form :=
    FormContainer.copy_ok S hf
  have hcall : FormContainer.call S form (.subs subs) = .ok ⟨form.form.mapVals (S.subs subs)⟩ := by
    unfold FormContainer.call
    rw [FormContainer.step_eq S hf]
    rfl
  obtain ⟨l, hl, hmem⟩ := FormContainer.getFreeSymbols_ok S (c := ⟨form.form.mapVals (S.subs subs)⟩) hwf
  have hocc : ∀ s, s ∈ l ↔ Occurs ⟨form.form.mapVals (S.subs subs)⟩ s := by
    intro s
    rw [hmem]
    unfold Occurs FormContainer.getPc
    constructor
    · rintro ⟨k, e, h1, h2⟩
      exact ⟨k, e, Dict.get_ok_iff.2 ((Dict.get?_eq_some_iff hwf).2 h1), h2⟩
    · rintro ⟨k, e, h1, h2⟩
      exact ⟨k, e, Dict.mem_of_get? (Dict.get_ok_iff.1 h1), h2⟩
  unfold formToDat
  rw [lookups_self hs, ok_bind, hinit, ok_bind, hcall, ok_bind, hl, ok_bind]
  by_cases h : ∀ s, Occurs ⟨form.form.mapVals (S.subs subs)⟩ s ↔ s = phi
  · rw [if_pos h]
    have hl' : S.sortSyms l = [phi] := (sortSyms_singleton S).2 (fun s => (hocc s).trans (h s))
    rw [if_neg (by simp [hl'])]
    show DataContainer.init _ _ _ = _
    congr 1
    have hfold : ∀ (F : Expr → RawVal ℝ) (d : Dict Key Expr), Dict.WF d →
        d.foldl (fun (it : Dict Key (RawVal ℝ)) kv => Dict.set it kv.1 (F kv.2)) [] = d.mapVals F := by
      intro F d hd
      have h2 := Dict.foldl_set_of_nodup (d.map (fun kv => (kv.1, F kv.2))) []
        (by simpa [Dict.WF, Dict.keys, Function.comp_def] using hd)
      rw [List.foldl_map] at h2
      simpa [Dict.mapVals] using h2
    have := hfold (fun e => .arr2 .float [linspace2pi N, ((linspace2pi N).map (lambdifyPhi e)).map Complex.re]) _ hwf
    simp only [FormContainer.getItems]
    rw [this, Dict.mapVals_mapVals]
    simp only [Dict.mapVals, List.map_map]
    apply List.map_congr_left
    intro it _
    simp only [Function.comp]
    rw [sampled_fst, sampled_snd, linspace2pi_eq, List.map_map, List.map_map]
    rfl
  · rw [if_neg h]
    have hl' : S.sortSyms l ≠ [phi] := fun hc =>
      h (fun s => (hocc s).symm.trans ((sortSyms_singleton S).1 hc s))
    rw [if_pos hl']
    rfl

/-- The value of an expression in which only `phi` is left. -/
theorem lambdify_subs (S : Sympy) {subs : Dict Sym Expr} (hwf : Dict.WF subs) (hn : Numeric subs) {σ : Valuation}
    (hσ : Agrees σ subs) {e : Expr} (hphi : phi ∉ Dict.keys subs) (hfree : ∀ s ∈ (S.subs subs e).free, s = phi) (x : ℝ) :
    lambdifyPhi (S.subs subs e) x = ofAngle e σ x := by
  unfold lambdifyPhi ofAngle
  rw [Expr.eval_congr (τ := assign σ phi x) _ (fun s hs => by rw [hfree s hs]; simp [assign]), S.eval_subs]
  refine Expr.eval_congr e (fun s _ => ?_)
  have hσ' : ∀ p ∈ subs, (assign σ phi x) p.1 = p.2.eval (assign σ phi x) := by
    intro p hp
    have h1 := hσ p.1 p.2 (Dict.get_ok_iff.2 ((Dict.get?_eq_some_iff hwf).2 hp))
    have h2 : p.1 ≠ phi := fun h => hphi (by rw [← h]; exact Dict.mem_keys_of_mem hp)
    simp only [assign, if_neg h2, h1]
    exact Expr.eval_closed (hn p hp) _ _
  rw [assigned_closed hn hσ']
  split <;> rfl

theorem formToDat_ok (S : Sympy) {form : FormContainer} (hf : Dict.WF form.form) {subs : Dict Sym Expr}
    (hs : Dict.WF subs) (hn : Numeric subs) {N : ℕ} (hN : 1 ≤ N)
    (h : ∀ s, Occurs ⟨form.form.mapVals (S.subs subs)⟩ s ↔ s = phi) {σ : Valuation} (hσ : Agrees σ subs) :
    phi ∉ Dict.keys subs ∧ formToDat S form subs N =
      .ok (⟨form.form.mapVals (fun e => sampled N (fun x => (ofAngle e σ x).re)), 1, 0, some 0, false, sRadians⟩, []) := by
  have hwf : Dict.WF (form.form.mapVals (S.subs subs)) := by simpa [Dict.WF] using hf
  have hphi : phi ∉ Dict.keys subs := by
    intro hc
    obtain ⟨k, e, h1, h2⟩ := (h phi).2 rfl
    obtain ⟨a, _, rfl⟩ := Dict.mem_mapVals.1 (Dict.mem_of_get? (Dict.get_ok_iff.1 h1))
    exact (S.free_subs hn h2).2 hc
  refine ⟨hphi, ?_⟩
  rw [formToDat_eq S hf hs, if_pos h]
  have heq : form.form.mapVals (fun e => sampled N (fun x => (lambdifyPhi (S.subs subs e) x).re)) =
      form.form.mapVals (fun e => sampled N (fun x => (ofAngle e σ x).re)) := by
    refine Dict.mapVals_congr (fun it hit => ?_)
    congr 1
    funext x
    rw [lambdify_subs S hs hn hσ hphi]
    intro s hs'
    refine (h s).1 ⟨it.1, S.subs subs it.2, ?_, hs'⟩
    unfold FormContainer.getPc
    rw [Dict.get_ok_iff, Dict.get?_eq_some_iff hwf]
    exact Dict.mem_mapVals.2 ⟨it.2, hit, rfl⟩
  rw [heq]
  exact init_items (K := ℝ) (by simpa [Dict.WF] using hf)
    (by
      intro it hit
      obtain ⟨k, v⟩ := it
      obtain ⟨a, _, rfl⟩ := Dict.mem_mapVals.1 hit
      exact sampled_normalForm hN (fun x : ℝ => (ofAngle a σ x).re))
    (by
      intro it hit
      obtain ⟨k, v⟩ := it
      obtain ⟨a, _, rfl⟩ := Dict.mem_mapVals.1 hit
      exact sampled_nodup hN (fun x : ℝ => (ofAngle a σ x).re))

/-! ### The symbols of a transform -/

/-- The free symbols of an element. -/
def PyObj.syms : PyObj → List Sym
  | .native _ _ => []
  | .sy e => e.free

theorem PyObj.free_sympify (S : Sympy) (o : PyObj) {s : Sym} (h : s ∈ (o.sympify S).free) : s ∈ o.syms := by
  cases o with
  | sy e => exact h
  | native re im =>
    exfalso
    simp only [PyObj.sympify] at h
    split at h
    · simp [Expr.free] at h
    · have := S.free_norm _ _ h
      simp [Expr.free, Expr.freeL] at this

theorem Lookup.closed : ∀ c ∈ table, ∀ o ∈ c.2, o.syms = [] := by decide +kernel

theorem Lookup.nonzero : ∀ c ∈ table, ∃ o ∈ c.2, o.isZero = false := by decide +kernel

theorem Expr.free_args {e t : Expr} (h : t ∈ e.args) {s : Sym} (hs : s ∈ t.free) : s ∈ e.free := by
  cases e with
  | num q => cases h
  | I => cases h
  | sym x => cases h
  | add l => simp only [Expr.args] at h; simp only [Expr.free]; exact Expr.mem_freeL.2 ⟨t, h, hs⟩
  | mul l => simp only [Expr.args] at h; simp only [Expr.free]; exact Expr.mem_freeL.2 ⟨t, h, hs⟩
  | pow b n =>
    simp only [Expr.args, List.mem_cons, List.not_mem_nil, or_false] at h
    rcases h with rfl | rfl
    · simpa [Expr.free] using hs
    · simp [Expr.free] at hs
  | cos e =>
    simp only [Expr.args, List.mem_cons, List.not_mem_nil, or_false] at h
    subst h; simpa [Expr.free] using hs
  | sin e =>
    simp only [Expr.args, List.mem_cons, List.not_mem_nil, or_false] at h
    subst h; simpa [Expr.free] using hs

theorem free_coeff_product (S : Sympy) {l : List Expr} {v : PyObj} (hv : v.syms = []) {s : Sym}
    (h : s ∈ (S.norm (.mul (l.filter (fun a => !hasPhi a) ++ [v.sympify S]))).free) :
    ∃ t ∈ l, s ∈ t.free ∧ s ≠ phi := by
  have h1 := S.free_norm _ _ h
  simp only [Expr.free] at h1
  obtain ⟨t, ht, hs⟩ := Expr.mem_freeL.1 h1
  rcases List.mem_append.1 ht with ht | ht
  · obtain ⟨h2, h3⟩ := List.mem_filter.1 ht
    refine ⟨t, h2, hs, ?_⟩
    rintro rfl
    simp [hasPhi, hs] at h3
  · rw [List.mem_singleton] at ht
    subst ht
    have := PyObj.free_sympify S v hs
    rw [hv] at this
    cases this

theorem pyGet_mem {α : Type} {l : List α} {i : ℤ} {v : α} (h : pyGet l i = .ok v) : v ∈ l := by
  unfold pyGet at h
  repeat' split at h
  all_goals cases h
  all_goals exact List.mem_of_getElem? ‹_›

theorem relevant_closed {n : ℤ} {rel : Dict (ℕ × ℕ) PyObj} (h : relevantCodes n = .ok rel) {c : ℕ × ℕ} {v : PyObj}
    (hv : Dict.get rel c = .ok v) : v.syms = [] := by
  have hf := Dict.mapValsM_ok h
  have hm := Dict.mem_of_get? (Dict.get_ok_iff.1 hv)
  clear h hv
  have : ∃ p ∈ Lookup.table, pyGet p.2 (n2i n 16) = .ok v := by
    generalize Lookup.table = tb at hf
    induction hf with
    | nil => cases hm
    | @cons p q d d' h1 _ ih =>
      rcases List.mem_cons.1 hm with rfl | hm
      · exact ⟨p, List.mem_cons_self, h1.2⟩
      · obtain ⟨p', hp', h2⟩ := ih hm
        exact ⟨p', List.mem_cons_of_mem _ hp', h2⟩
  obtain ⟨p, hp, h2⟩ := this
  exact Lookup.closed p hp v (pyGet_mem h2)

theorem mapM_mem {α β : Type} {f : α → Except Err β} {l : List α} {bs : List β} (h : l.mapM f = .ok bs) {b : β}
    (hb : b ∈ bs) : ∃ a ∈ l, f a = .ok b := by
  induction l generalizing bs with
  | nil => cases h; cases hb
  | cons a l ih =>
    rw [List.mapM_cons] at h
    cases ha : f a with
    | error e => rw [ha] at h; cases h
    | ok b' =>
      rw [ha, ok_bind] at h
      cases hr : l.mapM f with
      | error e => rw [hr] at h; cases h
      | ok bs' =>
        rw [hr] at h
        have := Except.ok.inj h
        subst this
        rcases List.mem_cons.1 hb with rfl | hb
        · exact ⟨a, List.mem_cons_self, ha⟩
        · obtain ⟨a', h1, h2⟩ := ih hr hb
          exact ⟨a', List.mem_cons_of_mem _ h1, h2⟩

/-- The transform contains only symbols of the formula, and not `phi`. -/
theorem fourierTransform_free (S : Sympy) {e : Expr} {n : ℤ} {o : PyObj} (h : fourierTransform S e n = .ok o) {s : Sym}
    (hs : s ∈ o.syms) : s ∈ e.free ∧ s ≠ phi := by
  by_cases hphi : hasPhi e = false
  · rw [fourierTransform_const S (hasPhi_false.1 hphi)] at h
    have hn := hasPhi_false.1 hphi
    have := Except.ok.inj h
    subst this
    by_cases h0 : n = 0
    · simp only [h0, if_true, PyObj.syms] at hs
      exact ⟨hs, fun h => hn (h ▸ hs)⟩
    · simp [h0, PyObj.syms] at hs
  · have hphi : hasPhi e = true := by simpa using hphi
    cases hadd : isAdd e with
    | true =>
      rw [fourierTransform_sum_eq S hadd hphi] at h
      cases hrel : relevantCodes n with
      | error e' => rw [hrel] at h; cases h
      | ok rel =>
        rw [hrel, ok_bind] at h
        cases hm : e.args.mapM (transformArg S rel) with
        | error e' => rw [hm] at h; cases h
        | ok rs =>
          rw [hm, ok_bind] at h
          have := Except.ok.inj h
          subst this
          simp only [PyObj.syms] at hs
          have h1 := S.free_norm _ _ hs
          simp only [Expr.free] at h1
          obtain ⟨r, hr, hsr⟩ := Expr.mem_freeL.1 h1
          obtain ⟨t, ht, htr⟩ := mapM_mem hm hr
          have htr' : (mappingGet rel (t.args.filter hasPhi) >>= fun v =>
            (Except.ok (S.norm (.mul (t.args.filter (fun a => !hasPhi a) ++ [v.sympify S]))) : Except Err Expr)) = .ok r := htr
          cases hmg : mappingGet rel (t.args.filter hasPhi) with
          | error e' => rw [hmg] at htr'; cases htr'
          | ok v =>
            rw [hmg, ok_bind] at htr'
            have := Except.ok.inj htr'
            subst this
            have hv : v.syms = [] := by
              unfold mappingGet at hmg
              split at hmg
              · cases hmg
              · exact relevant_closed hrel hmg
            obtain ⟨u, hu, hsu, hne⟩ := free_coeff_product S hv hsr
            exact ⟨Expr.free_args ht (Expr.free_args hu hsu), hne⟩
    | false =>
      rw [fourierTransform_single_eq S hadd hphi] at h
      cases hg : Dict.get Lookup.table (getCode (keyterm e)) with
      | error e' => rw [hg] at h; cases h
      | ok row =>
        rw [hg, ok_bind] at h
        cases hv : pyGet row (n2i n 16) with
        | error e' => rw [hv] at h; cases h
        | ok v =>
          rw [hv, ok_bind] at h
          split at h
          · have := Except.ok.inj h
            subst this
            simp only [PyObj.syms] at hs
            have hv : v.syms = [] := Lookup.closed _ (Dict.mem_of_get? (Dict.get_ok_iff.1 hg)) v (pyGet_mem hv)
            cases e with
            | mul l =>
              obtain ⟨u, hu, hsu, hne⟩ := free_coeff_product S (l := l) hv hs
              exact ⟨Expr.free_args (e := .mul l) hu hsu, hne⟩
            | _ =>
              exfalso
              obtain ⟨u, hu, _⟩ := free_coeff_product S (l := []) hv hs
              cases hu
          · have := Except.ok.inj h
            subst this
            cases hs

/-- Among the 33 components of a transform there is always one that is a sympy expression. -/
theorem fourierTransform_symbolic (S : Sympy) {e : Expr} {g : ℤ → PyObj}
    (h : ∀ n ∈ freqs 16, fourierTransform S e n = .ok (g n)) : ∃ n ∈ freqs 16, (g n).isNative = false := by
  have h0 : (0 : ℤ) ∈ freqs 16 := mem_freqs.2 (by omega)
  by_cases hphi : hasPhi e = false
  · refine ⟨0, h0, ?_⟩
    have := h 0 h0
    rw [fourierTransform_const S (hasPhi_false.1 hphi)] at this
    rw [← Except.ok.inj this]
    rfl
  · have hphi : hasPhi e = true := by simpa using hphi
    cases hadd : isAdd e with
    | true =>
      refine ⟨0, h0, ?_⟩
      have h := h 0 h0
      rw [fourierTransform_sum_eq S hadd hphi] at h
      cases hrel : relevantCodes 0 with
      | error e' => rw [hrel] at h; cases h
      | ok rel =>
        rw [hrel, ok_bind] at h
        cases hm : e.args.mapM (transformArg S rel) with
        | error e' => rw [hm] at h; cases h
        | ok rs =>
          rw [hm, ok_bind] at h
          rw [← Except.ok.inj h]
          rfl
    | false =>
      cases hg : Dict.get Lookup.table (getCode (keyterm e)) with
      | error e' =>
        have h := h 0 h0
        rw [fourierTransform_single_eq S hadd hphi, hg] at h
        cases h
      | ok row =>
        have hrow := Dict.mem_of_get? (Dict.get_ok_iff.1 hg)
        have hlen := (Lookup.rows_ok _ hrow).2
        obtain ⟨o, ho, hz⟩ := Lookup.nonzero _ hrow
        obtain ⟨i, hi, rfl⟩ := List.getElem_of_mem ho
        simp only at hlen hi
        have hn : (-16 : ℤ) ≤ (i : ℤ) - 16 ∧ (i : ℤ) - 16 ≤ 16 := by omega
        have hmem : ((i : ℤ) - 16) ∈ freqs 16 := mem_freqs.2 (by omega)
        refine ⟨_, hmem, ?_⟩
        have h := h _ hmem
        obtain ⟨v, hv, hv'⟩ := pyGet_33 hlen hn
        have : ((i : ℤ) - 16 + 16).toNat = i := by omega
        rw [this, List.getElem?_eq_getElem hi] at hv'
        have := Option.some.inj hv'
        rw [fourierTransform_single_eq S hadd hphi, hg, ok_bind, hv, ok_bind, ← this, if_pos hz] at h
        rw [← Except.ok.inj h]
        rfl

/-- The container made by `form_to_fform(form)` is symbolic, and its symbols are symbols of the form other than
`phi`. -/
theorem formToFform_symbols (S : Sympy) {form : FormContainer} (hf : Dict.WF form.form) {c : FFormContainer}
    (h : formToFform S form 16 = .ok c) :
    c.Good ∧ c.M = 16 ∧ (∀ it ∈ c.fform, it.2.isNative = false) ∧ ∀ s, FOccurs c s → Occurs form s ∧ s ≠ phi := by
  have hall := formToFform_ok_all S h
  obtain ⟨g, hg⟩ := choose_values hall
  have e1 := formToFform_ok S hf g hg
  rw [h] at e1
  have hc := Except.ok.inj e1
  have hgood : c.Good := by
    subst hc
    refine ⟨by simpa [Dict.WF] using hf, ?_⟩
    rintro ⟨k, a⟩ hit
    simp only at hit
    obtain ⟨e, he, rfl⟩ := Dict.mem_mapVals.1 hit
    rw [FFormContainer.length_fformArray]
    simp [length_freqs]
  have hnat : ∀ it ∈ c.fform, it.2.isNative = false := by
    rintro ⟨k, a⟩ hit
    subst hc
    simp only at hit
    obtain ⟨e, he, rfl⟩ := Dict.mem_mapVals.1 hit
    obtain ⟨n, hn, hs⟩ := fourierTransform_symbolic S (hg (k, e) he)
    unfold fformArray
    rw [if_neg]
    · rfl
    · rw [List.all_eq_true]
      intro hcon
      have := hcon (g e n) (List.mem_map.2 ⟨n, hn, rfl⟩)
      rw [hs] at this
      cases this
  refine ⟨hgood, by rw [hc], hnat, fun s hs => ?_⟩
  obtain ⟨k, v, e', h1, h2, h3⟩ := FFormContainer.occurs_mem hgood hnat hs
  subst hc
  simp only at h1
  obtain ⟨e, he, hv⟩ := Dict.mem_mapVals.1 h1
  have hmem : PyObj.sy e' ∈ (fformArray S ((freqs 16).map (g e))).objs := by
    rw [hv]
    exact List.mem_map.2 ⟨e', h2, rfl⟩
  have : ∃ n ∈ freqs 16, s ∈ (g e n).syms := by
    unfold fformArray at hmem
    split at hmem
    · simp [FArr.objs] at hmem
    · simp only [FArr.objs, List.map_map, List.mem_map] at hmem
      obtain ⟨n, hn, heq⟩ := hmem
      refine ⟨n, hn, PyObj.free_sympify S _ ?_⟩
      simp only [Function.comp, PyObj.sy.injEq] at heq
      rw [heq]
      exact h3
  obtain ⟨n, hn, hsn⟩ := this
  obtain ⟨h4, h5⟩ := fourierTransform_free S (hg (k, e) he n hn) hsn
  refine ⟨⟨k, e, ?_, h4⟩, h5⟩
  unfold FormContainer.getPc
  rw [Dict.get_ok_iff, Dict.get?_eq_some_iff hf]
  exact he

end Shgpy
