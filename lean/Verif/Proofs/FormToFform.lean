import Verif.Proofs.FourierTransform
import Verif.Proofs.Convert

/-!
# Proofs about `form_to_fform` and `fform_to_form` on containers
-/

set_option linter.unusedSectionVars false
set_option linter.unusedSimpArgs false

namespace Shgpy
open Spec

theorem fformArray_values (S : Sympy) (v : List PyObj) (σ : Valuation) :
    (fformArray S v).objs.map (objValue σ) = v.map (objValue σ) := by
  unfold fformArray
  split
  · rename_i h
    rw [List.all_eq_true] at h
    simp only [FArr.objs, List.map_map]
    apply List.map_congr_left
    intro o ho
    have := h o ho
    cases o with
    | native re im => rfl
    | sy e => cases this
  · simp only [FArr.objs, List.map_map]
    apply List.map_congr_left
    intro o _
    simp only [Function.comp, objValue]
    exact PyObj.eval_sympify S σ o

theorem component_fformArray {S : Sympy} {v : List PyObj} {M : ℕ} {m : ℤ} {o : PyObj}
    (h : Component v M m o) : ∃ o', Component (fformArray S v).objs M m o' ∧ ∀ σ, objValue σ o' = objValue σ o := by
  obtain ⟨hm, ho⟩ := h
  have hlen : (m + M).toNat < (fformArray S v).objs.length := by
    rw [FFormContainer.length_fformArray]
    exact (List.getElem?_eq_some_iff.1 ho).1
  refine ⟨(fformArray S v).objs[(m + M).toNat], ⟨hm, List.getElem?_eq_getElem hlen⟩, fun σ => ?_⟩
  have h1 := congrArg (fun l => l[(m + M).toNat]?) (fformArray_values S v σ)
  simp only [List.getElem?_map, ho, List.getElem?_eq_getElem hlen, Option.map_some, Option.some.injEq] at h1
  exact h1

theorem component_freqs_map {α : Type} (g : ℤ → α) {M : ℕ} {m : ℤ} (hm : -(M : ℤ) ≤ m ∧ m ≤ M) :
    Component ((freqs M).map g) M m (g m) := by
  refine ⟨hm, ?_⟩
  rw [List.getElem?_map, getElem?_freqs (by omega)]
  simp only [Option.map_some, Option.some.injEq]
  congr 1
  omega

theorem ffInit_items (S : Sympy) {d : Dict Key (List PyObj)} {M : ℕ} (hd : Dict.WF d)
    (hlen : ∀ it ∈ d, it.2.length = 2 * M + 1) :
    FFormContainer.init S (d.map (fun kv => (.str kv.1, .objArr kv.2))) M =
      .ok ⟨d.mapVals (fformArray S), M⟩ := by
  rw [FFormContainer.init_ok_iff]
  refine ⟨d, ?_, rfl⟩
  rw [Dict.ofPairs_of_nodup (FormContainer.str_map_nodup hd _)]
  apply FFormContainer.checkFFIterable_of_forall₂
  rw [List.forall₂_map_left_iff, List.forall₂_same]
  intro it hit
  exact ⟨rfl, by simp [checkFFVal, hlen it hit]⟩

theorem formToFform_ok (S : Sympy) {form : FormContainer} (hf : Dict.WF form.form) {M : ℕ} (g : Expr → ℤ → PyObj)
    (h : ∀ it ∈ form.form, ∀ m ∈ freqs M, fourierTransform S it.2 m = .ok (g it.2 m)) :
    formToFform S form M =
      .ok ⟨form.form.mapVals (fun e => fformArray S ((freqs M).map (g e))), M⟩ := by
  unfold formToFform
  have hl : form.getItems.foldlM (fun (it : Dict Key RawFF) kv => do
      let a ← fillFreqs M (PyObj.native 0 0) (2 * M + 1) (fun m => fourierTransform S kv.2 m)
      return Dict.set it kv.1 (.objArr a)) [] =
      .ok (form.form.map (fun kv => (kv.1, RawFF.objArr ((freqs M).map (g kv.2))))) := by
    have := foldlM_set_kv (fun kv : Key × Expr => do
        let a ← fillFreqs M (PyObj.native 0 0) (2 * M + 1) (fun m => fourierTransform S kv.2 m)
        return RawFF.objArr a) (fun kv => RawFF.objArr ((freqs M).map (g kv.2))) form.form [] (by simpa [Dict.WF] using hf)
      (fun it hit => by rw [fillFreqs_ok (h it hit)]; rfl)
    simpa [bind_assoc, FormContainer.getItems] using this
  rw [hl]
  have := ffInit_items S (d := form.form.mapVals (fun e => (freqs M).map (g e))) (M := M)
    (by simpa [Dict.WF] using hf) (by
      intro it hit
      obtain ⟨k, b⟩ := it
      obtain ⟨a, _, rfl⟩ := Dict.mem_mapVals.1 hit
      simp [length_freqs])
  show FFormContainer.init S ((form.form.map (fun kv => (kv.1, RawFF.objArr ((freqs M).map (g kv.2))))).map
    (fun kv => (.str kv.1, kv.2))) M = _
  simp only [Dict.mapVals, List.map_map] at this ⊢
  exact this

theorem formToFform_rep (S : Sympy) {form : FormContainer} {M : ℕ} {g : Expr → ℤ → PyObj} {k : Key} {e : Expr}
    (hk : form.getPc k = .ok e) {m : ℤ} (hm : -(M : ℤ) ≤ m ∧ m ≤ M) :
    FRepresents ⟨form.form.mapVals (fun e => fformArray S ((freqs M).map (g e))), M⟩ k m
      (fun σ => objValue σ (g e m)) := by
  obtain ⟨o', h1, h2⟩ := component_fformArray (S := S) (component_freqs_map (g e) hm)
  refine ⟨_, o', ?_, h1, h2⟩
  unfold FFormContainer.getPc
  rw [Dict.get_ok_iff, Dict.get?_mapVals, Dict.get_ok_iff.1 hk]
  rfl

/-- `FRepresents` determines the function. -/
theorem FRepresents.unique {c : FFormContainer} {k : Key} {m : ℤ} {f g : Valuation → ℂ}
    (hf : FRepresents c k m f) (hg : FRepresents c k m g) : f = g := by
  obtain ⟨a, o, h1, h2, h3⟩ := hf
  obtain ⟨a', o', h1', h2', h3'⟩ := hg
  rw [h1] at h1'
  have := Except.ok.inj h1'
  subst this
  have : o = o' := Option.some.inj (h2.2.symm.trans h2'.2)
  subst this
  funext σ
  rw [← h3, h3']

theorem Represents.unique {c : FormContainer} {k : Key} {f g : Valuation → ℂ}
    (hf : Represents c k f) (hg : Represents c k g) : f = g := by
  obtain ⟨e, h1, h2⟩ := hf
  obtain ⟨e', h1', h2'⟩ := hg
  rw [h1] at h1'
  have := Except.ok.inj h1'
  subst this
  funext σ
  rw [← h2, h2']

/-! ### How the transform fails -/

theorem transformArg_error (S : Sympy) {rel : Dict (ℕ × ℕ) PyObj} {t : Expr} {err : Err}
    (h : transformArg S rel t = .error err) : err = .keyError := by
  have h' : (mappingGet rel (t.args.filter hasPhi) >>= fun v =>
    (Except.ok (S.norm (.mul (t.args.filter (fun a => !hasPhi a) ++ [v.sympify S]))) : Except Err Expr)) = .error err := h
  cases hm : mappingGet rel (t.args.filter hasPhi) with
  | ok v => rw [hm] at h'; cases h'
  | error e' =>
    rw [hm] at h'
    cases h'
    unfold mappingGet at hm
    split at hm
    · cases hm; rfl
    · unfold Dict.get at hm
      split at hm
      · cases hm
      · cases hm; rfl

/-- Whether the lookup of a summand fails does not depend on the frequency. -/
theorem mappingGet_indep {n n' : ℤ} (hn : -16 ≤ n ∧ n ≤ 16) (hn' : -16 ≤ n' ∧ n' ≤ 16)
    {rel rel' : Dict (ℕ × ℕ) PyObj} (h : relevantCodes n = .ok rel) (h' : relevantCodes n' = .ok rel') (l : List Expr)
    {v : PyObj} (hv : mappingGet rel l = .ok v) : ∃ v', mappingGet rel' l = .ok v' := by
  obtain ⟨r1, e1, f1, g1⟩ := relevantCodes_ok hn
  obtain ⟨r2, e2, f2, g2⟩ := relevantCodes_ok hn'
  rw [h] at e1; rw [h'] at e2
  have := Except.ok.inj e1; subst this
  have := Except.ok.inj e2; subst this
  unfold mappingGet at hv ⊢
  cases hc : monoCode l with
  | none => rw [hc] at hv; cases hv
  | some c =>
    rw [hc] at hv
    obtain ⟨a, b⟩ := c
    by_cases hab : a + b ≤ 8
    · obtain ⟨v', hv', _⟩ := f2 a b hab
      exact ⟨v', hv'⟩
    · simp only at hv
      rw [g1 a b hab] at hv
      cases hv

theorem mapM_indep {α β : Type} {f f' : α → Except Err β} {l : List α}
    (h : ∀ a ∈ l, ∀ b, f a = .ok b → ∃ b', f' a = .ok b') {bs : List β} (hl : l.mapM f = .ok bs) :
    ∃ bs', l.mapM f' = .ok bs' := by
  induction l generalizing bs with
  | nil => exact ⟨[], rfl⟩
  | cons a l ih =>
    rw [List.mapM_cons] at hl
    cases ha : f a with
    | error e => rw [ha] at hl; cases hl
    | ok b =>
      rw [ha] at hl
      cases hr : l.mapM f with
      | error e => rw [hr] at hl; cases hl
      | ok bs1 =>
        obtain ⟨b', hb'⟩ := h a List.mem_cons_self b ha
        obtain ⟨bs', hbs'⟩ := ih (fun a ha => h a (List.mem_cons_of_mem _ ha)) hr
        exact ⟨b' :: bs', by rw [List.mapM_cons, hb', hbs']; rfl⟩

theorem mapM_err {α β : Type} {f : α → Except Err β} {l : List α} {e : Err} (h : l.mapM f = .error e) :
    ∃ a ∈ l, f a = .error e := by
  induction l with
  | nil => cases h
  | cons a l ih =>
    rw [List.mapM_cons] at h
    cases ha : f a with
    | error e' => rw [ha] at h; cases h; exact ⟨a, List.mem_cons_self, ha⟩
    | ok b =>
      rw [ha] at h
      cases hr : l.mapM f with
      | error e' =>
        rw [hr] at h; cases h
        obtain ⟨a', h1, h2⟩ := ih hr
        exact ⟨a', List.mem_cons_of_mem _ h1, h2⟩
      | ok bs => rw [hr] at h; cases h

theorem transformArg_indep (S : Sympy) {n n' : ℤ} (hn : -16 ≤ n ∧ n ≤ 16) (hn' : -16 ≤ n' ∧ n' ≤ 16)
    {rel rel' : Dict (ℕ × ℕ) PyObj} (h : relevantCodes n = .ok rel) (h' : relevantCodes n' = .ok rel') (t : Expr)
    {r : Expr} (hr : transformArg S rel t = .ok r) : ∃ r', transformArg S rel' t = .ok r' := by
  have e1 : (mappingGet rel (t.args.filter hasPhi) >>= fun v =>
    (Except.ok (S.norm (.mul (t.args.filter (fun a => !hasPhi a) ++ [v.sympify S]))) : Except Err Expr)) = .ok r := hr
  cases hm : mappingGet rel (t.args.filter hasPhi) with
  | error e' => rw [hm] at e1; cases e1
  | ok v =>
    obtain ⟨v', hv'⟩ := mappingGet_indep hn hn' h h' _ hm
    refine ⟨S.norm (.mul (t.args.filter (fun a => !hasPhi a) ++ [v'.sympify S])), ?_⟩
    show (mappingGet rel' (t.args.filter hasPhi) >>= fun v => _) = _
    rw [hv']
    rfl

theorem fourierTransform_sum_eq (S : Sympy) {e : Expr} (hadd : isAdd e = true) (hphi : hasPhi e = true) (n : ℤ) :
    fourierTransform S e n = (relevantCodes n >>= fun rel => e.args.mapM (transformArg S rel) >>= fun args =>
      Except.ok (PyObj.sy (S.norm (.add args)))) := by
  unfold fourierTransform
  rw [if_pos (Or.inl hadd), if_neg (by simp [hphi])]
  rfl

theorem fourierTransform_single_eq (S : Sympy) {e : Expr} (hadd : isAdd e = false) (hphi : hasPhi e = true) (n : ℤ) :
    fourierTransform S e n = (Dict.get Lookup.table (getCode (keyterm e)) >>= fun row => pyGet row (n2i n 16) >>= fun v =>
      if v.isZero = false then Except.ok (PyObj.sy (S.norm (.mul (quotientArgs e ++ [v.sympify S]))))
      else Except.ok (PyObj.native 0 0)) := by
  unfold fourierTransform
  rw [if_neg (by simp [hadd, hphi])]
  rfl

/-- Whether the transform fails does not depend on the frequency. -/
theorem fourierTransform_indep (S : Sympy) {n n' : ℤ} (hn : -16 ≤ n ∧ n ≤ 16) (hn' : -16 ≤ n' ∧ n' ≤ 16) (e : Expr)
    {o : PyObj} (h : fourierTransform S e n = .ok o) : ∃ o', fourierTransform S e n' = .ok o' := by
  by_cases hphi : hasPhi e = false
  · exact ⟨_, fourierTransform_const S (hasPhi_false.1 hphi) n'⟩
  · have hphi : hasPhi e = true := by simpa using hphi
    cases hadd : isAdd e with
    | true =>
      rw [fourierTransform_sum_eq S hadd hphi] at h ⊢
      obtain ⟨rel, hrel, _⟩ := relevantCodes_ok hn
      obtain ⟨rel', hrel', _⟩ := relevantCodes_ok hn'
      rw [hrel] at h
      rw [hrel']
      cases hm : e.args.mapM (transformArg S rel) with
      | error e' =>
        have h' : (e.args.mapM (transformArg S rel) >>= fun args => Except.ok (PyObj.sy (S.norm (.add args)))) = .ok o := h
        rw [hm] at h'; cases h'
      | ok rs =>
        obtain ⟨rs', hrs'⟩ := mapM_indep (fun t _ r hr => transformArg_indep S hn hn' hrel hrel' t hr) hm
        refine ⟨PyObj.sy (S.norm (.add rs')), ?_⟩
        show (e.args.mapM (transformArg S rel') >>= fun args => Except.ok (PyObj.sy (S.norm (.add args)))) = _
        rw [hrs']
        rfl
    | false =>
      rw [fourierTransform_single_eq S hadd hphi] at h ⊢
      cases hg : Dict.get Lookup.table (getCode (keyterm e)) with
      | error e' => rw [hg] at h; cases h
      | ok row =>
        have hlen := (Lookup.rows_ok _ (Dict.mem_of_get? (Dict.get_ok_iff.1 hg))).2
        obtain ⟨v, hv, _⟩ := pyGet_33 hlen hn'
        have hb : (Except.ok row >>= fun row => pyGet row (n2i n' 16) >>= fun v =>
            if v.isZero = false then Except.ok (PyObj.sy (S.norm (.mul (quotientArgs e ++ [v.sympify S]))))
            else Except.ok (PyObj.native 0 0)) = (pyGet row (n2i n' 16) >>= fun v =>
            if v.isZero = false then Except.ok (PyObj.sy (S.norm (.mul (quotientArgs e ++ [v.sympify S]))))
            else Except.ok (PyObj.native 0 0) : Except Err PyObj) := rfl
        rw [hb, hv]
        have hb' : (Except.ok v >>= fun v =>
            if v.isZero = false then Except.ok (PyObj.sy (S.norm (.mul (quotientArgs e ++ [v.sympify S]))))
            else Except.ok (PyObj.native 0 0)) = (
            if v.isZero = false then Except.ok (PyObj.sy (S.norm (.mul (quotientArgs e ++ [v.sympify S]))))
            else Except.ok (PyObj.native 0 0) : Except Err PyObj) := rfl
        rw [hb']
        split
        · exact ⟨_, rfl⟩
        · exact ⟨_, rfl⟩

/-- The only exceptions are `KeyError` and `IndexError`. -/
theorem fourierTransform_error (S : Sympy) (e : Expr) (n : ℤ) {err : Err} (h : fourierTransform S e n = .error err) :
    err = .keyError ∨ err = .indexError := by
  have hpy : ∀ {α : Type} (l : List α) (i : ℤ) (err : Err), pyGet l i = .error err → err = .indexError := by
    intro α l i err h
    unfold pyGet at h
    repeat' split at h
    all_goals first | cases h; rfl | cases h
  by_cases hphi : hasPhi e = false
  · rw [fourierTransform_const S (hasPhi_false.1 hphi)] at h; cases h
  · have hphi : hasPhi e = true := by simpa using hphi
    cases hadd : isAdd e with
    | true =>
      rw [fourierTransform_sum_eq S hadd hphi] at h
      cases hrel : relevantCodes n with
      | error e' =>
        rw [hrel] at h
        cases h
        obtain ⟨it, _, he⟩ := Dict.mapValsM_error hrel
        exact Or.inr (hpy _ _ _ he)
      | ok rel =>
        rw [hrel] at h
        have h' : (e.args.mapM (transformArg S rel) >>= fun args =>
          Except.ok (PyObj.sy (S.norm (.add args)))) = .error err := h
        cases hm : e.args.mapM (transformArg S rel) with
        | ok rs => rw [hm] at h'; cases h'
        | error e' =>
          rw [hm] at h'
          cases h'
          obtain ⟨t, _, ht⟩ := mapM_err hm
          exact Or.inl (transformArg_error S ht)
    | false =>
      rw [fourierTransform_single_eq S hadd hphi] at h
      cases hg : Dict.get Lookup.table (getCode (keyterm e)) with
      | error e' =>
        rw [hg] at h
        cases h
        unfold Dict.get at hg
        split at hg
        · cases hg
        · cases hg; exact Or.inl rfl
      | ok row =>
        rw [hg] at h
        have h' : (pyGet row (n2i n 16) >>= fun v =>
          if v.isZero = false then Except.ok (PyObj.sy (S.norm (.mul (quotientArgs e ++ [v.sympify S]))))
          else Except.ok (PyObj.native 0 0)) = .error err := h
        cases hv : pyGet row (n2i n 16) with
        | error e' => rw [hv] at h'; cases h'; exact Or.inr (hpy _ _ _ hv)
        | ok v =>
          rw [hv] at h'
          have h'' : (if v.isZero = false then Except.ok (PyObj.sy (S.norm (.mul (quotientArgs e ++ [v.sympify S]))))
            else Except.ok (PyObj.native 0 0)) = .error err := h'
          split at h'' <;> cases h''

/-- Above frequency 16 the transform of a formula in `phi` fails. -/
theorem fourierTransform_17 (S : Sympy) {e : Expr} (hphi : phi ∈ e.free) :
    ∃ err, fourierTransform S e 17 = .error err := by
  have hphi : hasPhi e = true := hasPhi_iff.2 hphi
  have hp : ∀ {α : Type} (l : List α), l.length = 33 → pyGet l (n2i 17 16) = .error .indexError := by
    intro α l hl
    unfold pyGet n2i
    rw [if_pos (by norm_num), List.getElem?_eq_none (by rw [hl]; decide)]
  cases h : fourierTransform S e 17 with
  | error err => exact ⟨err, rfl⟩
  | ok o =>
    exfalso
    cases hadd : isAdd e with
    | true =>
      rw [fourierTransform_sum_eq S hadd hphi] at h
      cases hrel : relevantCodes 17 with
      | error e' => rw [hrel] at h; cases h
      | ok rel =>
        obtain ⟨r, hr, hlen, _⟩ := Lookup.get_table (a := 0) (b := 0) (by omega)
        obtain ⟨w, hw, _⟩ := (mapValsM_get? hrel (0, 0)).1 r hr
        rw [hp r hlen] at hw
        cases hw
    | false =>
      rw [fourierTransform_single_eq S hadd hphi] at h
      cases hg : Dict.get Lookup.table (getCode (keyterm e)) with
      | error e' => rw [hg] at h; cases h
      | ok row =>
        have hlen := (Lookup.rows_ok _ (Dict.mem_of_get? (Dict.get_ok_iff.1 hg))).2
        rw [hg] at h
        have h' : (pyGet row (n2i 17 16) >>= fun v =>
          if v.isZero = false then Except.ok (PyObj.sy (S.norm (.mul (quotientArgs e ++ [v.sympify S]))))
          else Except.ok (PyObj.native 0 0)) = .ok o := h
        rw [hp row hlen] at h'
        cases h'

theorem pyGet_error {α : Type} {l : List α} {i : ℤ} {err : Err} (h : pyGet l i = .error err) : err = .indexError := by
  unfold pyGet at h
  repeat' split at h
  all_goals first | cases h; rfl | cases h

/-- On supported formulas only `IndexError` can occur, whatever the frequency. -/
theorem fourierTransform_supported_error (S : Sympy) {e : Expr} (h : Supported e) (n : ℤ) {err : Err}
    (he : fourierTransform S e n = .error err) : err = .indexError := by
  by_cases hphi : hasPhi e = false
  · rw [fourierTransform_const S (hasPhi_false.1 hphi)] at he; cases he
  · have hphi : hasPhi e = true := by simpa using hphi
    have single : ∀ a b, isAdd e = false → getCode (keyterm e) = (a, b) → a + b ≤ 8 → err = .indexError := by
      intro a b hadd hcode hd
      obtain ⟨r, hr, hlen, _⟩ := Lookup.get_table hd
      rw [fourierTransform_single_eq S hadd hphi, hcode, Dict.get_ok_iff.2 hr] at he
      have h' : (pyGet r (n2i n 16) >>= fun v =>
          if v.isZero = false then Except.ok (PyObj.sy (S.norm (.mul (quotientArgs e ++ [v.sympify S]))))
          else Except.ok (PyObj.native 0 0)) = .error err := he
      cases hv : pyGet r (n2i n 16) with
      | error e' => rw [hv] at h'; cases h'; exact pyGet_error hv
      | ok v =>
        rw [hv] at h'
        have h'' : (if v.isZero = false then Except.ok (PyObj.sy (S.norm (.mul (quotientArgs e ++ [v.sympify S]))))
            else Except.ok (PyObj.native 0 0)) = .error err := h'
        split at h'' <;> cases h''
    cases h with
    | const hc => exact absurd (hasPhi_iff.1 hphi) hc
    | sum hs =>
      obtain ⟨ts, rfl, hts⟩ := hs
      rw [fourierTransform_sum_eq S rfl hphi] at he
      cases hrel : relevantCodes n with
      | error e' =>
        rw [hrel] at he
        cases he
        obtain ⟨it, _, he⟩ := Dict.mapValsM_error hrel
        exact pyGet_error he
      | ok rel =>
        rw [hrel] at he
        have h' : (ts.mapM (transformArg S rel) >>= fun args =>
          Except.ok (PyObj.sy (S.norm (.add args)))) = .error err := he
        cases hm : ts.mapM (transformArg S rel) with
        | ok rs => rw [hm] at h'; cases h'
        | error e' =>
          exfalso
          obtain ⟨t, ht, hte⟩ := mapM_err hm
          obtain ⟨l, a, b, rfl, hl, hd⟩ := hts t ht
          obtain ⟨r, hr, _⟩ := Lookup.get_table hd
          obtain ⟨v, _, hv⟩ := (mapValsM_get? hrel (a, b)).1 r hr
          have h2 : (mappingGet rel (l.filter hasPhi) >>= fun v =>
            (Except.ok (S.norm (.mul (l.filter (fun a => !hasPhi a) ++ [v.sympify S]))) : Except Err Expr)) = .error e' := hte
          have h3 : mappingGet rel (l.filter hasPhi) = .ok v := by
            unfold mappingGet
            rw [hl.code]
            exact Dict.get_ok_iff.2 hv
          rw [h3] at h2
          cases h2
    | @prod l a b hl hd h1 h2 => exact single a b rfl (hl.getCode h1 h2) hd
    | @cosPow k hk => exact single k 0 rfl rfl (by omega)
    | @sinPow k hk => exact single 0 k rfl rfl (by omega)

/-! ### Loops -/

theorem foldlM_ok_all {ι δ : Type} {body : δ → ι → Except Err δ} {P : ι → Prop}
    (hP : ∀ d i d', body d i = .ok d' → P i) {l : List ι} {d d' : δ} (h : l.foldlM body d = .ok d') :
    ∀ i ∈ l, P i := by
  induction l generalizing d with
  | nil => intro i hi; cases hi
  | cons a l ih =>
    rw [List.foldlM_cons] at h
    cases ha : body d a with
    | error e => rw [ha] at h; cases h
    | ok d1 =>
      rw [ha] at h
      intro i hi
      rcases List.mem_cons.1 hi with rfl | hi
      · exact hP _ _ _ ha
      · exact ih h i hi

theorem foldlM_err_some {ι δ : Type} {body : δ → ι → Except Err δ} {Q : ι → Err → Prop}
    (hQ : ∀ d i e, body d i = .error e → Q i e) {l : List ι} {d : δ} {e : Err} (h : l.foldlM body d = .error e) :
    ∃ i ∈ l, Q i e := by
  induction l generalizing d with
  | nil => cases h
  | cons a l ih =>
    rw [List.foldlM_cons] at h
    cases ha : body d a with
    | error e' => rw [ha] at h; cases h; exact ⟨a, List.mem_cons_self, hQ _ _ _ ha⟩
    | ok d1 =>
      rw [ha] at h
      obtain ⟨i, hi, hq⟩ := ih h
      exact ⟨i, List.mem_cons_of_mem _ hi, hq⟩

theorem fillFreqs_ok_all {α : Type} {M len : ℕ} {z : α} {rhs : ℤ → Except Err α} {l : List α}
    (h : fillFreqs M z len rhs = .ok l) : ∀ m ∈ freqs M, ∃ v, rhs m = .ok v := by
  refine foldlM_ok_all (P := fun m => ∃ v, rhs m = .ok v) ?_ h
  intro d m d' hb
  cases hr : rhs m with
  | error e => rw [hr] at hb; cases hb
  | ok v => exact ⟨v, rfl⟩

theorem fillFreqs_err {α : Type} {M len : ℕ} {z : α} {rhs : ℤ → Except Err α} {e : Err}
    (h : fillFreqs M z len rhs = .error e) : ∃ m ∈ freqs M, rhs m = .error e ∨ e = .indexError := by
  refine foldlM_err_some (Q := fun m e => rhs m = .error e ∨ e = .indexError) ?_ h
  intro d m e' hb
  cases hr : rhs m with
  | error e => rw [hr] at hb; cases hb; exact Or.inl rfl
  | ok v =>
    rw [hr] at hb
    have hb' : pySet d (n2i m M) v = .error e' := hb
    right
    unfold pySet at hb'
    repeat' split at hb'
    all_goals first | cases hb'; rfl | cases hb'

theorem formToFform_ok_all (S : Sympy) {form : FormContainer} {M : ℕ} {c : FFormContainer}
    (h : formToFform S form M = .ok c) : ∀ it ∈ form.form, ∀ m ∈ freqs M, ∃ o, fourierTransform S it.2 m = .ok o := by
  unfold formToFform at h
  cases hl : form.getItems.foldlM (fun (it : Dict Key RawFF) kv => do
      let a ← fillFreqs M (PyObj.native 0 0) (2 * M + 1) (fun m => fourierTransform S kv.2 m)
      return Dict.set it kv.1 (.objArr a)) [] with
  | error e => rw [hl] at h; cases h
  | ok d =>
    refine foldlM_ok_all (P := fun it : Key × Expr => ∀ m ∈ freqs M, ∃ o, fourierTransform S it.2 m = .ok o) ?_ hl
    intro d it d' hb
    cases hf : fillFreqs M (PyObj.native 0 0) (2 * M + 1) (fun m => fourierTransform S it.2 m) with
    | error e => rw [hf] at hb; cases hb
    | ok v => exact fillFreqs_ok_all hf

theorem choose_values {S : Sympy} {form : FormContainer} {M : ℕ}
    (h : ∀ it ∈ form.form, ∀ m ∈ freqs M, ∃ o, fourierTransform S it.2 m = .ok o) :
    ∃ g : Expr → ℤ → PyObj, ∀ it ∈ form.form, ∀ m ∈ freqs M, fourierTransform S it.2 m = .ok (g it.2 m) := by
  refine ⟨fun e m => match fourierTransform S e m with | .ok o => o | .error _ => .native 0 0, fun it hit m hm => ?_⟩
  obtain ⟨o, ho⟩ := h it hit m hm
  simp only [ho]

theorem formToFform_err (S : Sympy) {form : FormContainer} (hf : Dict.WF form.form) {M : ℕ} {e : Err}
    (h : formToFform S form M = .error e) :
    ∃ it ∈ form.form, ∃ m ∈ freqs M, fourierTransform S it.2 m = .error e ∨ e = .indexError := by
  have h0 := h
  unfold formToFform at h
  cases hl : form.getItems.foldlM (fun (it : Dict Key RawFF) kv => do
      let a ← fillFreqs M (PyObj.native 0 0) (2 * M + 1) (fun m => fourierTransform S kv.2 m)
      return Dict.set it kv.1 (.objArr a)) [] with
  | error e' =>
    rw [hl] at h
    cases h
    refine foldlM_err_some (Q := fun it e => ∃ m ∈ freqs M, fourierTransform S it.2 m = .error e ∨ e = .indexError) ?_ hl
    intro d it e' hb
    cases hfl : fillFreqs M (PyObj.native 0 0) (2 * M + 1) (fun m => fourierTransform S it.2 m) with
    | error e =>
      rw [hfl] at hb
      cases hb
      exact fillFreqs_err hfl
    | ok v => rw [hfl] at hb; cases hb
  | ok d =>
    exfalso
    have hall : ∀ it ∈ form.form, ∀ m ∈ freqs M, ∃ o, fourierTransform S it.2 m = .ok o := by
      refine foldlM_ok_all (P := fun it : Key × Expr => ∀ m ∈ freqs M, ∃ o, fourierTransform S it.2 m = .ok o) ?_ hl
      intro d it d' hb
      cases hf : fillFreqs M (PyObj.native 0 0) (2 * M + 1) (fun m => fourierTransform S it.2 m) with
      | error e => rw [hf] at hb; cases hb
      | ok v => exact fillFreqs_ok_all hf
    obtain ⟨g, hg⟩ := choose_values hall
    rw [formToFform_ok S hf g hg] at h0
    cases h0

/-! ### `fform_to_form` -/

theorem formulaFromFexpr_ok (S : Sympy) {t : FArr} {M : ℕ} (ht : t.objs.length = 2 * M + 1) :
    ∃ e, formulaFromFexpr S t M = .ok e ∧ (∀ σ, e.eval σ = ((freqs M).map (fun m : ℤ =>
      objValue σ (t.objs.getD (m + M).toNat (.native 0 0)) * Complex.exp (Complex.I * (m * σ phi)))).sum) ∧
      ∀ s ∈ e.free, s = phi ∨ ∃ o ∈ t.objs, s ∈ (o.sympify S).free := by
  have gen : ∀ (ms : List ℤ), (∀ m ∈ ms, m ∈ freqs M) → ∀ e₀ : Expr, ∃ e, ms.foldlM (fun expr m => do
      let o ← pyGet t.objs (n2i m M)
      return S.add expr (S.mul (o.sympify S) (FFormContainer.phaseFactor S (.sym phi) m))) e₀ = Except.ok (ε := Err) e ∧
      (∀ σ, e.eval σ = e₀.eval σ + (ms.map (fun m : ℤ =>
        objValue σ (t.objs.getD (m + M).toNat (.native 0 0)) * Complex.exp (Complex.I * (m * σ phi)))).sum) ∧
      ∀ s ∈ e.free, s ∈ e₀.free ∨ s = phi ∨ ∃ o ∈ t.objs, s ∈ (o.sympify S).free := by
    intro ms
    induction ms with
    | nil => intro _ e₀; exact ⟨e₀, rfl, fun σ => by simp, fun s hs => Or.inl hs⟩
    | cons m ms ih =>
      intro hms e₀
      obtain ⟨o, h1, h2⟩ := pyGet_n2i_ok ht (hms m List.mem_cons_self)
      obtain ⟨e, he, hv, hfr⟩ := ih (fun m' hm' => hms m' (List.mem_cons_of_mem _ hm'))
        (S.add e₀ (S.mul (o.sympify S) (FFormContainer.phaseFactor S (.sym phi) m)))
      refine ⟨e, ?_, fun σ => ?_, fun s hs => ?_⟩
      · rw [List.foldlM_cons, h1]
        exact he
      · rw [hv σ, S.eval_add, S.eval_mul, FFormContainer.eval_phaseFactor, PyObj.eval_sympify]
        rw [List.map_cons, List.sum_cons, List.getD_eq_getElem?_getD, h2]
        simp only [Option.getD_some, Expr.eval]
        ring
      · rcases hfr s hs with h | h
        · rcases S.free_add h with h | h
          · exact Or.inl h
          · rcases S.free_mul h with h | h
            · exact Or.inr (Or.inr ⟨o, List.mem_of_getElem? h2, h⟩)
            · refine Or.inr (Or.inl ?_)
              unfold FFormContainer.phaseFactor at h
              rcases S.free_add h with h | h
              · rcases S.free_mul (S.free_cos h) with h | h
                · simp [Expr.free] at h
                · simpa [Expr.free] using h
              · rcases S.free_mul h with h | h
                · simp [Expr.free] at h
                · rcases S.free_mul (S.free_sin h) with h | h
                  · simp [Expr.free] at h
                  · simpa [Expr.free] using h
        · exact Or.inr h
  obtain ⟨e, h1, h2, h3⟩ := gen (freqs M) (fun _ h => h) (.num 0)
  refine ⟨e, h1, fun σ => ?_, fun s hs => ?_⟩
  · rw [h2 σ]; simp [Expr.eval]
  · rcases h3 s hs with h | h
    · simp [Expr.free] at h
    · exact h

theorem fformToForm_ok (S : Sympy) {c : FFormContainer} (hc : c.Good) :
    ∃ f, fformToForm S c = .ok f ∧ f.getKeys = c.getKeys ∧ Dict.WF f.form ∧
      ∀ k a, c.getPc k = .ok a → ∃ e, f.getPc k = .ok e ∧ formulaFromFexpr S a c.M = .ok e := by
  let g : FArr → Expr := fun a => match formulaFromFexpr S a c.M with | .ok e => e | .error _ => .num 0
  have hg : ∀ it ∈ c.fform, formulaFromFexpr S it.2 c.M = .ok (g it.2) := by
    intro it hit
    obtain ⟨e, he, _⟩ := formulaFromFexpr_ok S (hc.len it hit)
    simp only [g, he]
  have hl : c.getItems.foldlM (fun (it : Dict Key PyObj) kv => do
      let e ← formulaFromFexpr S kv.2 c.getM
      return Dict.set it kv.1 (.sy e)) [] = .ok (c.fform.map (fun kv => (kv.1, PyObj.sy (g kv.2)))) := by
    have := foldlM_set_kv (fun kv : Key × FArr => do
        let e ← formulaFromFexpr S kv.2 c.getM
        return PyObj.sy e) (fun kv => PyObj.sy (g kv.2)) c.fform [] (by simpa [Dict.WF] using hc.wf)
      (fun it hit => by
        have := hg it hit
        show (formulaFromFexpr S it.2 c.M >>= fun e => Except.ok (PyObj.sy e)) = _
        rw [this]; rfl)
    simpa [bind_assoc, FFormContainer.getItems] using this
  have hwf : Dict.WF (c.fform.mapVals (fun a => PyObj.sy (g a))) := by
    have := hc.wf
    simpa [Dict.WF] using this
  refine ⟨⟨c.fform.mapVals g⟩, ?_, ?_, ?_, ?_⟩
  · unfold fformToForm
    rw [hl]
    have := FormContainer.init_of_wf S hwf
    simp only [Dict.mapVals_mapVals, PyObj.sympify] at this
    exact this
  · simp [FormContainer.getKeys, FFormContainer.getKeys]
  · have := hc.wf
    simpa [Dict.WF] using this
  · intro k a ha
    refine ⟨g a, ?_, hg (k, a) (hc.getPc_iff.1 ha)⟩
    unfold FormContainer.getPc
    rw [Dict.get_ok_iff, Dict.get?_mapVals, Dict.get_ok_iff.1 ha]
    rfl

end Shgpy
