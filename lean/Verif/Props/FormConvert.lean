import Verif.Proofs.FormToDat
import Verif.Props.FourierTransform

/-!
# Properties C29, C30: from formulas to data
-/

set_option linter.unusedSectionVars false
set_option linter.unusedSimpArgs false

namespace Shgpy
open Spec

/-- A dictionary of numbers has a valuation that agrees with it. -/
theorem exists_agrees {subs : Dict Sym Expr} (h : Numeric subs) : ∃ σ, Agrees σ subs := by
  refine ⟨fun s => match Dict.get? subs s with | some v => v.eval (fun _ => 0) | none => 0, fun s v hv => ?_⟩
  simp only [Dict.get_ok_iff.1 hv]
  exact Expr.eval_closed (h (s, v) (Dict.mem_of_get? (Dict.get_ok_iff.1 hv))) _ _

/-! ## C29 -/

/-- **C29.** With numbers for all symbols and `M = 16`, `fform_to_fdat` returns the values of the components. -/
theorem C29_values (S : Sympy) {c : FFormContainer} (hc : c.Reachable S) (hn : Symbolic c) (hM : c.getM = 16)
    {subs : Dict Sym Expr} (hs : Numeric subs) (hcov : ∀ s, FOccurs c s → s ∈ Dict.keys subs) :
    ∃ d, fformToFdat S c subs = .ok d ∧ d.Reachable ∧ d.getKeys = c.getKeys ∧ d.getM = 16 ∧
      ∀ σ, Agrees σ subs → ∀ k m f, FRepresents c k m f → ∃ v, d.getPc k = .ok v ∧ Component v 16 m (f σ) := by
  have hg := hc.good
  have hn' := (FFormContainer.symbolic_iff hg).1 hn
  obtain ⟨σ₀, hσ₀⟩ := exists_agrees hs
  refine ⟨_, fformToFdat_ok S hg hn' (Or.inl hM) hs hcov hσ₀, ?_, by simp [FDataContainer.getKeys, FFormContainer.getKeys],
    rfl, ?_⟩
  · refine ⟨(c.fform.mapVals (fun a => a.objs.map (objValue σ₀))).map (fun it => (.str it.1, .arr1 .complex128 it.2)), 16, _, [],
      FDataContainer.init_items .complex128 (Or.inr rfl) (by have := hg.wf; simpa [Dict.WF] using this) ?_, rfl⟩
    rintro ⟨k, v⟩ hit
    obtain ⟨a, ha, rfl⟩ := Dict.mem_mapVals.1 hit
    have := hg.len _ ha
    have hM' : c.M = 16 := hM
    rw [hM'] at this
    simpa using this
  · intro σ hσ k m f hr
    have h1 := fformToFdat_ok S hg hn' (Or.inl hM) hs hcov hσ₀
    have h2 := fformToFdat_ok S hg hn' (Or.inl hM) hs hcov hσ
    rw [h1] at h2
    rw [Except.ok.inj h2]
    obtain ⟨a, o, ha, ho, hv⟩ := hr
    refine ⟨a.objs.map (objValue σ), ?_, ?_⟩
    · unfold FDataContainer.getPc
      rw [Dict.get_ok_iff, Dict.get?_mapVals, Dict.get_ok_iff.1 ha]
      rfl
    · rw [hM] at ho
      have := component_map (objValue σ) ho
      rwa [hv] at this

/-- **C29.** `KeyError` is raised exactly when a number is missing for some symbol of the formulas. -/
theorem C29_missing_symbol (S : Sympy) {c : FFormContainer} (hc : c.Reachable S) (hn : Symbolic c)
    {subs : Dict Sym Expr} (hs : Numeric subs) :
    fformToFdat S c subs = .error .keyError ↔ ∃ s, FOccurs c s ∧ s ∉ Dict.keys subs := by
  have hg := hc.good
  have hn' := (FFormContainer.symbolic_iff hg).1 hn
  refine ⟨fun h => ?_, fun h => fformToFdat_keyError S hg hn' h⟩
  by_contra hcon
  have hcov : ∀ s, FOccurs c s → s ∈ Dict.keys subs := fun s h1 => by
    by_contra h2
    exact hcon ⟨s, h1, h2⟩
  obtain ⟨σ, hσ⟩ := exists_agrees hs
  by_cases hM : c.M = 16 ∨ c.fform = []
  · rw [fformToFdat_ok S hg hn' hM hs hcov hσ] at h
    cases h
  · rw [fformToFdat_M S hg hn' (fun h => hM (Or.inl h)) (fun h => hM (Or.inr h)) hcov] at h
    cases h

/-- **C29.** The result depends only on the numbers given to the symbols that occur: neither on the order of the
dictionary and of the substitution, nor on further entries, nor on how sympy evaluates. -/
theorem C29_independent (S S' : Sympy) {c : FFormContainer} (hc : c.Reachable S) (hn : Symbolic c)
    (hM : c.getM = 16) {subs subs' : Dict Sym Expr} (hs : Numeric subs) (hs' : Numeric subs')
    (heq : ∀ s, FOccurs c s → ∃ v v', Dict.get subs s = .ok v ∧ Dict.get subs' s = .ok v' ∧ ∀ σ, v.eval σ = v'.eval σ) :
    fformToFdat S c subs = fformToFdat S' c subs' := by
  have hg := hc.good
  have hn' := (FFormContainer.symbolic_iff hg).1 hn
  obtain ⟨σ, hσ⟩ := exists_agrees hs
  obtain ⟨σ', hσ'⟩ := exists_agrees hs'
  rw [fformToFdat_ok S hg hn' (Or.inl hM) hs (fun s h => by
      obtain ⟨v, v', h1, _⟩ := heq s h
      exact Dict.mem_keys_of_mem (Dict.mem_of_get? (Dict.get_ok_iff.1 h1))) hσ,
    fformToFdat_ok S' hg hn' (Or.inl hM) hs' (fun s h => by
      obtain ⟨v, v', _, h1, _⟩ := heq s h
      exact Dict.mem_keys_of_mem (Dict.mem_of_get? (Dict.get_ok_iff.1 h1))) hσ']
  have : c.fform.mapVals (fun a => a.objs.map (objValue σ)) = c.fform.mapVals (fun a => a.objs.map (objValue σ')) := by
    refine Dict.mapVals_congr (fun it hit => ?_)
    refine List.map_congr_left (fun o ho => ?_)
    obtain ⟨k, a⟩ := it
    have hna := hn' _ hit
    cases a with
    | native v => cases hna
    | obj v =>
      obtain ⟨e, he, rfl⟩ := List.mem_map.1 ho
      refine Expr.eval_congr e (fun s hse => ?_)
      obtain ⟨w, w', h1, h2, h3⟩ := heq s (FFormContainer.mem_occurs hg hit he hse)
      rw [hσ s w h1, hσ' s w' h2, h3 σ]
      exact Expr.eval_closed (hs' (s, w') (Dict.mem_of_get? (Dict.get_ok_iff.1 h2))) _ _
  rw [this]

/-- **C29.** For `M ≠ 16` a nonempty container is rejected with `ValueError`. -/
theorem C29_other_M (S : Sympy) {c : FFormContainer} (hc : c.Reachable S) (hn : Symbolic c) (hM : c.getM ≠ 16)
    (hne : c.getKeys ≠ []) {subs : Dict Sym Expr} (hcov : ∀ s, FOccurs c s → s ∈ Dict.keys subs) :
    fformToFdat S c subs = .error .valueError := by
  have hg := hc.good
  exact fformToFdat_M S hg ((FFormContainer.symbolic_iff hg).1 hn) hM (fun h => hne (by
    simp [FFormContainer.getKeys, h])) hcov

/-- A container with a numeric array is rejected with `AttributeError`. -/
theorem C29_numeric_array (S : Sympy) {c : FFormContainer} (hc : c.Reachable S) (hn : ¬ Symbolic c)
    {subs : Dict Sym Expr} : fformToFdat S c subs = .error .attributeError :=
  fformToFdat_native S hc.good ((FFormContainer.not_symbolic_iff hc.good).1 hn)

/-! ## C30 -/

/-- The container after `form.subs(subs.items())`. -/
def Spec.afterSubs (S : Sympy) (form : FormContainer) (subs : Dict Sym Expr) : FormContainer :=
  (FormContainer.step S form (.subs subs)).1

theorem afterSubs_eq (S : Sympy) {form : FormContainer} (hf : Dict.WF form.form) (subs : Dict Sym Expr) :
    afterSubs S form subs = ⟨form.form.mapVals (S.subs subs)⟩ := by
  unfold afterSubs
  rw [FormContainer.step_eq S hf]
  rfl

/-- **C30.** `form_to_dat` raises `ValueError` unless after substitution the only remaining symbol is `phi`. -/
theorem C30_only_phi (S : Sympy) {form : FormContainer} (hf : form.Reachable S) {subs : Dict Sym Expr}
    (hs : Dict.WF subs) (N : ℕ) (h : ¬ ∀ s, Occurs (afterSubs S form subs) s ↔ s = phi) :
    formToDat S form subs N = .error .valueError := by
  rw [afterSubs_eq S hf.wf] at h
  rw [formToDat_eq S hf.wf hs, if_neg h]

/-- **C30.** Otherwise it samples the real part of the formulas at the angles `2πj/N`. -/
theorem C30_samples (S : Sympy) {form : FormContainer} (hf : form.Reachable S) {subs : Dict Sym Expr}
    (hs : Dict.WF subs) (hn : Numeric subs) {N : ℕ} (hN : 1 ≤ N)
    (h : ∀ s, Occurs (afterSubs S form subs) s ↔ s = phi) :
    ∃ d, formToDat S form subs N = .ok (d, []) ∧ d.getKeys = form.getKeys ∧
      ∀ σ, Agrees σ subs → ∀ k f, Represents form k f →
        d.getPc k sRadians = .ok (sampled N (fun x => (f (assign σ phi x)).re)) := by
  rw [afterSubs_eq S hf.wf] at h
  obtain ⟨σ₀, hσ₀⟩ := exists_agrees hn
  obtain ⟨_, h0⟩ := formToDat_ok S hf.wf hs hn hN h hσ₀
  refine ⟨_, h0, by simp [DataContainer.getKeys, FormContainer.getKeys], fun σ hσ k f hr => ?_⟩
  obtain ⟨_, h1⟩ := formToDat_ok S hf.wf hs hn hN h hσ
  rw [h0] at h1
  rw [(Prod.mk.inj (Except.ok.inj h1)).1]
  obtain ⟨e, he, hv⟩ := hr
  rw [getPc_radians, Dict.get_ok_iff, Dict.get?_mapVals, Dict.get_ok_iff.1 he]
  simp only [Option.map_some, Option.some.injEq]
  congr 1
  funext x
  rw [ofAngle, hv]

/-- **C30.** For supported formulas and numbers for all symbols but `phi`, `fform_to_dat(form_to_fform(form), subs, N)`
succeeds, and `form_to_dat(form, subs, N)` returns the same container, unless the substitution eliminates `phi`
altogether: then `form_to_dat` raises `ValueError`. -/
theorem C30_agree (S : Sympy) {form : FormContainer} (hf : form.Reachable S)
    (hsup : ∀ k e, form.getPc k = .ok e → Supported e) {subs : Dict Sym Expr} (hs : Dict.WF subs) (hn : Numeric subs)
    (hcov : ∀ s, Occurs form s → s ≠ phi → s ∈ Dict.keys subs) {N : ℕ} (hN : 1 ≤ N) :
    ∃ c r, formToFform S form 16 = .ok c ∧ fformToDat S c subs N = .ok r ∧
      (Occurs (afterSubs S form subs) phi → formToDat S form subs N = .ok r) ∧
      (¬ Occurs (afterSubs S form subs) phi → formToDat S form subs N = .error .valueError) := by
  have hwf := hf.wf
  obtain ⟨c, h1, h2, h3, h4⟩ := formToFform_supported S hf hsup (M := 16) le_rfl
  obtain ⟨hg, hM, hnat, hsym⟩ := formToFform_symbols S hwf h1
  obtain ⟨σ, hσ⟩ := exists_agrees hn
  have hd := fformToFdat_ok S hg hnat (Or.inl hM) hn (fun s hs' => hcov s (hsym s hs').1 (hsym s hs').2) hσ
  have hdg : FDataContainer.Good ⟨c.fform.mapVals (fun a => a.objs.map (objValue σ)), 16, 1, .num 0⟩ := by
    refine ⟨by have := hg.wf; simpa [Dict.WF] using this, ?_, ⟨0, rfl⟩⟩
    rintro ⟨k, v⟩ hit
    simp only at hit
    obtain ⟨a, ha, rfl⟩ := Dict.mem_mapVals.1 hit
    have := hg.len _ ha
    rw [hM] at this
    simpa using this
  have hr := fdatToDat_ok hdg hN
  simp only at hr
  have hsame : (c.fform.mapVals (fun a => a.objs.map (objValue σ))).mapVals
      (fun v => sampled N (fun x => (series v 16 x).re)) =
      form.form.mapVals (fun e => sampled N (fun x => (ofAngle e σ x).re)) := by
    have hval : ∀ k a e, (k, a) ∈ c.fform → (k, e) ∈ form.form → ∀ x : ℝ,
        series (a.objs.map (objValue σ)) 16 x = ofAngle e σ x := by
      intro k a e ha he x
      have hk : form.getPc k = .ok e := by
        unfold FormContainer.getPc
        rw [Dict.get_ok_iff, Dict.get?_eq_some_iff hwf]; exact he
      rw [series_eq_coeff, ← supported_series S (hsup k e hk) (M := 16) (by omega) σ x]
      refine Finset.sum_congr rfl (fun m hm => ?_)
      rw [Finset.mem_Icc] at hm
      obtain ⟨a', o, ha', ho, hv⟩ := h4 k e hk m hm
      rw [hg.getPc_iff.2 ha] at ha'
      have := Except.ok.inj ha'
      subst this
      rw [h3] at ho
      unfold coeff harmonic
      rw [if_pos hm, List.getD_eq_getElem?_getD, List.getElem?_map, ho.2]
      simp only [Option.map_some, Option.getD_some]
      rw [hv σ]
    rw [Dict.mapVals_mapVals]
    have hkeys : Dict.keys c.fform = Dict.keys form.form := h2
    have hlen : c.fform.length = form.form.length := by
      have := congrArg List.length hkeys
      simpa [Dict.keys] using this
    refine List.ext_getElem (by simp [Dict.mapVals, hlen]) (fun i hi hi' => ?_)
    have hc1 : i < c.fform.length := by simpa [Dict.mapVals] using hi
    have hc2 : i < form.form.length := by rw [← hlen]; exact hc1
    have hke : (c.fform[i]).1 = (form.form[i]).1 := by
      have := congrArg (fun l => l[i]?) hkeys
      simp only [Dict.keys, List.getElem?_map, List.getElem?_eq_getElem hc1, List.getElem?_eq_getElem hc2,
        Option.map_some, Option.some.injEq] at this
      exact this
    simp only [Dict.mapVals, List.getElem_map]
    refine Prod.ext hke ?_
    simp only
    congr 1
    funext x
    rw [hval (form.form[i]).1 (c.fform[i]).2 (form.form[i]).2 (by rw [← hke]; exact List.getElem_mem hc1)
      (List.getElem_mem hc2) x]
  rw [hsame] at hr
  refine ⟨c, _, h1, by unfold fformToDat; rw [hd, ok_bind]; exact hr, fun hp => ?_, fun hp => ?_⟩
  · have hocc : ∀ s, Occurs ⟨form.form.mapVals (S.subs subs)⟩ s ↔ s = phi := by
      intro s
      rw [afterSubs_eq S hwf] at hp
      refine ⟨?_, fun h => h ▸ hp⟩
      rintro ⟨k, e', he', hs'⟩
      obtain ⟨e, he, rfl⟩ := Dict.mem_mapVals.1 (Dict.mem_of_get? (Dict.get_ok_iff.1 he'))
      obtain ⟨h5, h6⟩ := S.free_subs hn hs'
      by_contra hne
      refine h6 (hcov s ⟨k, e, ?_, h5⟩ hne)
      unfold FormContainer.getPc
      rw [Dict.get_ok_iff, Dict.get?_eq_some_iff hwf]; exact he
    exact (formToDat_ok S hwf hs hn hN hocc hσ).2
  · exact C30_only_phi S hf hs N (fun h => hp ((h phi).2 rfl))

/-- The substitution cannot eliminate `phi` when some formula still depends on it. -/
theorem C30_depends (S : Sympy) {form : FormContainer} (hf : form.Reachable S) {subs : Dict Sym Expr}
    (hs : Dict.WF subs) (hn : Numeric subs) (hphi : phi ∉ Dict.keys subs) {σ : Valuation} (hσ : Agrees σ subs)
    {k : Key} {f : Valuation → ℂ} (hr : Represents form k f) {x y : ℝ} (hxy : f (assign σ phi x) ≠ f (assign σ phi y)) :
    Occurs (afterSubs S form subs) phi := by
  have hwf := hf.wf
  obtain ⟨e, he, hv⟩ := hr
  rw [afterSubs_eq S hwf]
  refine ⟨k, S.subs subs e, ?_, ?_⟩
  · unfold FormContainer.getPc
    rw [Dict.get_ok_iff, Dict.get?_mapVals, Dict.get_ok_iff.1 he]
    rfl
  · by_contra hp
    apply hxy
    have key : ∀ z : ℝ, (S.subs subs e).eval (assign σ phi z) = f (assign σ phi z) := by
      intro z
      have hσ' : ∀ p ∈ subs, (assign σ phi z) p.1 = p.2.eval (assign σ phi z) := by
        intro p hp
        have h1 := hσ p.1 p.2 (Dict.get_ok_iff.2 ((Dict.get?_eq_some_iff hs).2 hp))
        have h2 : p.1 ≠ phi := fun h => hphi (by rw [← h]; exact Dict.mem_keys_of_mem hp)
        simp only [assign, if_neg h2, h1]
        exact Expr.eval_closed (hn p hp) _ _
      rw [S.eval_subs, ← hv]
      refine Expr.eval_congr e (fun s _ => ?_)
      rw [assigned_closed hn hσ']
      split <;> rfl
    rw [← key x, ← key y]
    refine Expr.eval_congr _ (fun s hs' => ?_)
    have : s ≠ phi := fun h => hp (h ▸ hs')
    simp [assign, this]

/-! ## C76: from formulas to Fourier data -/

/-- **C76.** For supported formulas, numbers for all symbols but `phi` and `M = 16`, `form_to_fdat` returns for every
combination the Fourier components of the formula as a function of the angle, with the numbers put in; their series is that
function.  Partial: `M = 16` only, see `C76_other_M_broken`. -/
theorem C76_components_partial (S : Sympy) {form : FormContainer} (hf : form.Reachable S)
    (hsup : ∀ k e, form.getPc k = .ok e → Supported e) {subs : Dict Sym Expr} (hn : Numeric subs)
    (hcov : ∀ s, Occurs form s → s ≠ phi → s ∈ Dict.keys subs) :
    ∃ d, formToFdat S form subs 16 = .ok d ∧ d.Reachable ∧ d.getKeys = form.getKeys ∧ d.getM = 16 ∧
      ∀ σ, Agrees σ subs → ∀ k f, Represents form k f → ∃ v, d.getPc k = .ok v ∧
        (∀ m : ℤ, -16 ≤ m → m ≤ 16 → Component v 16 m (integralCoeff (fun x => f (assign σ phi x)) m)) ∧
        ∀ x : ℝ, series v 16 x = f (assign σ phi x) := by
  have hwf := hf.wf
  obtain ⟨c, h1, h2, h3, h4⟩ := formToFform_supported S hf hsup (M := 16) le_rfl
  obtain ⟨hg, hM, hnat, hsym⟩ := formToFform_symbols S hwf h1
  obtain ⟨σ₀, hσ₀⟩ := exists_agrees hn
  have hcov' : ∀ s, FOccurs c s → s ∈ Dict.keys subs := fun s hs' => hcov s (hsym s hs').1 (hsym s hs').2
  have hd := fformToFdat_ok S hg hnat (Or.inl hM) hn hcov' hσ₀
  refine ⟨_, by unfold formToFdat; rw [h1, ok_bind, hd], ?_, ?_, rfl, ?_⟩
  · refine ⟨(c.fform.mapVals (fun a => a.objs.map (objValue σ₀))).map (fun it => (.str it.1, .arr1 .complex128 it.2)), 16, _, [],
      FDataContainer.init_items .complex128 (Or.inr rfl) (by have := hg.wf; simpa [Dict.WF] using this) ?_, rfl⟩
    rintro ⟨k, v⟩ hit
    obtain ⟨a, ha, rfl⟩ := Dict.mem_mapVals.1 hit
    have := hg.len _ ha
    rw [hM] at this
    simpa using this
  · rw [← h2]
    simp [FDataContainer.getKeys, FFormContainer.getKeys]
  · intro σ hσ k f hr
    have hd' := fformToFdat_ok S hg hnat (Or.inl hM) hn hcov' hσ
    rw [hd] at hd'
    rw [Except.ok.inj hd']
    obtain ⟨e, he, hv⟩ := hr
    have hfun : ∀ x : ℝ, ofAngle e σ x = f (assign σ phi x) := fun x => by rw [ofAngle, hv]
    obtain ⟨a, ha⟩ : ∃ a, c.getPc k = .ok a := by
      obtain ⟨a, _, ha, _⟩ := h4 k e he 0 (by omega)
      exact ⟨a, ha⟩
    have hcomp : ∀ m : ℤ, -16 ≤ m → m ≤ 16 →
        Component (a.objs.map (objValue σ)) 16 m (integralCoeff (fun x => f (assign σ phi x)) m) := by
      intro m hm1 hm2
      obtain ⟨a', o, ha', ho, hv'⟩ := h4 k e he m (by omega)
      rw [ha] at ha'
      cases Except.ok.inj ha'
      rw [h3] at ho
      have := component_map (objValue σ) ho
      rw [hv' σ] at this
      simpa only [hfun] using this
    refine ⟨a.objs.map (objValue σ), ?_, hcomp, fun x => ?_⟩
    · unfold FDataContainer.getPc
      rw [Dict.get_ok_iff, Dict.get?_mapVals, Dict.get_ok_iff.1 ha]
      rfl
    · rw [series_eq_coeff, ← hfun x, ← supported_series S (hsup k e he) (M := 16) (by omega) σ x]
      refine Finset.sum_congr rfl (fun m hm => ?_)
      rw [Finset.mem_Icc] at hm
      have h5 := hcomp m (by omega) (by omega)
      unfold coeff harmonic
      rw [if_pos hm, List.getD_eq_getElem?_getD, h5.2]
      simp only [Option.getD_some, hfun]

/-- **C76 is false for every other `M`**: `form_to_fdat` never succeeds on a container that is not empty. -/
theorem C76_other_M_broken (S : Sympy) {form : FormContainer} (hf : form.Reachable S) (hne : form.getKeys ≠ []) {M : ℕ}
    (hM : M ≠ 16) (subs : Dict Sym Expr) : ∃ err, formToFdat S form subs M = .error err := by
  have hwf := hf.wf
  unfold formToFdat
  cases h : formToFform S form M with
  | error e => exact ⟨e, rfl⟩
  | ok c =>
    rw [ok_bind]
    obtain ⟨g, hg⟩ := choose_values (formToFform_ok_all S h)
    have e1 := formToFform_ok S hwf g hg
    rw [h] at e1
    have hc := Except.ok.inj e1
    have hgood : c.Good := by
      subst hc
      refine ⟨by simpa [Dict.WF] using hwf, ?_⟩
      rintro ⟨k, a⟩ hit
      simp only at hit
      obtain ⟨e, he, rfl⟩ := Dict.mem_mapVals.1 hit
      rw [FFormContainer.length_fformArray]
      simp [length_freqs]
    have hcM : c.M ≠ 16 := by
      subst hc
      exact hM
    have hcne : c.fform ≠ [] := by
      subst hc
      intro hcon
      apply hne
      have := congrArg Dict.keys hcon
      simpa [FormContainer.getKeys, Dict.keys, Dict.mapVals] using this
    by_cases hnat : ∃ it ∈ c.fform, it.2.isNative = true
    · exact ⟨_, fformToFdat_native S hgood hnat⟩
    · have hnat' : ∀ it ∈ c.fform, it.2.isNative = false := fun it hit => by
        by_contra hcon
        exact hnat ⟨it, hit, by simpa using hcon⟩
      by_cases hcov : ∃ s, FOccurs c s ∧ s ∉ Dict.keys subs
      · exact ⟨_, fformToFdat_keyError S hgood hnat' hcov⟩
      · refine ⟨_, fformToFdat_M S hgood hnat' hcM hcne (fun s hs => ?_)⟩
        by_contra hcon
        exact hcov ⟨s, hs, hcon⟩

/-- **C76.** A symbol of the Fourier components without a number is a `KeyError`. -/
theorem C76_missing_symbol (S : Sympy) {form : FormContainer} (hf : form.Reachable S) {subs : Dict Sym Expr}
    {c : FFormContainer} (h : formToFform S form 16 = .ok c) {s : Sym} (hs : FOccurs c s) (hmiss : s ∉ Dict.keys subs) :
    formToFdat S form subs 16 = .error .keyError := by
  obtain ⟨hg, hM, hnat, hsym⟩ := formToFform_symbols S hf.wf h
  unfold formToFdat
  rw [h, ok_bind]
  exact fformToFdat_keyError S hg hnat ⟨s, hs, hmiss⟩

/-! ### The hypotheses can be met -/

/-- A Fourier formula of size 16: `x` at frequency `-16`. -/
def exFF : FFormContainer := ⟨[(kPP, .obj (.sym symX :: List.replicate 32 (.num 0)))], 16⟩

theorem exFF_reachable : exFF.Reachable Sympy.plain :=
  ⟨[(.str kPP, .objArr (.sy (.sym symX) :: List.replicate 32 (.native 0 0)))], 16, _, [], rfl, rfl⟩

example : exFF.Reachable Sympy.plain ∧ Symbolic exFF ∧ exFF.getM = 16 ∧ Numeric [(symX, .num 2)] ∧
    (∀ s, FOccurs exFF s → s ∈ Dict.keys [(symX, Expr.num 2)]) ∧
    ∃ d v, fformToFdat Sympy.plain exFF [(symX, .num 2)] = .ok d ∧ d.getPc kPP = .ok v ∧ Component v 16 (-16) 2 := by
  have hsym : Symbolic exFF := by
    rw [FFormContainer.symbolic_iff exFF_reachable.good]
    intro it hit
    simp only [exFF, List.mem_singleton] at hit
    subst hit; rfl
  have hnum : Numeric [(symX, .num 2)] := by
    intro p hp
    simp only [List.mem_singleton] at hp
    subst hp; rfl
  have hcov : ∀ s, FOccurs exFF s → s ∈ Dict.keys [(symX, Expr.num 2)] := by
    intro s hs
    obtain ⟨k, v, e, h1, h2, h3⟩ := FFormContainer.occurs_mem exFF_reachable.good
      ((FFormContainer.symbolic_iff exFF_reachable.good).1 hsym) hs
    simp only [exFF, List.mem_singleton, Prod.mk.injEq, FArr.obj.injEq] at h1
    obtain ⟨_, rfl⟩ := h1
    rcases List.mem_cons.1 h2 with rfl | h2
    · simpa [Expr.free] using h3
    · rw [(List.mem_replicate.1 h2).2] at h3
      simp [Expr.free] at h3
  refine ⟨exFF_reachable, hsym, rfl, hnum, hcov, ?_⟩
  obtain ⟨d, h1, _, _, _, h2⟩ := C29_values Sympy.plain exFF_reachable hsym rfl hnum hcov
  obtain ⟨σ, hσ⟩ := exists_agrees hnum
  obtain ⟨v, h3, h4⟩ := h2 σ hσ kPP (-16) (fun σ => σ symX)
    ⟨_, .sy (.sym symX), rfl, ⟨by decide, rfl⟩, fun σ => rfl⟩
  refine ⟨d, v, h1, h3, ?_⟩
  have : σ symX = 2 := by
    rw [hσ symX (.num 2) rfl]
    simp [Expr.eval]
  rwa [this] at h4

/-- `x*cos(phi)**2`, to be sampled at `x = 2`. -/
def exCos2 : FormContainer := singleForm kPP (.mul [.sym symX, .pow (.cos (.sym phi)) 2])

example : ∃ c r, formToFform Sympy.plain exCos2 16 = .ok c ∧ fformToDat Sympy.plain c [(symX, .num 2)] 5 = .ok r ∧
    formToDat Sympy.plain exCos2 [(symX, .num 2)] 5 = .ok r := by
  have hx : symX ≠ phi := by decide
  have hsup : ∀ k e, exCos2.getPc k = .ok e → Supported e := by
    intro k e h
    have := Dict.mem_of_get? (Dict.get_ok_iff.1 h)
    simp only [exCos2, singleForm, List.mem_singleton, Prod.mk.injEq] at this
    rw [this.2]
    exact .prod (.coeff (by simp [Expr.free, phi, symX]) (.trig (.cosPow 2) .nil)) (by omega) (by decide) (by decide)
  obtain ⟨c, r, h1, h2, h3, _⟩ := C30_agree Sympy.plain (form := exCos2) (singleForm_reachable _ _ _) hsup
    (subs := [(symX, .num 2)]) (by simp [Dict.WF, Dict.keys])
    (by intro p hp; simp only [List.mem_singleton] at hp; subst hp; rfl)
    (by
      rintro s ⟨k, e, h, hs⟩ hne
      have := Dict.mem_of_get? (Dict.get_ok_iff.1 h)
      simp only [exCos2, singleForm, List.mem_singleton, Prod.mk.injEq] at this
      rw [this.2] at hs
      simp [Expr.free, Expr.freeL] at hs
      rcases hs with rfl | hs
      · simp [Dict.keys]
      · exact absurd hs hne)
    (N := 5) (by omega)
  refine ⟨c, r, h1, h2, h3 ⟨kPP, .mul [.num 2, .pow (.cos (.sym phi)) 2], rfl, by simp [Expr.free, Expr.freeL]⟩⟩

theorem exCos2_supported : ∀ k e, exCos2.getPc k = .ok e → Supported e := by
  intro k e h
  have := Dict.mem_of_get? (Dict.get_ok_iff.1 h)
  simp only [exCos2, singleForm, List.mem_singleton, Prod.mk.injEq] at this
  rw [this.2]
  exact .prod (.coeff (by simp [Expr.free, phi, symX]) (.trig (.cosPow 2) .nil)) (by omega) (by decide) (by decide)

/-- `2*cos(phi)**2` as Fourier data. -/
example : ∃ d v, formToFdat Sympy.plain exCos2 [(symX, .num 2)] 16 = .ok d ∧ d.getPc kPP = .ok v ∧
    ∀ x : ℝ, series v 16 x = 2 * Complex.cos x ^ 2 := by
  have hnum : Numeric [(symX, .num 2)] := by
    intro p hp
    simp only [List.mem_singleton] at hp
    subst hp; rfl
  obtain ⟨d, h1, _, _, _, h2⟩ := C76_components_partial Sympy.plain (form := exCos2) (singleForm_reachable _ _ _) exCos2_supported
    (subs := [(symX, .num 2)]) hnum
    (by
      rintro s ⟨k, e, h, hs⟩ hne
      have := Dict.mem_of_get? (Dict.get_ok_iff.1 h)
      simp only [exCos2, singleForm, List.mem_singleton, Prod.mk.injEq] at this
      rw [this.2] at hs
      simp [Expr.free, Expr.freeL] at hs
      rcases hs with rfl | hs
      · simp [Dict.keys]
      · exact absurd hs hne)
  obtain ⟨σ, hσ⟩ := exists_agrees hnum
  obtain ⟨v, h3, _, h4⟩ := h2 σ hσ kPP _ ⟨_, rfl, fun _ => rfl⟩
  refine ⟨d, v, h1, h3, fun x => ?_⟩
  rw [h4]
  have hx : symX ≠ phi := by decide
  have h5 : σ symX = 2 := by
    rw [hσ symX (.num 2) rfl]
    simp [Expr.eval]
  simp [Expr.eval, Expr.evalProd, assign, hx, h5]

end Shgpy
