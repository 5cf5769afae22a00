import Verif.Proofs.FormToFform
import Verif.Props.Form

/-!
# Properties C23 – C28: Fourier transforms of formulas
-/

set_option linter.unusedSectionVars false
set_option linter.unusedSimpArgs false

namespace Shgpy
open Spec

/-! ## C24 -/

/-- **C24.** The table has a row of 33 entries for exactly the pairs `(a, b)` with `a + b ≤ 8`; the entries of the row
are the Fourier coefficients of `cos^a sin^b`, and the series sums to it at every (complex) angle. -/
theorem C24_table_exact :
    (∀ a b : ℕ, (∃ row, Dict.get? Lookup.table (a, b) = some row) ↔ a + b ≤ 8) ∧
    ∀ (a b : ℕ) (row : List PyObj), Dict.get? Lookup.table (a, b) = some row →
      row.length = 33 ∧ ∀ σ : Valuation,
        (∀ n o, Component row 16 n o →
          objValue σ o = integralCoeff (fun x => Complex.cos x ^ a * Complex.sin x ^ b) n) ∧
        ∀ z : ℂ, ∑ i ∈ Finset.range 33, (row.map (objValue σ)).getD i 0 * Complex.exp (Complex.I * (((i : ℤ) - 16 : ℤ) * z)) =
          Complex.cos z ^ a * Complex.sin z ^ b := by
  have hk : ∀ (a b : ℕ) (row : List PyObj), Dict.get? Lookup.table (a, b) = some row → a + b ≤ 8 := by
    intro a b row h
    by_contra hab
    rw [Lookup.get_table_none hab] at h
    cases h
  refine ⟨fun a b => ⟨fun ⟨row, h⟩ => hk a b row h, fun h => ?_⟩, fun a b row h => ?_⟩
  · obtain ⟨r, hr, _⟩ := Lookup.get_table h
    exact ⟨r, hr⟩
  · have hab := hk a b row h
    obtain ⟨r, hr, hlen, hv⟩ := Lookup.get_table hab
    rw [hr] at h
    have := Option.some.inj h
    subst this
    refine ⟨hlen, fun σ => ⟨fun n o ho => ?_, fun z => ?_⟩⟩
    · rw [integralCoeff_table hab]
      obtain ⟨hn, ho⟩ := ho
      unfold Lookup.entry
      rw [if_pos (by simpa using hn), ← hv σ, List.getD_eq_getElem?_getD, List.getElem?_map]
      have : (n + ((16 : ℕ) : ℤ)).toNat = (n + 16).toNat := rfl
      rw [← this, ho]
      rfl
    · rw [hv σ]
      exact Lookup.sum_table hab z

/-! ## C25, C26 -/

/-- The transform of a container of supported formulas. -/
theorem formToFform_supported (S : Sympy) {form : FormContainer} (hf : form.Reachable S)
    (hs : ∀ k e, form.getPc k = .ok e → Supported e) {M : ℕ} (hM : M ≤ 16) :
    ∃ c, formToFform S form M = .ok c ∧ c.getKeys = form.getKeys ∧ c.getM = M ∧
      ∀ k e, form.getPc k = .ok e → ∀ m, -(M : ℤ) ≤ m ∧ m ≤ M →
        FRepresents c k m (fun σ => integralCoeff (fun x => ofAngle e σ x) m) := by
  have hwf := hf.wf
  have hget : ∀ it ∈ form.form, form.getPc it.1 = .ok it.2 := fun it hit => by
    unfold FormContainer.getPc
    rw [Dict.get_ok_iff, Dict.get?_eq_some_iff hwf]; exact hit
  have hall : ∀ it ∈ form.form, ∀ m ∈ freqs M, ∃ o, fourierTransform S it.2 m = .ok o := by
    intro it hit m hm
    obtain ⟨c, _, h2⟩ := fourierTransform_supported S (hs it.1 it.2 (hget it hit))
    rw [mem_freqs] at hm
    obtain ⟨o, ho, _⟩ := h2 m (by omega)
    exact ⟨o, ho⟩
  obtain ⟨g, hg⟩ := choose_values hall
  refine ⟨_, formToFform_ok S hwf g hg, by simp [FFormContainer.getKeys, FormContainer.getKeys], rfl, ?_⟩
  intro k e hk m hm
  have hmem : (k, e) ∈ form.form := Dict.mem_of_get? (Dict.get_ok_iff.1 hk)
  have h1 := formToFform_rep S (g := g) hk hm
  obtain ⟨c, hc, h2⟩ := fourierTransform_supported S (hs k e hk)
  obtain ⟨o, ho, hv⟩ := h2 m (by omega)
  have h3 := hg (k, e) hmem m (mem_freqs.2 hm)
  rw [ho] at h3
  have := Except.ok.inj h3
  have h4 : (fun σ => objValue σ (g e m)) = fun σ => integralCoeff (fun x => ofAngle e σ x) m := by
    funext σ
    rw [(hc σ).coeff m, ← hv σ, this]
  rwa [h4] at h1

/-- The series over the frequencies `-M … M` of a supported formula sums back to the formula once `M ≥ 8`. -/
theorem supported_series (S : Sympy) {e : Expr} (h : Supported e) {M : ℕ} (hM : 8 ≤ M) (σ : Valuation) (z : ℂ) :
    ∑ m ∈ Finset.Icc (-(M : ℤ)) M, integralCoeff (fun x => ofAngle e σ x) m * Complex.exp (Complex.I * (m * z)) =
      ofAngle e σ z := by
  obtain ⟨c, hc, _⟩ := fourierTransform_supported S h
  rw [(hc σ).sum_of_le hM z, ← List.sum_toFinset _ (freqs_nodup M)]
  refine Finset.sum_congr ?_ (fun m _ => by rw [(hc σ).coeff m])
  ext m
  simp only [List.mem_toFinset, mem_freqs, Finset.mem_Icc]

/-- **C25.** On sums of explicit products of degree at most 8, `form_to_fform(form, M)`, `M ≤ 16`, succeeds; component
`m` of each combination is the `m`-th Fourier coefficient of the formula, for every value of the parameters; for
`M ≥ 8` the series sums back to the formula at every angle. -/
theorem C25_expanded_sums (S : Sympy) {form : FormContainer} (hf : form.Reachable S)
    (hs : ∀ k e, form.getPc k = .ok e → ExpandedSum e) {M : ℕ} (hM : M ≤ 16) :
    ∃ c, formToFform S form M = .ok c ∧ c.getKeys = form.getKeys ∧ c.getM = M ∧
      ∀ k e, form.getPc k = .ok e →
        (∀ m, -(M : ℤ) ≤ m ∧ m ≤ M → FRepresents c k m (fun σ => integralCoeff (fun x => ofAngle e σ x) m)) ∧
        (8 ≤ M → ∀ σ z, ∑ m ∈ Finset.Icc (-(M : ℤ)) M,
          integralCoeff (fun x => ofAngle e σ x) m * Complex.exp (Complex.I * (m * z)) = ofAngle e σ z) := by
  obtain ⟨c, h1, h2, h3, h4⟩ := formToFform_supported S hf (fun k e hk => Supported.sum (hs k e hk)) hM
  exact ⟨c, h1, h2, h3, fun k e hk => ⟨h4 k e hk, fun h8 σ z => supported_series S (.sum (hs k e hk)) h8 σ z⟩⟩

/-- **C26**, the part that holds: the transform is right on formulas without `phi`, sums of explicit products, single
products other than (coefficient times) one cosine or one sine, and powers of the cosine or sine.  The shapes that are
missing are wrong, see below. -/
theorem C26_supported_partial (S : Sympy) {form : FormContainer} (hf : form.Reachable S)
    (hs : ∀ k e, form.getPc k = .ok e → Supported e) {M : ℕ} (hM : M ≤ 16) :
    ∃ c, formToFform S form M = .ok c ∧ c.getKeys = form.getKeys ∧ c.getM = M ∧
      ∀ k e, form.getPc k = .ok e →
        (∀ m, -(M : ℤ) ≤ m ∧ m ≤ M → FRepresents c k m (fun σ => integralCoeff (fun x => ofAngle e σ x) m)) ∧
        (8 ≤ M → ∀ σ z, ∑ m ∈ Finset.Icc (-(M : ℤ)) M,
          integralCoeff (fun x => ofAngle e σ x) m * Complex.exp (Complex.I * (m * z)) = ofAngle e σ z) := by
  obtain ⟨c, h1, h2, h3, h4⟩ := formToFform_supported S hf hs hM
  exact ⟨c, h1, h2, h3, fun k e hk => ⟨h4 k e hk, fun h8 σ z => supported_series S (hs k e hk) h8 σ z⟩⟩

/-! ### Wrong shapes -/

/-- A container with the single formula `e`. -/
def singleForm (k : Key) (e : Expr) : FormContainer := ⟨[(k, e)]⟩

theorem singleForm_reachable (S : Sympy) (k : Key) (e : Expr) : (singleForm k e).Reachable S :=
  ⟨[(.str k, .sy e)], _, [], rfl, rfl⟩

theorem singleForm_getPc (k : Key) (e : Expr) : (singleForm k e).getPc k = .ok e := by
  simp [singleForm, FormContainer.getPc, Dict.get, Dict.get?]

theorem singleForm_transform (S : Sympy) (k : Key) (e : Expr) {M : ℕ} (g : ℤ → PyObj)
    (h : ∀ m ∈ freqs M, fourierTransform S e m = .ok (g m)) :
    ∃ c, formToFform S (singleForm k e) M = .ok c ∧
      ∀ m, -(M : ℤ) ≤ m ∧ m ≤ M → FRepresents c k m (fun σ => objValue σ (g m)) := by
  refine ⟨_, formToFform_ok S (singleForm_reachable S k e).wf (fun _ => g) ?_, fun m hm =>
    formToFform_rep S (g := fun _ => g) (singleForm_getPc k e) hm⟩
  intro it hit m hm
  simp only [singleForm, List.mem_singleton] at hit
  subst hit
  exact h m hm

theorem choose_freqs {S : Sympy} {e : Expr} {M : ℕ} {v : ℤ → Valuation → ℂ}
    (h : ∀ n, -(M : ℤ) ≤ n ∧ n ≤ M → ∃ o, fourierTransform S e n = .ok o ∧ ∀ σ, objValue σ o = v n σ) :
    ∃ g : ℤ → PyObj, ∀ m ∈ freqs M, fourierTransform S e m = .ok (g m) ∧ ∀ σ, objValue σ (g m) = v m σ := by
  refine ⟨fun m => match fourierTransform S e m with | .ok o => o | .error _ => .native 0 0, fun m hm => ?_⟩
  obtain ⟨o, ho, hv⟩ := h m (mem_freqs.1 hm)
  simp only [ho]
  exact ⟨trivial, hv⟩

/-- What is computed, and what would be right, when the transform reads `e` as the wrong function `F`. -/
theorem misread (S : Sympy) (k : Key) (e : Expr) {M : ℕ} {v : ℤ → Valuation → ℂ}
    (h : ∀ n, -(M : ℤ) ≤ n ∧ n ≤ M → ∃ o, fourierTransform S e n = .ok o ∧ ∀ σ, objValue σ o = v n σ) :
    ∃ c, formToFform S (singleForm k e) M = .ok c ∧ ∀ m, -(M : ℤ) ≤ m ∧ m ≤ M → FRepresents c k m (v m) := by
  obtain ⟨g, hg⟩ := choose_freqs h
  obtain ⟨c, hc, hr⟩ := singleForm_transform S k e g (fun m hm => (hg m hm).1)
  refine ⟨c, hc, fun m hm => ?_⟩
  have : v m = fun σ => objValue σ (g m) := by
    funext σ
    rw [(hg m (mem_freqs.2 hm)).2 σ]
  rw [this]
  exact hr m hm

theorem entry_00 (n : ℤ) : Lookup.entry 0 0 n = if n = 0 then 1 else 0 := by
  rw [← integralCoeff_table (by omega)]
  simpa using integralCoeff_const 1 n

theorem cos_poly : TrigPoly Complex.cos (fun n => if n = 1 ∨ n = -1 then 1 / 2 else 0) := by
  refine ⟨fun n hn => by rw [if_neg (by omega)], fun z => ?_⟩
  have hset : (Finset.Icc (-8 : ℤ) 8).filter (fun n => n = 1 ∨ n = -1) = {1, -1} := by decide
  simp only [ite_mul, zero_mul]
  rw [← Finset.sum_filter, hset, Finset.sum_pair (by norm_num)]
  rw [Complex.cos]
  push_cast
  rw [show z * Complex.I = Complex.I * (1 * z) by ring, show -z * Complex.I = Complex.I * (-1 * z) by ring]
  ring

theorem entry_10 (n : ℤ) : Lookup.entry 1 0 n = if n = 1 ∨ n = -1 then 1 / 2 else 0 := by
  rw [← integralCoeff_table (by omega)]
  have := cos_poly.coeff n
  simpa using this

/-- **C26 fails** on `x*cos(phi)`: the result is that of the constant `x`, so the component of frequency 1 is `0` and not
`x/2` (for every automatic evaluation of sympy and every `1 ≤ M ≤ 16`). -/
theorem C26_single_cosine_broken (S : Sympy) (k : Key) {x : Sym} (hx : x ≠ phi) {M : ℕ} (h1 : 1 ≤ M) (hM : M ≤ 16) :
    let e : Expr := .mul [.sym x, .cos (.sym phi)]
    ∃ c, formToFform S (singleForm k e) M = .ok c ∧
      FRepresents c k 0 (fun σ => σ x) ∧ FRepresents c k 1 (fun _ => 0) ∧
      (∀ σ, integralCoeff (fun y => ofAngle e σ y) 1 = σ x / 2) ∧
      ¬ FRepresents c k 1 (fun σ => integralCoeff (fun y => ofAngle e σ y) 1) := by
  intro e
  have hphi : hasPhi e = true := by rw [hasPhi_iff]; simp [e, Expr.free, Expr.freeL]
  have hx' : hasPhi (.sym x) = false := by
    rw [hasPhi_false]; simp only [Expr.free, List.mem_singleton]; exact fun h => hx h.symm
  have hc' : hasPhi (.cos (.sym phi)) = true := by rw [hasPhi_iff]; simp [Expr.free]
  have hcode : getCode (keyterm e) = (0, 0) := by
    simp [e, keyterm, gen, Expr.args, hx', hc', genArg, mulOf, collect, bump, factorExpr, getCode]
  have hq : quotientArgs e = [.sym x] := by simp [e, quotientArgs, hx', hc']
  obtain ⟨c, hc, hr⟩ := misread S k e (M := M) (v := fun n σ => σ x * Lookup.entry 0 0 n) (fun n hn => by
    obtain ⟨o, ho, hv⟩ := fourierTransform_single S (e := e) rfl hphi hcode (by omega) (n := n) (by omega)
    refine ⟨o, ho, fun σ => ?_⟩
    rw [hv σ, hq]
    simp [Expr.evalProd, Expr.eval])
  have r0 : FRepresents c k 0 (fun σ => σ x) := by
    have := hr 0 (by omega)
    simpa [entry_00] using this
  have r1 : FRepresents c k 1 (fun _ => 0) := by
    have := hr 1 (by omega)
    simpa [entry_00] using this
  have hval : ∀ σ, integralCoeff (fun y => ofAngle e σ y) 1 = σ x / 2 := by
    intro σ
    have hp := cos_poly.smul (σ x)
    have : (fun y : ℝ => ofAngle e σ y) = fun y : ℝ => σ x * Complex.cos y := by
      funext y
      simp [e, ofAngle, Expr.eval, Expr.evalProd, assign, hx]
    rw [this, hp.coeff 1]
    simp
    ring
  refine ⟨c, hc, r0, r1, hval, fun hbad => ?_⟩
  have := congrFun (FRepresents.unique r1 hbad) (fun _ => 1)
  simp only [hval] at this
  norm_num at this

theorem trigProduct_args_add (S : Sympy) (k : Key) {ts : List Expr} (hphi : hasPhi (.add ts) = true)
    (hts : ∀ t ∈ ts, ∃ a b, TrigProduct t.args a b ∧ a + b ≤ 8) {M : ℕ} (hM : M ≤ 16) :
    ∃ c, formToFform S (singleForm k (.add ts)) M = .ok c ∧ ∀ m, -(M : ℤ) ≤ m ∧ m ≤ M →
      FRepresents c k m (fun σ =>
        integralCoeff (fun x => (ts.map (fun t => Expr.evalProd (assign σ phi x) t.args)).sum) m) := by
  obtain ⟨c, hc, hm⟩ := fourierTransform_add S hphi hts
  obtain ⟨c', hc', hr⟩ := misread S k (.add ts) (M := M) (v := fun n σ => c σ n) (fun n hn => by
    obtain ⟨e', h1, h2⟩ := hm n (by omega)
    exact ⟨_, h1, h2⟩)
  refine ⟨c', hc', fun m hm' => ?_⟩
  have := hr m hm'
  simpa only [(hc _).coeff m] using this

/-- **C26 fails** on a sum with a bare power, `cos(phi)**2 + x*sin(phi)**2`: the summand `cos(phi)**2` is transformed as
`2*cos(phi)`, so the component of frequency 1 is `1` and not `0`. -/
theorem C26_bare_power_broken (S : Sympy) (k : Key) {x : Sym} (hx : x ≠ phi) {M : ℕ} (h1 : 1 ≤ M) (hM : M ≤ 16) :
    let e : Expr := .add [.pow (.cos (.sym phi)) 2, .mul [.sym x, .pow (.sin (.sym phi)) 2]]
    ∃ c, formToFform S (singleForm k e) M = .ok c ∧ FRepresents c k 1 (fun _ => 1) ∧
      (∀ σ, integralCoeff (fun y => ofAngle e σ y) 1 = 0) ∧
      ¬ FRepresents c k 1 (fun σ => integralCoeff (fun y => ofAngle e σ y) 1) := by
  intro e
  have hphi : hasPhi e = true := by rw [hasPhi_iff]; simp [e, Expr.free, Expr.freeL]
  have hxf : phi ∉ (Expr.sym x).free := by simp only [Expr.free, List.mem_singleton]; exact fun h => hx h.symm
  obtain ⟨c, hc, hr⟩ := trigProduct_args_add S k (ts := [.pow (.cos (.sym phi)) 2, .mul [.sym x, .pow (.sin (.sym phi)) 2]])
    hphi (by
      intro t ht
      simp only [List.mem_cons, List.not_mem_nil, or_false] at ht
      rcases ht with rfl | rfl
      · exact ⟨1, 0, .trig .cos (.coeff (by simp [Expr.free]) .nil), by omega⟩
      · exact ⟨0, 2, .coeff hxf (.trig (.sinPow 2) .nil), by omega⟩) hM
  have p20 := Lookup.trigPoly (a := 2) (b := 0) (by omega)
  have p02 := Lookup.trigPoly (a := 0) (b := 2) (by omega)
  have e20 : Lookup.entry 2 0 1 = 0 := by
    unfold Lookup.entry
    have : (Lookup.row 2 0)[17]? = some (0, 0) := by decide +kernel
    rw [if_pos (by norm_num), List.getD_eq_getElem?_getD, List.getElem?_map]
    simp only [show ((1 : ℤ) + 16).toNat = 17 from rfl, this]
    simp [Lookup.gz]
  have e02 : Lookup.entry 0 2 1 = 0 := by
    unfold Lookup.entry
    have : (Lookup.row 0 2)[17]? = some (0, 0) := by decide +kernel
    rw [if_pos (by norm_num), List.getD_eq_getElem?_getD, List.getElem?_map]
    simp only [show ((1 : ℤ) + 16).toNat = 17 from rfl, this]
    simp [Lookup.gz]
  have r1 : FRepresents c k 1 (fun _ => 1) := by
    have := hr 1 (by omega)
    have hfun : (fun σ : Valuation => integralCoeff (fun y : ℝ => (([.pow (.cos (.sym phi)) 2,
        .mul [.sym x, .pow (.sin (.sym phi)) 2]] : List Expr).map
          (fun t => Expr.evalProd (assign σ phi y) t.args)).sum) 1) = fun _ => 1 := by
      funext σ
      have hp := (cos_poly.smul 2).add (p02.smul (σ x))
      have h2 : (fun y : ℝ => (([.pow (.cos (.sym phi)) 2,
        .mul [.sym x, .pow (.sin (.sym phi)) 2]] : List Expr).map
          (fun t => Expr.evalProd (assign σ phi y) t.args)).sum) =
          fun y : ℝ => 2 * Complex.cos y + σ x * (Complex.cos y ^ 0 * Complex.sin y ^ 2) := by
        funext y
        simp [Expr.args, Expr.evalProd, Expr.eval, assign, hx]
        ring
      rw [h2, hp.coeff 1, e02]
      norm_num
    rwa [hfun] at this
  have hval : ∀ σ, integralCoeff (fun y => ofAngle e σ y) 1 = 0 := by
    intro σ
    have hp := p20.add (p02.smul (σ x))
    have h2 : (fun y : ℝ => ofAngle e σ y) = fun y : ℝ => Complex.cos y ^ 2 * Complex.sin y ^ 0 +
        σ x * (Complex.cos y ^ 0 * Complex.sin y ^ 2) := by
      funext y
      simp [e, ofAngle, Expr.eval, Expr.evalSum, Expr.evalProd, assign, hx]
    rw [h2, hp.coeff 1, e20, e02]
    ring
  refine ⟨c, hc, r1, hval, fun hbad => ?_⟩
  have := congrFun (FRepresents.unique r1 hbad) (fun _ => 1)
  simp only [hval] at this
  norm_num at this

/-- **C26 fails** on a sum with a bare symbol, `y + x*cos(phi)`: the summand `y` is transformed as the constant `1`. -/
theorem C26_bare_symbol_broken (S : Sympy) (k : Key) {x y : Sym} (hx : x ≠ phi) (hy : y ≠ phi) {M : ℕ} (hM : M ≤ 16) :
    let e : Expr := .add [.sym y, .mul [.sym x, .cos (.sym phi)]]
    ∃ c, formToFform S (singleForm k e) M = .ok c ∧ FRepresents c k 0 (fun _ => 1) ∧
      (∀ σ, integralCoeff (fun z => ofAngle e σ z) 0 = σ y) ∧
      ¬ FRepresents c k 0 (fun σ => integralCoeff (fun z => ofAngle e σ z) 0) := by
  intro e
  have hphi : hasPhi e = true := by rw [hasPhi_iff]; simp [e, Expr.free, Expr.freeL]
  have hxf : phi ∉ (Expr.sym x).free := by simp only [Expr.free, List.mem_singleton]; exact fun h => hx h.symm
  obtain ⟨c, hc, hr⟩ := trigProduct_args_add S k (ts := [.sym y, .mul [.sym x, .cos (.sym phi)]])
    hphi (by
      intro t ht
      simp only [List.mem_cons, List.not_mem_nil, or_false] at ht
      rcases ht with rfl | rfl
      · exact ⟨0, 0, .nil, by omega⟩
      · exact ⟨1, 0, .coeff hxf (.trig .cos .nil), by omega⟩) hM
  have r0 : FRepresents c k 0 (fun _ => 1) := by
    have := hr 0 (by omega)
    have hfun : (fun σ : Valuation => integralCoeff (fun z : ℝ => (([.sym y, .mul [.sym x, .cos (.sym phi)]] : List Expr).map
          (fun t => Expr.evalProd (assign σ phi z) t.args)).sum) 0) = fun _ => 1 := by
      funext σ
      have hp := (TrigPoly.const 1).add (cos_poly.smul (σ x))
      have h2 : (fun z : ℝ => (([.sym y, .mul [.sym x, .cos (.sym phi)]] : List Expr).map
          (fun t => Expr.evalProd (assign σ phi z) t.args)).sum) = fun z : ℝ => 1 + σ x * Complex.cos z := by
        funext z
        simp [Expr.args, Expr.evalProd, Expr.eval, assign, hx]
      rw [h2, hp.coeff 0]
      norm_num
    rwa [hfun] at this
  have hval : ∀ σ, integralCoeff (fun z => ofAngle e σ z) 0 = σ y := by
    intro σ
    have hp := (TrigPoly.const (σ y)).add (cos_poly.smul (σ x))
    have h2 : (fun z : ℝ => ofAngle e σ z) = fun z : ℝ => σ y + σ x * Complex.cos z := by
      funext z
      simp [e, ofAngle, Expr.eval, Expr.evalSum, Expr.evalProd, assign, hx, hy]
    rw [h2, hp.coeff 0]
    norm_num
  refine ⟨c, hc, r0, hval, fun hbad => ?_⟩
  have := congrFun (FRepresents.unique r0 hbad) (fun _ => 2)
  simp only [hval] at this
  norm_num at this

/-! ## C27 -/

/-- **C27.** For `M ≤ 16`, whether `form_to_fform` succeeds does not depend on `M`, and neither do the components. -/
theorem C27_independent_of_M (S : Sympy) {form : FormContainer} (hf : form.Reachable S) {M M' : ℕ} (hM : M ≤ 16)
    (hM' : M' ≤ 16) {c : FFormContainer} (h : formToFform S form M = .ok c) :
    ∃ c', formToFform S form M' = .ok c' ∧ c'.getKeys = c.getKeys ∧
      ∀ k m f, -(M : ℤ) ≤ m ∧ m ≤ M → -(M' : ℤ) ≤ m ∧ m ≤ M' → (FRepresents c k m f ↔ FRepresents c' k m f) := by
  have hwf := hf.wf
  have hall := formToFform_ok_all S h
  obtain ⟨g, hg⟩ := choose_values hall
  have hall' : ∀ it ∈ form.form, ∀ m ∈ freqs M', ∃ o, fourierTransform S it.2 m = .ok o := by
    intro it hit m hm
    have h0 : (0 : ℤ) ∈ freqs M := mem_freqs.2 (by omega)
    rw [mem_freqs] at hm
    exact fourierTransform_indep S (by omega) (by omega) it.2 (hg it hit 0 h0)
  obtain ⟨g', hg'⟩ := choose_values hall'
  have e1 := formToFform_ok S hwf g hg
  rw [h] at e1
  have := Except.ok.inj e1
  subst this
  refine ⟨_, formToFform_ok S hwf g' hg', by simp [FFormContainer.getKeys], fun k m f hm hm' => ?_⟩
  have key : ∀ e, form.getPc k = .ok e → g e m = g' e m := by
    intro e hk
    have hmem : (k, e) ∈ form.form := Dict.mem_of_get? (Dict.get_ok_iff.1 hk)
    have h1 := hg _ hmem m (mem_freqs.2 hm)
    have h2 := hg' _ hmem m (mem_freqs.2 hm')
    rw [h1] at h2
    exact Except.ok.inj h2
  have hk : ∀ (N : ℕ) (g : Expr → ℤ → PyObj) (f : Valuation → ℂ),
      FRepresents ⟨form.form.mapVals (fun e => fformArray S ((freqs N).map (g e))), N⟩ k m f →
      ∃ e, form.getPc k = .ok e := by
    intro N g f ⟨a, o, h1, _⟩
    unfold FFormContainer.getPc at h1
    rw [Dict.get_ok_iff, Dict.get?_mapVals] at h1
    cases hk : Dict.get? form.form k with
    | none => rw [hk] at h1; cases h1
    | some e => exact ⟨e, Dict.get_ok_iff.2 hk⟩
  constructor
  · intro hr
    obtain ⟨e, he⟩ := hk _ _ _ hr
    have := FRepresents.unique hr (formToFform_rep S he hm)
    rw [this, key e he]
    exact formToFform_rep S he hm'
  · intro hr
    obtain ⟨e, he⟩ := hk _ _ _ hr
    have := FRepresents.unique hr (formToFform_rep S he hm')
    rw [this, ← key e he]
    exact formToFform_rep S he hm

/-- **C27.** For `M > 16` a formula that depends on `phi` makes `form_to_fform` raise: `IndexError`, or `KeyError` when
some formula has an unsupported shape. -/
theorem C27_above_16 (S : Sympy) {form : FormContainer} (hf : form.Reachable S) {M : ℕ} (hM : 16 < M)
    {k : Key} {e : Expr} (hk : form.getPc k = .ok e) (he : phi ∈ e.free) :
    ∃ err, formToFform S form M = .error err ∧ (err = .indexError ∨ err = .keyError) ∧
      ((∀ k e, form.getPc k = .ok e → Supported e) → err = .indexError) := by
  have hwf := hf.wf
  cases h : formToFform S form M with
  | ok c =>
    exfalso
    obtain ⟨o, ho⟩ := formToFform_ok_all S h (k, e) (Dict.mem_of_get? (Dict.get_ok_iff.1 hk)) 17 (mem_freqs.2 (by omega))
    obtain ⟨err, herr⟩ := fourierTransform_17 S he
    rw [herr] at ho
    cases ho
  | error err =>
    obtain ⟨it, hit, m, _, herr⟩ := formToFform_err S hwf h
    refine ⟨err, rfl, ?_, fun hs => ?_⟩
    · rcases herr with herr | herr
      · exact (fourierTransform_error S _ _ herr).symm
      · exact Or.inl herr
    · rcases herr with herr | herr
      · refine fourierTransform_supported_error S (hs it.1 it.2 ?_) m herr
        unfold FormContainer.getPc
        rw [Dict.get_ok_iff, Dict.get?_eq_some_iff hwf]; exact hit
      · exact herr

/-- **C27.** Formulas without `phi` are transformed for every `M`; only the component of frequency 0 is nonzero. -/
theorem C27_constant_formulas (S : Sympy) {form : FormContainer} (hf : form.Reachable S)
    (hs : ∀ k e, form.getPc k = .ok e → phi ∉ e.free) (M : ℕ) :
    ∃ c, formToFform S form M = .ok c ∧ c.getKeys = form.getKeys ∧
      ∀ k e, form.getPc k = .ok e → ∀ m, -(M : ℤ) ≤ m ∧ m ≤ M →
        FRepresents c k m (fun σ => if m = 0 then e.eval σ else 0) := by
  have hwf := hf.wf
  refine ⟨_, formToFform_ok S hwf (fun e m => if m = 0 then .sy e else .native 0 0) ?_,
    by simp [FFormContainer.getKeys, FormContainer.getKeys], ?_⟩
  · intro it hit m _
    refine fourierTransform_const S (hs it.1 it.2 ?_) m
    unfold FormContainer.getPc
    rw [Dict.get_ok_iff, Dict.get?_eq_some_iff hwf]; exact hit
  · intro k e hk m hm
    have := formToFform_rep S (g := fun e m => if m = 0 then .sy e else .native 0 0) hk hm
    have h2 : (fun σ => objValue σ (if m = 0 then PyObj.sy e else .native 0 0)) =
        fun σ => if m = 0 then e.eval σ else 0 := by
      funext σ
      by_cases h : m = 0 <;> simp [h, objValue]
    rwa [h2] at this

/-! ## C28, C23 -/

/-- **C28.** `fform_to_form` succeeds and its formulas are the Fourier series of the given coefficients. -/
theorem C28_series (S : Sympy) {c : FFormContainer} (hc : c.Reachable S) :
    ∃ f, fformToForm S c = .ok f ∧ f.getKeys = c.getKeys ∧
      ∀ k (F : ℤ → Valuation → ℂ), (∀ m, -(c.getM : ℤ) ≤ m ∧ m ≤ c.getM → FRepresents c k m (F m)) →
        Represents f k (fun σ => ∑ m ∈ Finset.Icc (-(c.getM : ℤ)) c.getM,
          F m σ * Complex.exp (Complex.I * (m * σ phi))) := by
  have hg := hc.good
  obtain ⟨f, h1, h2, h3, h4⟩ := fformToForm_ok S hg
  refine ⟨f, h1, h2, fun k F hF => ?_⟩
  obtain ⟨a, o, ha, ho, _⟩ := hF 0 (by omega)
  obtain ⟨e, he, hfe⟩ := h4 k a ha
  obtain ⟨e', he', hv, _⟩ := formulaFromFexpr_ok S (hg.len _ (hg.getPc_iff.1 ha))
  rw [hfe] at he'
  have := Except.ok.inj he'
  subst this
  refine ⟨e, he, fun σ => ?_⟩
  rw [hv σ, ← List.sum_toFinset _ (freqs_nodup c.M)]
  refine Finset.sum_congr ?_ (fun m hm => ?_)
  · ext m
    simp only [List.mem_toFinset, mem_freqs, Finset.mem_Icc]
    rfl
  · obtain ⟨a', o', ha', ho', hv'⟩ := hF m (by simpa [FFormContainer.getM, mem_freqs] using hm)
    rw [ha] at ha'
    have := Except.ok.inj ha'
    subst this
    rw [List.getD_eq_getElem?_getD]
    have : a.objs[(m + (c.M : ℤ)).toNat]? = some o' := ho'.2
    rw [this, ← hv' σ]
    rfl

/-- **C28.** For supported forms and `8 ≤ M ≤ 16`, `fform_to_form(form_to_fform(form, M))` has the same value as `form`
for every value of `phi` and of the parameters. -/
theorem C28_round_trip (S : Sympy) {form : FormContainer} (hf : form.Reachable S)
    (hs : ∀ k e, form.getPc k = .ok e → Supported e) {M : ℕ} (h8 : 8 ≤ M) (hM : M ≤ 16) :
    ∃ c f, formToFform S form M = .ok c ∧ fformToForm S c = .ok f ∧ f.getKeys = form.getKeys ∧
      ∀ k e, form.getPc k = .ok e → Represents f k (fun σ => e.eval σ) := by
  obtain ⟨c, h1, h2, h3, h4⟩ := formToFform_supported S hf hs hM
  have hc : c.Reachable S := by
    unfold formToFform at h1
    cases hl : form.getItems.foldlM (fun (it : Dict Key RawFF) kv => do
      let a ← fillFreqs M (PyObj.native 0 0) (2 * M + 1) (fun m => fourierTransform S kv.2 m)
      return Dict.set it kv.1 (.objArr a)) [] with
    | error e => rw [hl] at h1; cases h1
    | ok d => rw [hl] at h1; exact ⟨_, M, c, [], h1, rfl⟩
  obtain ⟨f, g1, g2, g3⟩ := C28_series S hc
  refine ⟨c, f, h1, g1, g2.trans h2, fun k e hk => ?_⟩
  have := g3 k (fun m σ => integralCoeff (fun x => ofAngle e σ x) m) (fun m hm => by
    rw [h3] at hm
    exact h4 k e hk m hm)
  have hfun : (fun σ : Valuation => ∑ m ∈ Finset.Icc (-(c.getM : ℤ)) c.getM,
      integralCoeff (fun x => ofAngle e σ x) m * Complex.exp (Complex.I * (m * σ phi))) = fun σ => e.eval σ := by
    funext σ
    rw [h3, supported_series S (hs k e hk) h8 σ (σ phi)]
    unfold ofAngle
    congr 1
    funext u
    simp only [assign]
    split
    · rename_i h; rw [h]
    · rfl
  rwa [hfun] at this

/-- The coefficients do not contain `phi`. -/
def Spec.CoefficientsFree (c : FFormContainer) : Prop :=
  ∀ k a m e, c.getPc k = .ok a → Component a.objs c.getM m (.sy e) → phi ∉ e.free

theorem objValue_free {c : FFormContainer} (hφ : CoefficientsFree c) {k : Key} {a : FArr} (ha : c.getPc k = .ok a)
    {m : ℤ} {o : PyObj} (ho : Component a.objs c.getM m o) (σ : Valuation) (z : ℂ) :
    objValue (assign σ phi z) o = objValue σ o := by
  cases o with
  | native re im => rfl
  | sy e => exact ofAngle_of_free (hφ k a m e ha ho) σ z

/-- **C28**, second half, the part that holds: the Fourier coefficients of the formulas returned by `fform_to_form` are
the given ones (when those do not contain `phi`).  What is missing is that `form_to_fform` finds them: it raises, see
`C28_second_half_broken`. -/
theorem C28_coefficients_partial (S : Sympy) {c : FFormContainer} (hc : c.Reachable S) (hφ : CoefficientsFree c) :
    ∃ f, fformToForm S c = .ok f ∧ f.getKeys = c.getKeys ∧
      ∀ k e, f.getPc k = .ok e → ∀ m, -(c.getM : ℤ) ≤ m ∧ m ≤ c.getM →
        FRepresents c k m (fun σ => integralCoeff (fun x => ofAngle e σ x) m) := by
  have hg := hc.good
  obtain ⟨f, h1, h2, h3⟩ := C28_series S hc
  refine ⟨f, h1, h2, fun k e hk m hm => ?_⟩
  have hkey : k ∈ c.getKeys := by
    rw [← h2]
    exact Dict.mem_keys_of_mem (Dict.mem_of_get? (Dict.get_ok_iff.1 hk))
  obtain ⟨a, ha⟩ := Dict.mem_keys.1 hkey
  have ha' := hg.getPc_iff.2 ha
  have hlen := hg.len _ ha
  have hcomp : ∀ m, -(c.getM : ℤ) ≤ m ∧ m ≤ c.getM →
      Component a.objs c.getM m (a.objs.getD (m + c.getM).toNat (.native 0 0)) := by
    intro m hm
    refine ⟨hm, ?_⟩
    have : (m + (c.getM : ℤ)).toNat < a.objs.length := by simp only at hlen; rw [hlen]; simp only [FFormContainer.getM] at hm ⊢; omega
    rw [List.getD_eq_getElem?_getD, List.getElem?_eq_getElem this]
    rfl
  have hr := h3 k (fun m σ => objValue σ (a.objs.getD (m + c.getM).toNat (.native 0 0)))
    (fun m hm => ⟨a, _, ha', hcomp m hm, fun σ => rfl⟩)
  obtain ⟨e', he', hv⟩ := hr
  rw [hk] at he'
  have := Except.ok.inj he'
  subst this
  refine ⟨a, _, ha', hcomp m hm, fun σ => ?_⟩
  have hfun : (fun x : ℝ => ofAngle e σ x) = fun x : ℝ => ∑ m ∈ Finset.Icc (-(c.getM : ℤ)) c.getM,
      objValue σ (a.objs.getD (m + c.getM).toNat (.native 0 0)) * Complex.exp (Complex.I * (m * x)) := by
    funext x
    unfold ofAngle
    rw [hv]
    refine Finset.sum_congr rfl (fun m hm => ?_)
    rw [objValue_free hφ ha' (hcomp m (Finset.mem_Icc.1 hm))]
    simp [assign]
  show _ = integralCoeff (fun x => ofAngle e σ x) m
  rw [hfun, integralCoeff_sum (Finset.Icc (-(c.getM : ℤ)) c.getM) _ (fun m => m) m, Finset.sum_eq_single m]
  · rw [if_pos rfl]
  · intro m' _ h; rw [if_neg h]
  · intro h; exact absurd (Finset.mem_Icc.2 hm) h

/-- **C28 fails** in its second half: `form_to_fform(fform_to_form(fform))` raises `KeyError`, because the formulas that
`fform_to_form` writes are not sums of explicit products. -/
theorem C28_second_half_broken : ∃ (S : Sympy) (c : FFormContainer) (f : FormContainer), c.Reachable S ∧
    CoefficientsFree c ∧ fformToForm S c = .ok f ∧ formToFform S f 1 = .error .keyError := by
  refine ⟨Sympy.plain, ⟨[(kPP, .obj [.sym symX, .num 0, .sym symX])], 1⟩,
    ⟨[(kPP, .add [.add [.add [.num 0, .mul [.sym symX, FFormContainer.phaseFactor Sympy.plain (.sym phi) (-1)]],
      .mul [.num 0, FFormContainer.phaseFactor Sympy.plain (.sym phi) 0]],
      .mul [.sym symX, FFormContainer.phaseFactor Sympy.plain (.sym phi) 1]])]⟩,
    ⟨[(.str kPP, .objArr [.sy (.sym symX), .native 0 0, .sy (.sym symX)])], 1, _, [], rfl, rfl⟩, ?_, rfl, ?_⟩
  · intro k a m e hk hc
    have := Dict.mem_of_get? (Dict.get_ok_iff.1 hk)
    simp only [List.mem_singleton, Prod.mk.injEq] at this
    rw [this.2] at hc
    have hm := hc.mem
    simp only [FArr.objs, List.map_cons, List.map_nil, List.mem_cons, PyObj.sy.injEq, List.not_mem_nil, or_false] at hm
    rcases hm with rfl | rfl | rfl <;> simp [Expr.free, phi, symX]
  · rfl

/-- **C23.** `phase_shift_fdata(a, units)` turns the represented function `f` into `x ↦ f(x + a)`. -/
theorem C23_fdata {c : FDataContainer} (hc : c.Reachable) (a : ℝ) {u : Key} (hu : lower u = sRadians ∨ lower u = sDegrees)
    {k : Key} {v : List ℂ} (hv : c.getPc k = .ok v) :
    ∃ v', (FDataContainer.step c (.phaseShift a u)).1.getPc k = .ok v' ∧
      ∀ x, series v' c.getM x = series v c.getM (x + rad (lower u) a) := by
  have hg := hc.good
  obtain ⟨p, hp⟩ := hg.num
  rw [FDataContainer.step_phaseShift hg.wf hg.len, if_pos hu, hp]
  refine ⟨mulComp c.M (fun m => harmonic m (FDataContainer.angle a u)) v, ?_, fun x => ?_⟩
  · show Dict.get _ k = _
    rw [Dict.get_ok_iff, Dict.get?_mapVals, Dict.get_ok_iff.1 hv]
    rfl
  · unfold series FDataContainer.getM
    refine Finset.sum_congr rfl (fun i hi => ?_)
    rw [List.getD_eq_getElem?_getD, getElem?_mulComp (by simpa using hi)]
    simp only [Option.getD_some, mul_assoc, harmonic]
    rw [← Complex.exp_add]
    have : rad (lower u) a = FDataContainer.angle a u := by
      rcases hu with hu | hu <;> simp [rad, FDataContainer.angle, hu, sRadians, sDegrees, deg2rad]
    rw [this]
    congr 2
    push_cast
    ring

/-- **C23.** `apply_phase_shift` on Fourier formulas and on formulas is the same translation: for every shift
expression `a`, `fform_to_form(fform shifted by a)` is `fform_to_form(fform)` shifted by `a` in `phi`, and both have at
every valuation the value of the unshifted formula at `phi + a`.  (The Fourier coefficients must not contain `phi`.) -/
theorem C23_fform_form (S : Sympy) {c : FFormContainer} (hc : c.Reachable S) (hφ : CoefficientsFree c) (a : Expr) :
    ∃ f f', fformToForm S c = .ok f ∧ fformToForm S (FFormContainer.step S c (.phaseShift a)).1 = .ok f' ∧
      f'.getKeys = f.getKeys ∧ ∀ k e, f.getPc k = .ok e →
        Represents f' k (fun σ => e.eval (assign σ phi (σ phi + a.eval σ))) ∧
        Represents (FormContainer.step S f (.phaseShift a phi)).1 k
          (fun σ => e.eval (assign σ phi (σ phi + a.eval σ))) := by
  have hg := hc.good
  have hc' : (FFormContainer.step S c (.phaseShift a)).1.Reachable S := by
    obtain ⟨iter, M, c₀, ops, h₀, rfl⟩ := hc
    exact ⟨iter, M, c₀, ops ++ [.phaseShift a], h₀, by simp [FFormContainer.run]⟩
  obtain ⟨f, h1, h2, h3⟩ := C28_series S hc
  obtain ⟨f', h1', h2', h3'⟩ := C28_series S hc'
  obtain ⟨s1, s2, s3⟩ := C32_fform_step S hc (.phaseShift a)
  have s4 : ∀ k m f, FRepresents c k m f →
      FRepresents (FFormContainer.step S c (.phaseShift a)).1 k m (fformEffect (.phaseShift a) m f) := by
    rcases s3 with ⟨_, h⟩ | ⟨_, _, pairs, h⟩
    · exact h
    · cases h
  refine ⟨f, f', h1, h1', h2'.trans (s1.trans h2.symm), fun k e hk => ?_⟩
  have hkey : k ∈ c.getKeys := by
    rw [← h2]
    exact Dict.mem_keys_of_mem (Dict.mem_of_get? (Dict.get_ok_iff.1 hk))
  obtain ⟨t, ht⟩ := Dict.mem_keys.1 hkey
  have ht' := hg.getPc_iff.2 ht
  have hlen := hg.len _ ht
  have hcomp : ∀ m, -(c.getM : ℤ) ≤ m ∧ m ≤ c.getM →
      Component t.objs c.getM m (t.objs.getD (m + c.getM).toNat (.native 0 0)) := by
    intro m hm
    refine ⟨hm, ?_⟩
    have : (m + (c.getM : ℤ)).toNat < t.objs.length := by
      simp only at hlen; rw [hlen]; simp only [FFormContainer.getM] at hm ⊢; omega
    rw [List.getD_eq_getElem?_getD, List.getElem?_eq_getElem this]
    rfl
  let F : ℤ → Valuation → ℂ := fun m σ => objValue σ (t.objs.getD (m + c.getM).toNat (.native 0 0))
  have hF : ∀ m, -(c.getM : ℤ) ≤ m ∧ m ≤ c.getM → FRepresents c k m (F m) := fun m hm =>
    ⟨t, _, ht', hcomp m hm, fun σ => rfl⟩
  obtain ⟨e', he', hv⟩ := h3 k F hF
  rw [hk] at he'
  have := Except.ok.inj he'
  subst this
  constructor
  · have := h3' k (fun m => fformEffect (.phaseShift a) m (F m)) (fun m hm => s4 k m _ (hF m (by rw [s2] at hm; exact hm)))
    have hfun : (fun σ : Valuation => ∑ m ∈ Finset.Icc (-((FFormContainer.step S c (.phaseShift a)).1.getM : ℤ))
        (FFormContainer.step S c (.phaseShift a)).1.getM,
        fformEffect (.phaseShift a) m (F m) σ * Complex.exp (Complex.I * (m * σ phi))) =
        fun σ => e.eval (assign σ phi (σ phi + a.eval σ)) := by
      funext σ
      rw [s2, hv]
      refine Finset.sum_congr rfl (fun m hm => ?_)
      have : F m (assign σ phi (σ phi + a.eval σ)) = F m σ := objValue_free hφ ht' (hcomp m (Finset.mem_Icc.1 hm)) σ _
      simp only [fformEffect, this, assign, if_true]
      rw [mul_assoc, ← Complex.exp_add]
      congr 2
      ring
    rwa [hfun] at this
  · have hwf : Dict.WF f.form := by
      obtain ⟨f2, g1, _, g3, _⟩ := fformToForm_ok S hg
      rw [h1] at g1
      have := Except.ok.inj g1
      subst this
      exact g3
    rw [FormContainer.step_eq S hwf]
    refine ⟨_, ?_, fun σ => FormContainer.eval_opF S (.phaseShift a phi) e (fun σ => e.eval σ) (fun _ => rfl) σ⟩
    unfold FormContainer.getPc
    rw [Dict.get_ok_iff, Dict.get?_mapVals, Dict.get_ok_iff.1 hk]
    rfl

/-! ### Concrete cases -/

section Examples

/-- `x*cos(phi)**2 + 3*y*cos(phi)*sin(phi)`. -/
def exTrig : Expr := .add [.mul [.sym symX, .pow (.cos (.sym phi)) 2],
  .mul [.num 3, .sym symY, .cos (.sym phi), .sin (.sym phi)]]

theorem exTrig_expanded : ExpandedSum exTrig := by
  refine ⟨_, rfl, ?_⟩
  intro t ht
  simp only [List.mem_cons, List.not_mem_nil, or_false] at ht
  rcases ht with rfl | rfl
  · exact ⟨_, _, _, rfl, .coeff (by simp [Expr.free, symX, phi]) (.trig (.cosPow 2) .nil), by omega⟩
  · exact ⟨_, _, _, rfl, .coeff (by simp [Expr.free]) (.coeff (by simp [Expr.free, symY, phi])
      (.trig .cos (.trig .sin .nil))), by omega⟩

theorem exTrig_form (k : Key) (e : Expr) (h : (singleForm kPP exTrig).getPc k = .ok e) : e = exTrig := by
  have := Dict.mem_of_get? (Dict.get_ok_iff.1 h)
  simp only [singleForm, List.mem_singleton, Prod.mk.injEq] at this
  exact this.2

example : ∃ c, formToFform Sympy.plain (singleForm kPP exTrig) 16 = .ok c ∧
    FRepresents c kPP 2 (fun σ => integralCoeff (fun x => ofAngle exTrig σ x) 2) := by
  obtain ⟨c, h1, _, _, h4⟩ := C25_expanded_sums Sympy.plain (singleForm_reachable _ kPP exTrig)
    (fun k e h => by rw [exTrig_form k e h]; exact exTrig_expanded) (le_refl 16)
  exact ⟨c, h1, (h4 kPP exTrig (singleForm_getPc _ _)).1 2 (by norm_num)⟩

/-- The other supported shapes. -/
example : Supported (.mul [.sym symX, .cos (.sym phi), .sin (.sym phi)]) ∧ Supported (.pow (.cos (.sym phi)) 4) ∧
    Supported (.mul [.sym symX, .sym symY]) ∧ Supported exTrig :=
  ⟨.prod (.coeff (by simp [Expr.free, symX, phi]) (.trig .cos (.trig .sin .nil))) (by omega) (by decide) (by decide),
    .cosPow (by omega), .const (by simp [Expr.free, Expr.freeL, symX, symY, phi]), .sum exTrig_expanded⟩

example : ∃ c f, formToFform Sympy.plain (singleForm kPP exTrig) 9 = .ok c ∧ fformToForm Sympy.plain c = .ok f ∧
    Represents f kPP (fun σ => exTrig.eval σ) := by
  obtain ⟨c, f, h1, h2, _, h4⟩ := C28_round_trip Sympy.plain (singleForm_reachable _ kPP exTrig)
    (fun k e h => by rw [exTrig_form k e h]; exact .sum exTrig_expanded) (M := 9) (by omega) (by omega)
  exact ⟨c, f, h1, h2, h4 kPP exTrig (singleForm_getPc _ _)⟩

example : ∃ err, formToFform Sympy.plain (singleForm kPP exTrig) 17 = .error err ∧ err = .indexError := by
  obtain ⟨err, h1, _, h3⟩ := C27_above_16 Sympy.plain (singleForm_reachable _ kPP exTrig) (M := 17) (by omega)
    (singleForm_getPc _ _) (by simp [exTrig, Expr.free, Expr.freeL])
  exact ⟨err, h1, h3 (fun k e h => by rw [exTrig_form k e h]; exact .sum exTrig_expanded)⟩

end Examples

end Shgpy
