import Verif.Props.FourierTransform

/-!
# C26: what `form_to_fform` computes
-/

namespace Shgpy
open Spec

theorem getCode_one {l : List Expr} {a b : ℕ} (h : TrigProduct l a b) (h1 : a + b = 1) : getCode (keyterm (.mul l)) = (0, 0) := by
  have hg := h.grouped (acc := []) (m := 0) (k := 0) (Or.inl ⟨rfl, rfl, rfl⟩)
  have hg : Grouped (collect (gen (.mul l))) a b := by simpa [collect, gen, Expr.args] using hg
  show getCode (mulOf (gen (.mul l))) = (0, 0)
  unfold mulOf
  rcases hg with ⟨hc, rfl, rfl⟩ | ⟨hc, h3, rfl⟩ | ⟨hc, rfl, h3⟩ | ⟨hc, h3, h4⟩ | ⟨hc, h3, h4⟩
  · omega
  · obtain rfl : a = 1 := by omega
    rw [hc]; rfl
  · obtain rfl : b = 1 := by omega
    rw [hc]; rfl
  · omega
  · omega

theorem noPhi_eq (l : List Expr) : l.filter (fun f => decide (phi ∉ f.free)) = noPhi l := by
  unfold noPhi hasPhi
  congr 1
  funext f
  simp

theorem trigPoly_congr {F G : ℂ → ℂ} {c : ℤ → ℂ} (h : TrigPoly F c) (e : ∀ z, G z = F z) : TrigPoly G c :=
  ⟨h.zero, fun z => (e z).trans (h.sum z)⟩

/-- The transform of a formula is that of the formula it is taken for. -/
theorem fourierTransform_readAs (S : Sympy) {e e' : Expr} (h : ReadAs e e') :
    ∃ c : Valuation → ℤ → ℂ, (∀ σ, TrigPoly (ofAngle e' σ) (c σ)) ∧
      ∀ n, -16 ≤ n ∧ n ≤ 16 → ∃ o, fourierTransform S e n = .ok o ∧ ∀ σ, objValue σ o = c σ n := by
  cases h with
  | const hc => exact fourierTransform_supported S (.const hc)
  | @sum ts hphi hts =>
    obtain ⟨c, hc, hm⟩ := fourierTransform_add S (hasPhi_iff.2 hphi) hts
    refine ⟨c, fun σ => trigPoly_congr (hc σ) (fun z => ?_), fun n hn => ?_⟩
    · unfold ofAngle
      rw [Expr.eval, evalSum_congr (f := fun t => t.eval (assign σ phi z)) (fun _ _ => rfl), List.map_map]
      rfl
    · obtain ⟨e', h1, h2⟩ := hm n hn
      exact ⟨_, h1, h2⟩
  | @prod l a b hl hd h1 =>
    exact fourierTransform_supported S (.prod hl hd (by rintro h; cases h; omega) (by rintro h; cases h; omega))
  | @factor l a b hl h1 =>
    have hphi : hasPhi (.mul l) = true := by
      by_contra hn
      have hn : phi ∉ (Expr.mul l).free := by rw [← hasPhi_iff]; exact hn
      have : ∀ {l a b}, TrigProduct l a b → phi ∉ (Expr.mul l).free → a = 0 ∧ b = 0 := by
        intro l a b h
        induction h with
        | nil => intro _; exact ⟨rfl, rfl⟩
        | coeff _ _ ih =>
          intro hn
          apply ih
          intro hh
          apply hn
          simp only [Expr.free, Expr.freeL, List.mem_append] at hh ⊢
          exact Or.inr hh
        | trig hf _ _ =>
          intro hn
          exact absurd (by
            have := hasPhi_iff.1 hf.hasPhi
            simp only [Expr.free, Expr.freeL, List.mem_append]
            exact Or.inl this) hn
      have := this hl hn
      omega
    rw [noPhi_eq]
    refine ⟨fun σ n => if n = 0 then Expr.evalProd σ (noPhi l) else 0, fun σ =>
      trigPoly_congr (TrigPoly.const (Expr.evalProd σ (noPhi l))) (fun z => ?_), fun n hn => ?_⟩
    · exact evalProd_noPhi l σ z
    · obtain ⟨o, ho, hv⟩ := fourierTransform_single S (e := .mul l) rfl hphi (getCode_one hl h1) (by omega) hn
      refine ⟨o, ho, fun σ => ?_⟩
      rw [hv σ, entry_00]
      show Expr.evalProd σ (noPhi l) * _ = _
      by_cases h0 : n = 0 <;> simp [h0]
  | cosPow h => exact fourierTransform_supported S (.cosPow h)
  | sinPow h => exact fourierTransform_supported S (.sinPow h)
  | cos =>
    refine ⟨fun σ n => if n = 0 then 1 else 0, fun σ => trigPoly_congr (TrigPoly.const 1) (fun z => by simp [ofAngle, Expr.eval]),
      fun n hn => ?_⟩
    obtain ⟨o, ho, hv⟩ := fourierTransform_single S (e := .cos (.sym phi)) rfl (by simp [hasPhi, Expr.free]) (a := 0) (b := 0) rfl
      (by omega) hn
    exact ⟨o, ho, fun σ => by rw [hv σ, entry_00]; simp [quotientArgs, Expr.evalProd]⟩
  | sin =>
    refine ⟨fun σ n => if n = 0 then 1 else 0, fun σ => trigPoly_congr (TrigPoly.const 1) (fun z => by simp [ofAngle, Expr.eval]),
      fun n hn => ?_⟩
    obtain ⟨o, ho, hv⟩ := fourierTransform_single S (e := .sin (.sym phi)) rfl (by simp [hasPhi, Expr.free]) (a := 0) (b := 0) rfl
      (by omega) hn
    exact ⟨o, ho, fun σ => by rw [hv σ, entry_00]; simp [quotientArgs, Expr.evalProd]⟩

/-- **C26**, exactly: component `m` of the transform of a formula `e` is the Fourier coefficient of the formula `e'` that `e` is taken
for, so it is right exactly when `e` and `e'` have the same Fourier coefficient. -/
theorem C26_exact (S : Sympy) {form : FormContainer} (hf : form.Reachable S) {e' : Key → Expr}
    (hs : ∀ k e, form.getPc k = .ok e → ReadAs e (e' k)) {M : ℕ} (hM : M ≤ 16) :
    ∃ c, formToFform S form M = .ok c ∧ c.getKeys = form.getKeys ∧ c.getM = M ∧
      ∀ k e, form.getPc k = .ok e → ∀ m, -(M : ℤ) ≤ m ∧ m ≤ M →
        FRepresents c k m (fun σ => integralCoeff (fun x => ofAngle (e' k) σ x) m) ∧
        (FRepresents c k m (fun σ => integralCoeff (fun x => ofAngle e σ x) m) ↔
          ∀ σ, integralCoeff (fun x => ofAngle e σ x) m = integralCoeff (fun x => ofAngle (e' k) σ x) m) := by
  have hwf := hf.wf
  have hget : ∀ it ∈ form.form, form.getPc it.1 = .ok it.2 := fun it hit => by
    unfold FormContainer.getPc
    rw [Dict.get_ok_iff, Dict.get?_eq_some_iff hwf]; exact hit
  have hall : ∀ it ∈ form.form, ∀ m ∈ freqs M, ∃ o, fourierTransform S it.2 m = .ok o := by
    intro it hit m hm
    obtain ⟨c, _, h2⟩ := fourierTransform_readAs S (hs it.1 it.2 (hget it hit))
    rw [mem_freqs] at hm
    obtain ⟨o, ho, _⟩ := h2 m (by omega)
    exact ⟨o, ho⟩
  obtain ⟨g, hg⟩ := choose_values hall
  refine ⟨_, formToFform_ok S hwf g hg, by simp [FFormContainer.getKeys, FormContainer.getKeys], rfl, ?_⟩
  intro k e hk m hm
  have hmem : (k, e) ∈ form.form := Dict.mem_of_get? (Dict.get_ok_iff.1 hk)
  have h1 := formToFform_rep S (g := g) hk hm
  obtain ⟨c, hc, h2⟩ := fourierTransform_readAs S (hs k e hk)
  obtain ⟨o, ho, hv⟩ := h2 m (by omega)
  have h3 := hg (k, e) hmem m (mem_freqs.2 hm)
  rw [ho] at h3
  have := Except.ok.inj h3
  have h4 : (fun σ => objValue σ (g e m)) = fun σ => integralCoeff (fun x => ofAngle (e' k) σ x) m := by
    funext σ
    rw [(hc σ).coeff m, ← hv σ, this]
  rw [h4] at h1
  refine ⟨h1, fun h => ?_, fun h => ?_⟩
  · exact fun σ => congrFun (FRepresents.unique h h1) σ
  · rwa [show (fun σ => integralCoeff (fun x => ofAngle e σ x) m) = fun σ => integralCoeff (fun x => ofAngle (e' k) σ x) m from
      funext h]

theorem monoCode_some : ∀ {l : List Expr} {a b : ℕ}, monoCode (l.filter hasPhi) = some (a, b) → TrigProduct l a b
  | [], a, b, h => by
    simp only [List.filter_nil, monoCode, Option.some.injEq, Prod.mk.injEq] at h
    obtain ⟨rfl, rfl⟩ := h
    exact .nil
  | f :: r, a, b, h => by
    by_cases hp : hasPhi f = true
    · rw [List.filter_cons_of_pos hp, monoCode] at h
      cases hr : monoCode (r.filter hasPhi) with
      | none => rw [hr] at h; cases h
      | some ab =>
        obtain ⟨a1, b1⟩ := ab
        have ih := monoCode_some hr
        rw [hr] at h
        dsimp only at h
        split_ifs at h with h1 h2
        · cases h; subst h1
          rw [add_comm]; simpa using TrigProduct.trig .cos ih
        · cases h; subst h2
          rw [add_comm]; simpa using TrigProduct.trig .sin ih
        · split at h
          · split_ifs at h with h3 h4
            · cases h; subst h3
              rw [add_comm]; simpa using TrigProduct.trig (.cosPow _) ih
            · cases h; subst h4
              rw [add_comm]; simpa using TrigProduct.trig (.sinPow _) ih
          · cases h
    · rw [List.filter_cons_of_neg hp] at h
      exact .coeff (by rw [← hasPhi_iff]; exact hp) (monoCode_some h)

/-- A sum is transformed exactly when the arguments of every summand are coefficients and at most 8 cosines and sines. -/
theorem C26_sums (S : Sympy) {ts : List Expr} (hphi : phi ∈ (Expr.add ts).free) (k : Key) {M : ℕ} (hM : M ≤ 16) :
    (∃ c, formToFform S (singleForm k (.add ts)) M = .ok c) ↔ ∀ t ∈ ts, ∃ a b, TrigProduct t.args a b ∧ a + b ≤ 8 := by
  constructor
  · rintro ⟨c, hc⟩ t ht
    obtain ⟨o, ho⟩ := formToFform_ok_all S hc (k, .add ts) (by simp [singleForm]) 0 (mem_freqs.2 (by omega))
    obtain ⟨rel, hrel, hr1, hr2⟩ := relevantCodes_ok (n := 0) (by omega)
    rw [fourierTransform_sum_eq S rfl (hasPhi_iff.2 hphi), hrel] at ho
    have h' : (ts.mapM (transformArg S rel) >>= fun args => Except.ok (PyObj.sy (S.norm (.add args)))) = .ok o := ho
    cases hm : ts.mapM (transformArg S rel) with
    | error e => rw [hm] at h'; cases h'
    | ok rs =>
      have hall : ∀ {l : List Expr} {rs}, l.mapM (transformArg S rel) = .ok rs → ∀ t ∈ l, ∃ r, transformArg S rel t = .ok r := by
        intro l
        induction l with
        | nil => intro _ _ t ht; cases ht
        | cons a l ih =>
          intro rs h t ht
          rw [List.mapM_cons] at h
          cases ha : transformArg S rel a with
          | error e => rw [ha] at h; cases h
          | ok r =>
            rw [ha] at h
            cases hl : l.mapM (transformArg S rel) with
            | error e => rw [hl] at h; cases h
            | ok rs' =>
              rcases List.mem_cons.1 ht with rfl | ht
              · exact ⟨r, ha⟩
              · exact ih hl t ht
      obtain ⟨r, hr⟩ := hall hm t ht
      have e1 : (mappingGet rel (t.args.filter hasPhi) >>= fun v =>
        (Except.ok (S.norm (.mul (t.args.filter (fun a => !hasPhi a) ++ [v.sympify S]))) : Except Err Expr)) = .ok r := hr
      cases hg : mappingGet rel (t.args.filter hasPhi) with
      | error e => rw [hg] at e1; cases e1
      | ok v =>
        unfold mappingGet at hg
        cases hcd : monoCode (t.args.filter hasPhi) with
        | none => rw [hcd] at hg; cases hg
        | some ab =>
          obtain ⟨a, b⟩ := ab
          refine ⟨a, b, monoCode_some hcd, ?_⟩
          by_contra hab
          rw [hcd] at hg
          simp only at hg
          rw [hr2 a b hab] at hg
          cases hg
  · intro h
    obtain ⟨c, hc, _⟩ := C26_exact S (singleForm_reachable S k (.add ts)) (e' := fun _ => .add (ts.map (fun t => .mul t.args)))
      (fun k' e he => by
        have : (k', e) = (k, .add ts) := by
          have := Dict.mem_of_get? (Dict.get_ok_iff.1 he)
          simpa [singleForm] using this
        cases this
        exact .sum hphi h) hM
    exact ⟨c, hc⟩

/-- `cos(phi)**2 + x*sin(phi)**2 + x` is taken for `2*cos(phi) + x*sin(phi)**2 + 1`, and `x*cos(phi)` for `x`. -/
example {x : Sym} (hx : x ≠ phi) :
    ReadAs (.add [.pow (.cos (.sym phi)) 2, .mul [.sym x, .pow (.sin (.sym phi)) 2], .sym x])
      (.add [.mul [.cos (.sym phi), .num 2], .mul [.sym x, .pow (.sin (.sym phi)) 2], .mul []]) ∧
    ReadAs (.mul [.sym x, .cos (.sym phi)]) (.mul [.sym x]) := by
  have hxf : phi ∉ (Expr.sym x).free := by simp only [Expr.free, List.mem_singleton]; exact fun h => hx h.symm
  constructor
  · refine ReadAs.sum (by simp [Expr.free, Expr.freeL]) ?_
    intro t ht
    simp only [List.mem_cons, List.not_mem_nil, or_false] at ht
    rcases ht with rfl | rfl | rfl
    · exact ⟨1, 0, .trig .cos (.coeff (by simp [Expr.free]) .nil), by omega⟩
    · exact ⟨0, 2, .coeff hxf (.trig (.sinPow 2) .nil), by omega⟩
    · exact ⟨0, 0, .nil, by omega⟩
  · have := ReadAs.factor (l := [.sym x, .cos (.sym phi)]) (a := 1) (b := 0) (.coeff hxf (.trig .cos .nil)) rfl
    rwa [show ([.sym x, .cos (.sym phi)] : List Expr).filter (fun f => decide (phi ∉ f.free)) = [.sym x] by
      rw [List.filter_cons_of_pos (by simpa using hxf), List.filter_cons_of_neg (by simp [Expr.free])]; rfl] at this

end Shgpy
