import Verif.Proofs.Integral
import Verif.Proofs.Form

/-!
# Proofs about `form_to_fform`
-/

set_option linter.unusedSectionVars false
set_option linter.unusedSimpArgs false

namespace Shgpy
open Spec

/-! ### Trigonometric polynomials of degree 8 -/

/-- `F` is the trigonometric polynomial with coefficients `c`, of degree at most 8. -/
structure TrigPoly (F : ℂ → ℂ) (c : ℤ → ℂ) : Prop where
  zero : ∀ n, ¬ (-8 ≤ n ∧ n ≤ 8) → c n = 0
  sum : ∀ z, F z = ∑ n ∈ Finset.Icc (-8 : ℤ) 8, c n * Complex.exp (Complex.I * (n * z))

theorem TrigPoly.coeff {F : ℂ → ℂ} {c : ℤ → ℂ} (h : TrigPoly F c) (n : ℤ) :
    integralCoeff (fun x : ℝ => F x) n = c n := by
  have h1 : (fun x : ℝ => F x) = fun x : ℝ => ∑ m ∈ Finset.Icc (-8 : ℤ) 8, c m * Complex.exp (Complex.I * (m * x)) := by
    funext x; exact h.sum x
  rw [h1, integralCoeff_sum (Finset.Icc (-8 : ℤ) 8) c (fun m => m) n]
  by_cases hn : -8 ≤ n ∧ n ≤ 8
  · rw [Finset.sum_eq_single n]
    · rw [if_pos rfl]
    · intro m _ hm; rw [if_neg hm]
    · intro hm; exact absurd (Finset.mem_Icc.2 hn) hm
  · rw [h.zero n hn]
    refine Finset.sum_eq_zero (fun m hm => ?_)
    rw [if_neg]
    rintro rfl
    exact hn (Finset.mem_Icc.1 hm)

theorem TrigPoly.sum_of_le {F : ℂ → ℂ} {c : ℤ → ℂ} (h : TrigPoly F c) {M : ℕ} (hM : 8 ≤ M) (z : ℂ) :
    F z = ((freqs M).map (fun m : ℤ => c m * Complex.exp (Complex.I * (m * z)))).sum := by
  have h1 : ((freqs M).map (fun m : ℤ => c m * Complex.exp (Complex.I * (m * z)))).sum =
      ∑ m ∈ Finset.Icc (-(M : ℤ)) M, c m * Complex.exp (Complex.I * (m * z)) := by
    rw [← List.sum_toFinset _ (freqs_nodup M)]
    refine Finset.sum_congr ?_ (fun _ _ => rfl)
    ext m
    simp only [List.mem_toFinset, mem_freqs, Finset.mem_Icc]
  rw [h1, h.sum z]
  refine Finset.sum_subset ?_ ?_
  · intro m hm
    simp only [Finset.mem_Icc] at hm ⊢
    omega
  · intro m _ hm
    rw [h.zero m (by simpa only [Finset.mem_Icc] using hm), zero_mul]

theorem TrigPoly.add {F G : ℂ → ℂ} {c d : ℤ → ℂ} (hF : TrigPoly F c) (hG : TrigPoly G d) :
    TrigPoly (fun z => F z + G z) (fun n => c n + d n) := by
  refine ⟨fun n hn => by simp only [hF.zero n hn, hG.zero n hn, add_zero], fun z => ?_⟩
  simp only [hF.sum z, hG.sum z, add_mul, Finset.sum_add_distrib]

theorem TrigPoly.smul {F : ℂ → ℂ} {c : ℤ → ℂ} (k : ℂ) (hF : TrigPoly F c) :
    TrigPoly (fun z => k * F z) (fun n => k * c n) := by
  refine ⟨fun n hn => by simp only [hF.zero n hn, mul_zero], fun z => ?_⟩
  simp only [hF.sum z, Finset.mul_sum, mul_assoc]

theorem TrigPoly.zero' : TrigPoly (fun _ => 0) (fun _ => 0) := ⟨fun _ _ => rfl, fun z => by simp⟩

theorem TrigPoly.const (k : ℂ) : TrigPoly (fun _ => k) (fun n => if n = 0 then k else 0) := by
  refine ⟨fun n hn => ?_, fun z => ?_⟩
  · rw [if_neg (by omega)]
  · rw [Finset.sum_eq_single 0]
    · simp
    · intro m _ hm; rw [if_neg hm, zero_mul]
    · intro h; exact absurd (by simp) h

namespace Lookup

theorem row_support : ∀ c ∈ codes, ((row c.1 c.2).zipIdx.all
    (fun p => decide (8 ≤ p.2 ∧ p.2 ≤ 24) || decide (p.1 = (0, 0)))) = true := by
  decide +kernel

theorem entry_zero {a b : ℕ} (h : a + b ≤ 8) {n : ℤ} (hn : ¬ (-8 ≤ n ∧ n ≤ 8)) : entry a b n = 0 := by
  unfold entry
  by_cases h16 : -16 ≤ n ∧ n ≤ 16
  · rw [if_pos h16]
    have h1 := row_support (a, b) (mem_codes.2 h)
    rw [List.all_eq_true] at h1
    have hlen := row_length (a, b) (mem_codes.2 h)
    have hlt : (n + 16).toNat < (row a b).length := by simp only at hlen; omega
    have h2 := h1 ((row a b)[(n + 16).toNat], (n + 16).toNat) (by
      rw [List.mem_iff_getElem?]
      exact ⟨(n + 16).toNat, by simp [hlt]⟩)
    simp only [Bool.or_eq_true, decide_eq_true_eq] at h2
    rcases h2 with h2 | h2
    · omega
    · rw [List.getD_eq_getElem?_getD, List.getElem?_map, List.getElem?_eq_getElem hlt, h2]
      simp [gz]
  · rw [if_neg h16]

theorem trigPoly {a b : ℕ} (h : a + b ≤ 8) :
    TrigPoly (fun z => Complex.cos z ^ a * Complex.sin z ^ b) (entry a b) := by
  refine ⟨fun n hn => entry_zero h hn, fun z => ?_⟩
  rw [← sum_table h z]
  have h1 : ∑ n ∈ Finset.Icc (-8 : ℤ) 8, entry a b n * Complex.exp (Complex.I * (n * z)) =
      ∑ n ∈ Finset.Icc (-16 : ℤ) 16, entry a b n * Complex.exp (Complex.I * (n * z)) := by
    refine Finset.sum_subset ?_ ?_
    · intro m hm
      simp only [Finset.mem_Icc] at hm ⊢
      omega
    · intro m _ hm
      rw [entry_zero h (by simpa only [Finset.mem_Icc] using hm), zero_mul]
  rw [h1]
  refine Finset.sum_bij' (fun i _ => (i : ℤ) - 16) (fun m _ => (m + 16).toNat) ?_ ?_ ?_ ?_ ?_
  · intro i hi; simp only [Finset.mem_range] at hi; simp only [Finset.mem_Icc]; omega
  · intro m hm; simp only [Finset.mem_Icc] at hm; simp only [Finset.mem_range]; omega
  · intro i hi; omega
  · intro m hm; simp only [Finset.mem_Icc] at hm; omega
  · intro i hi
    simp only [Finset.mem_range] at hi
    unfold entry
    rw [if_pos (by omega)]
    congr 2
    · omega

end Lookup

/-! ### Products -/

theorem hasPhi_iff {e : Expr} : hasPhi e = true ↔ phi ∈ e.free := by simp [hasPhi]

theorem hasPhi_false {e : Expr} : hasPhi e = false ↔ phi ∉ e.free := by simp [hasPhi]

theorem Spec.TrigFactor.hasPhi {f : Expr} {a b : ℕ} (h : TrigFactor f a b) : hasPhi f = true := by
  rw [hasPhi_iff]
  cases h <;> simp [Expr.free]

theorem Spec.TrigFactor.eval {f : Expr} {a b : ℕ} (h : TrigFactor f a b) (σ : Valuation) :
    f.eval σ = Complex.cos (σ phi) ^ a * Complex.sin (σ phi) ^ b := by
  cases h <;> simp [Expr.eval]

theorem monoCode_cons {f : Expr} {a b a' b' : ℕ} (h : TrigFactor f a' b') {r : List Expr}
    (hr : monoCode r = some (a, b)) : monoCode (f :: r) = some (a' + a, b' + b) := by
  cases h <;> simp [monoCode, hr, add_comm]

/-- The factors free of `phi`. -/
def noPhi (l : List Expr) : List Expr := l.filter (fun a => !hasPhi a)

theorem Spec.TrigProduct.code {l : List Expr} {a b : ℕ} (h : TrigProduct l a b) :
    monoCode (l.filter Shgpy.hasPhi) = some (a, b) := by
  induction h with
  | nil => rfl
  | coeff hc _ ih => rw [List.filter_cons_of_neg (by rw [hasPhi_iff]; exact hc)]; exact ih
  | trig hf _ ih => rw [List.filter_cons_of_pos hf.hasPhi]; exact monoCode_cons hf ih

theorem Spec.TrigProduct.eval {l : List Expr} {a b : ℕ} (h : TrigProduct l a b) (σ : Valuation) :
    Expr.evalProd σ l = Expr.evalProd σ (noPhi l) * (Complex.cos (σ phi) ^ a * Complex.sin (σ phi) ^ b) := by
  induction h with
  | nil => simp [noPhi, Expr.evalProd]
  | @coeff c r a b hc _ ih =>
    have : noPhi (c :: r) = c :: noPhi r := List.filter_cons_of_pos (by simpa [Shgpy.hasPhi] using hc)
    rw [this]
    simp only [Expr.evalProd, ih]
    ring
  | @trig f r a b a' b' hf _ ih =>
    have : noPhi (f :: r) = noPhi r := List.filter_cons_of_neg (by simp [hf.hasPhi])
    rw [this]
    simp only [Expr.evalProd, ih, hf.eval σ, pow_add]
    ring

theorem Spec.ofAngle_of_free {e : Expr} (h : phi ∉ e.free) (σ : Valuation) (z : ℂ) : ofAngle e σ z = e.eval σ := by
  unfold ofAngle
  apply Expr.eval_congr
  intro s hs
  simp only [assign]
  rw [if_neg]
  rintro rfl
  exact h hs

theorem evalProd_noPhi (l : List Expr) (σ : Valuation) (z : ℂ) :
    Expr.evalProd (assign σ phi z) (noPhi l) = Expr.evalProd σ (noPhi l) := by
  have h : ∀ e ∈ noPhi l, phi ∉ e.free := by
    intro e he
    have := (List.mem_filter.1 he).2
    simpa [hasPhi] using this
  generalize noPhi l = m at h
  induction m with
  | nil => rfl
  | cons e m ih =>
    simp only [Expr.evalProd]
    rw [ih (fun e' he' => h e' (List.mem_cons_of_mem _ he'))]
    have := ofAngle_of_free (h e List.mem_cons_self) σ z
    unfold ofAngle at this
    rw [this]

theorem Spec.TrigProduct.angle {l : List Expr} {a b : ℕ} (h : TrigProduct l a b) (σ : Valuation) (z : ℂ) :
    Expr.evalProd (assign σ phi z) l =
      Expr.evalProd σ (noPhi l) * (Complex.cos z ^ a * Complex.sin z ^ b) := by
  rw [h.eval, evalProd_noPhi]
  simp [assign]

theorem Spec.TrigProduct.poly {l : List Expr} {a b : ℕ} (h : TrigProduct l a b) (hd : a + b ≤ 8) (σ : Valuation) :
    TrigPoly (fun z => Expr.evalProd (assign σ phi z) l)
      (fun n => Expr.evalProd σ (noPhi l) * Lookup.entry a b n) := by
  have := TrigPoly.smul (Expr.evalProd σ (noPhi l)) (Lookup.trigPoly hd)
  simpa only [h.angle] using this

/-! ### The table lookup -/

theorem pyGet_33 {α : Type} {r : List α} (hr : r.length = 33) {n : ℤ} (hn : -16 ≤ n ∧ n ≤ 16) :
    ∃ v, pyGet r (n2i n 16) = .ok v ∧ r[(n + 16).toNat]? = some v := by
  have hlt : (n + 16).toNat < r.length := by omega
  refine ⟨r[(n + 16).toNat], ?_, List.getElem?_eq_getElem hlt⟩
  unfold pyGet n2i
  rw [if_pos (by omega), List.getElem?_eq_getElem hlt]

/-- The table entry of a code, with its value. -/
theorem table_entry {a b : ℕ} (h : a + b ≤ 8) {n : ℤ} (hn : -16 ≤ n ∧ n ≤ 16) :
    ∃ r v, Dict.get? Lookup.table (a, b) = some r ∧ pyGet r (n2i n 16) = .ok v ∧
      ∀ σ, objValue σ v = Lookup.entry a b n := by
  obtain ⟨r, hr, hlen, hval⟩ := Lookup.get_table h
  obtain ⟨v, hv, hg⟩ := pyGet_33 hlen hn
  refine ⟨r, v, hr, hv, fun σ => ?_⟩
  unfold Lookup.entry
  rw [if_pos hn, ← hval σ, List.getD_eq_getElem?_getD, List.getElem?_map, hg]
  rfl

theorem mapValsM_get? {κ α β : Type} [DecidableEq κ] {f : α → Except Err β} {d : Dict κ α} {d' : Dict κ β}
    (h : Dict.mapValsM f d = .ok d') (k : κ) :
    (∀ v, Dict.get? d k = some v → ∃ w, f v = .ok w ∧ Dict.get? d' k = some w) ∧
    (Dict.get? d k = none → Dict.get? d' k = none) := by
  induction d generalizing d' with
  | nil => cases h; simp [Dict.get?]
  | cons p d ih =>
    obtain ⟨k', v'⟩ := p
    simp only [Dict.mapValsM] at h
    cases hv : f v' with
    | error e => rw [hv] at h; cases h
    | ok w =>
      rw [hv] at h
      cases hr : Dict.mapValsM f d with
      | error e => rw [hr] at h; cases h
      | ok r =>
        rw [hr] at h
        have := Except.ok.inj h
        subst this
        simp only [Dict.get?]
        by_cases hk : k' = k
        · rw [if_pos hk, if_pos hk]
          refine ⟨fun v hv' => ?_, fun hn => by cases hn⟩
          cases hv'
          exact ⟨w, hv, rfl⟩
        · rw [if_neg hk, if_neg hk]
          exact ih hr

theorem relevantCodes_ok {n : ℤ} (hn : -16 ≤ n ∧ n ≤ 16) :
    ∃ rel, relevantCodes n = .ok rel ∧
      (∀ a b, a + b ≤ 8 → ∃ v, Dict.get rel (a, b) = .ok v ∧ ∀ σ, objValue σ v = Lookup.entry a b n) ∧
      (∀ a b, ¬ a + b ≤ 8 → Dict.get rel (a, b) = .error .keyError) := by
  cases h : relevantCodes n with
  | error e =>
    obtain ⟨it, hit, he⟩ := Dict.mapValsM_error h
    have hlen := (Lookup.rows_ok it hit).2
    obtain ⟨v, hv, _⟩ := pyGet_33 hlen hn
    rw [hv] at he
    cases he
  | ok rel =>
    refine ⟨rel, rfl, fun a b hab => ?_, fun a b hab => ?_⟩
    · obtain ⟨r, v, hr, hv, hval⟩ := table_entry hab hn
      obtain ⟨w, hw, hg⟩ := (mapValsM_get? h (a, b)).1 r hr
      rw [hv] at hw
      have := Except.ok.inj hw
      subst this
      exact ⟨v, Dict.get_ok_iff.2 hg, hval⟩
    · have := (mapValsM_get? h (a, b)).2 (Lookup.get_table_none hab)
      unfold Dict.get
      rw [this]

/-! ### The transform -/

theorem evalProd_append (σ : Valuation) (l m : List Expr) :
    Expr.evalProd σ (l ++ m) = Expr.evalProd σ l * Expr.evalProd σ m := by
  induction l with
  | nil => simp [Expr.evalProd]
  | cons e l ih => simp only [List.cons_append, Expr.evalProd, ih, mul_assoc]

theorem transformArg_ok (S : Sympy) {n : ℤ} (hn : -16 ≤ n ∧ n ≤ 16) {rel : Dict (ℕ × ℕ) PyObj}
    (hrel : relevantCodes n = .ok rel) {t : Expr} {a b : ℕ} (ht : TrigProduct t.args a b) (hd : a + b ≤ 8) :
    ∃ r, transformArg S rel t = .ok r ∧
      ∀ σ, r.eval σ = Expr.evalProd σ (noPhi t.args) * Lookup.entry a b n := by
  obtain ⟨rel', h1, h2, _⟩ := relevantCodes_ok hn
  rw [hrel] at h1
  have := Except.ok.inj h1
  subst this
  obtain ⟨v, hv, hval⟩ := h2 a b hd
  refine ⟨S.norm (.mul (noPhi t.args ++ [v.sympify S])), ?_, fun σ => ?_⟩
  · have hm : mappingGet rel (t.args.filter hasPhi) = .ok v := by
      unfold mappingGet
      rw [ht.code]
      exact hv
    show (mappingGet rel (t.args.filter hasPhi) >>= fun v => _) = _
    rw [hm]
    rfl
  · rw [S.eval_norm]
    simp only [Expr.eval, evalProd_append, Expr.evalProd, mul_one]
    rw [PyObj.eval_sympify, hval]

/-- The value the loop over the summands computes: every summand is read as the product of its arguments. -/
theorem transform_sum (S : Sympy) {ts : List Expr} (hts : ∀ t ∈ ts, ∃ a b, TrigProduct t.args a b ∧ a + b ≤ 8) :
    ∃ c : Valuation → ℤ → ℂ, (∀ σ, TrigPoly (fun z => (ts.map (fun t => Expr.evalProd (assign σ phi z) t.args)).sum) (c σ)) ∧
      ∀ n, -16 ≤ n ∧ n ≤ 16 → ∀ rel, relevantCodes n = .ok rel →
        ∃ rs, ts.mapM (transformArg S rel) = .ok rs ∧ ∀ σ, Expr.evalSum σ rs = c σ n := by
  induction ts with
  | nil =>
    refine ⟨fun _ _ => 0, fun σ => ?_, fun n hn rel hrel => ⟨[], rfl, fun σ => rfl⟩⟩
    simpa using TrigPoly.zero'
  | cons t ts ih =>
    obtain ⟨c, hc, hm⟩ := ih (fun t' h => hts t' (List.mem_cons_of_mem _ h))
    obtain ⟨a, b, ht, hd⟩ := hts t List.mem_cons_self
    refine ⟨fun σ n => Expr.evalProd σ (noPhi t.args) * Lookup.entry a b n + c σ n, fun σ => ?_, ?_⟩
    · simpa only [List.map_cons, List.sum_cons] using (ht.poly hd σ).add (hc σ)
    · intro n hn rel hrel
      obtain ⟨rs, hrs, hv⟩ := hm n hn rel hrel
      obtain ⟨r, hr, hv'⟩ := transformArg_ok S hn hrel ht hd
      refine ⟨r :: rs, ?_, fun σ => ?_⟩
      · rw [List.mapM_cons, hr, hrs]; rfl
      · simp only [Expr.evalSum, hv, hv']

theorem fourierTransform_add (S : Sympy) {ts : List Expr} (hphi : hasPhi (.add ts) = true)
    (hts : ∀ t ∈ ts, ∃ a b, TrigProduct t.args a b ∧ a + b ≤ 8) :
    ∃ c : Valuation → ℤ → ℂ, (∀ σ, TrigPoly (fun z => (ts.map (fun t => Expr.evalProd (assign σ phi z) t.args)).sum) (c σ)) ∧
      ∀ n, -16 ≤ n ∧ n ≤ 16 → ∃ e', fourierTransform S (.add ts) n = .ok (.sy e') ∧ ∀ σ, e'.eval σ = c σ n := by
  obtain ⟨c, hc, hm⟩ := transform_sum S hts
  refine ⟨c, hc, fun n hn => ?_⟩
  obtain ⟨rel, hrel, _⟩ := relevantCodes_ok hn
  obtain ⟨rs, hrs, hv⟩ := hm n hn rel hrel
  refine ⟨S.norm (.add rs), ?_, fun σ => ?_⟩
  · unfold fourierTransform
    simp only [isAdd, hphi, true_or, if_true, Bool.true_eq_false, if_false, hrel, Expr.args]
    have : (Except.ok rel >>= fun rel => do
        let args ← ts.mapM (transformArg S rel)
        return PyObj.sy (S.norm (.add args))) = (do
        let args ← ts.mapM (transformArg S rel)
        return PyObj.sy (S.norm (.add args)) : Except Err PyObj) := rfl
    rw [this, hrs]
    rfl
  · rw [S.eval_norm]; exact hv σ

theorem fourierTransform_const (S : Sympy) {e : Expr} (h : phi ∉ e.free) (n : ℤ) :
    fourierTransform S e n = .ok (if n = 0 then .sy e else .native 0 0) := by
  unfold fourierTransform
  rw [if_pos (Or.inr (hasPhi_false.2 h)), if_pos (hasPhi_false.2 h)]
  split <;> rfl

theorem isZero_value {v : PyObj} (h : v.isZero = true) (σ : Valuation) : objValue σ v = 0 := by
  cases v with
  | native re im =>
    simp only [PyObj.isZero, decide_eq_true_eq] at h
    simp [objValue, h.1, h.2]
  | sy e =>
    simp only [PyObj.isZero, decide_eq_true_eq] at h
    simp [objValue, h, Expr.eval]

theorem fourierTransform_single (S : Sympy) {e : Expr} (hadd : isAdd e = false) (hphi : hasPhi e = true) {a b : ℕ}
    (hcode : getCode (keyterm e) = (a, b)) (hd : a + b ≤ 8) {n : ℤ} (hn : -16 ≤ n ∧ n ≤ 16) :
    ∃ o, fourierTransform S e n = .ok o ∧
      ∀ σ, objValue σ o = Expr.evalProd σ (quotientArgs e) * Lookup.entry a b n := by
  obtain ⟨r, v, hr, hv, hval⟩ := table_entry hd hn
  unfold fourierTransform
  rw [if_neg (by simp [hadd, hphi]), hcode, Dict.get_ok_iff.2 hr]
  cases hz : v.isZero with
  | true =>
    refine ⟨.native 0 0, ?_, fun σ => ?_⟩
    · show (do
        let v ← pyGet r (n2i n 16)
        if v.isZero = false then return .sy (S.norm (.mul (quotientArgs e ++ [v.sympify S])))
        else return .native 0 0 : Except Err PyObj) = _
      rw [hv]
      show (if v.isZero = false then _ else _) = _
      rw [hz]
      rfl
    · rw [← hval σ, isZero_value hz]
      simp [objValue]
  | false =>
    refine ⟨.sy (S.norm (.mul (quotientArgs e ++ [v.sympify S]))), ?_, fun σ => ?_⟩
    · show (do
        let v ← pyGet r (n2i n 16)
        if v.isZero = false then return .sy (S.norm (.mul (quotientArgs e ++ [v.sympify S])))
        else return .native 0 0 : Except Err PyObj) = _
      rw [hv]
      show (if v.isZero = false then _ else _) = _
      rw [hz]
      rfl
    · simp only [objValue, S.eval_norm, Expr.eval, evalProd_append, Expr.evalProd, mul_one]
      rw [PyObj.eval_sympify, hval]

/-! ### Single products -/

/-- The grouped factors are `m` cosines and `k` sines. -/
def Grouped (acc : List (Expr × ℕ)) (m k : ℕ) : Prop :=
  (acc = [] ∧ m = 0 ∧ k = 0) ∨ (acc = [(.cos (.sym phi), m)] ∧ 0 < m ∧ k = 0) ∨
  (acc = [(.sin (.sym phi), k)] ∧ m = 0 ∧ 0 < k) ∨
  (acc = [(.cos (.sym phi), m), (.sin (.sym phi), k)] ∧ 0 < m ∧ 0 < k) ∨
  (acc = [(.sin (.sym phi), k), (.cos (.sym phi), m)] ∧ 0 < m ∧ 0 < k)

theorem Grouped.cos {acc : List (Expr × ℕ)} {m k : ℕ} (h : Grouped acc m k) :
    Grouped (bump (.cos (.sym phi)) acc) (m + 1) k := by
  rcases h with ⟨rfl, rfl, rfl⟩ | ⟨rfl, h1, rfl⟩ | ⟨rfl, rfl, h2⟩ | ⟨rfl, h1, h2⟩ | ⟨rfl, h1, h2⟩ <;>
    simp [bump, Grouped, *]

theorem Grouped.sin {acc : List (Expr × ℕ)} {m k : ℕ} (h : Grouped acc m k) :
    Grouped (bump (.sin (.sym phi)) acc) m (k + 1) := by
  rcases h with ⟨rfl, rfl, rfl⟩ | ⟨rfl, h1, rfl⟩ | ⟨rfl, rfl, h2⟩ | ⟨rfl, h1, h2⟩ | ⟨rfl, h1, h2⟩ <;>
    simp [bump, Grouped, *]

theorem Grouped.cosN (n : ℕ) : ∀ {acc : List (Expr × ℕ)} {m k : ℕ}, Grouped acc m k →
    Grouped ((List.replicate n (Expr.cos (.sym phi))).foldl (fun acc b => bump b acc) acc) (n + m) k := by
  induction n with
  | zero => intro acc m k h; simpa using h
  | succ n ih =>
    intro acc m k h
    rw [List.replicate_succ, List.foldl_cons]
    have := ih h.cos
    rwa [show n + 1 + m = n + (m + 1) by omega]

theorem Grouped.sinN (n : ℕ) : ∀ {acc : List (Expr × ℕ)} {m k : ℕ}, Grouped acc m k →
    Grouped ((List.replicate n (Expr.sin (.sym phi))).foldl (fun acc b => bump b acc) acc) m (n + k) := by
  induction n with
  | zero => intro acc m k h; simpa using h
  | succ n ih =>
    intro acc m k h
    rw [List.replicate_succ, List.foldl_cons]
    have := ih h.sin
    rwa [show n + 1 + k = n + (k + 1) by omega]

theorem Grouped.factor {f : Expr} {a b : ℕ} (h : TrigFactor f a b) {acc : List (Expr × ℕ)} {m k : ℕ}
    (hg : Grouped acc m k) : Grouped ((genArg f).foldl (fun acc b => bump b acc) acc) (a + m) (b + k) := by
  cases h with
  | cos => simpa [genArg, add_comm] using hg.cos
  | sin => simpa [genArg, add_comm] using hg.sin
  | cosPow => simpa [genArg] using hg.cosN a
  | sinPow => simpa [genArg] using hg.sinN b

theorem Spec.TrigProduct.grouped {l : List Expr} {a b : ℕ} (h : TrigProduct l a b) :
    ∀ {acc : List (Expr × ℕ)} {m k : ℕ}, Grouped acc m k →
      Grouped (((l.filter Shgpy.hasPhi).flatMap genArg).foldl (fun acc b => bump b acc) acc) (a + m) (b + k) := by
  induction h with
  | nil => intro acc m k h; simpa using h
  | coeff hc _ ih =>
    intro acc m k h
    rw [List.filter_cons_of_neg (by rw [hasPhi_iff]; exact hc)]
    exact ih h
  | @trig f r a b a' b' hf _ ih =>
    intro acc m k h
    rw [List.filter_cons_of_pos hf.hasPhi, List.flatMap_cons, List.foldl_append]
    have := ih (Grouped.factor hf h)
    rwa [show a' + a + m = a + (a' + m) by omega, show b' + b + k = b + (b' + k) by omega]

theorem getCode_mulOf {l : List Expr} {m k : ℕ} (h : Grouped (collect l) m k) (h1 : (m, k) ≠ (1, 0))
    (h2 : (m, k) ≠ (0, 1)) : getCode (mulOf l) = (m, k) := by
  unfold mulOf
  rcases h with ⟨h, rfl, rfl⟩ | ⟨h, h3, rfl⟩ | ⟨h, rfl, h3⟩ | ⟨h, h3, h4⟩ | ⟨h, h3, h4⟩ <;> rw [h]
  · rfl
  · have : m ≠ 1 := by rintro rfl; exact h1 rfl
    simp [factorExpr, this, getCode, codeOf]
  · have : k ≠ 1 := by rintro rfl; exact h2 rfl
    simp [factorExpr, this, getCode, codeOf]
  · by_cases hm : m = 1 <;> by_cases hk : k = 1 <;>
      simp [factorExpr, hm, hk, getCode, codeArg, codeOf]
  · by_cases hm : m = 1 <;> by_cases hk : k = 1 <;>
      simp [factorExpr, hm, hk, getCode, codeArg, codeOf]

theorem Spec.TrigProduct.getCode {l : List Expr} {a b : ℕ} (h : TrigProduct l a b) (h1 : (a, b) ≠ (1, 0))
    (h2 : (a, b) ≠ (0, 1)) : Shgpy.getCode (keyterm (.mul l)) = (a, b) := by
  apply getCode_mulOf _ h1 h2
  have := h.grouped (acc := []) (m := 0) (k := 0) (Or.inl ⟨rfl, rfl, rfl⟩)
  simpa [collect, gen, Expr.args] using this

theorem evalSum_congr {ts : List Expr} {σ : Valuation} {f : Expr → ℂ} (h : ∀ t ∈ ts, t.eval σ = f t) :
    Expr.evalSum σ ts = (ts.map f).sum := by
  induction ts with
  | nil => rfl
  | cons t ts ih =>
    simp only [Expr.evalSum, List.map_cons, List.sum_cons]
    rw [h t List.mem_cons_self, ih (fun t' ht' => h t' (List.mem_cons_of_mem _ ht'))]

/-- On supported formulas the transform succeeds with the Fourier coefficients of a trigonometric polynomial. -/
theorem fourierTransform_supported (S : Sympy) {e : Expr} (h : Supported e) :
    ∃ c : Valuation → ℤ → ℂ, (∀ σ, TrigPoly (ofAngle e σ) (c σ)) ∧
      ∀ n, -16 ≤ n ∧ n ≤ 16 → ∃ o, fourierTransform S e n = .ok o ∧ ∀ σ, objValue σ o = c σ n := by
  by_cases hphi : phi ∉ e.free
  · refine ⟨fun σ n => if n = 0 then e.eval σ else 0, fun σ => ?_, fun n _ => ?_⟩
    · have := TrigPoly.const (e.eval σ)
      refine ⟨this.zero, fun z => ?_⟩
      rw [ofAngle_of_free hphi]
      exact this.sum z
    · refine ⟨_, fourierTransform_const S hphi n, fun σ => ?_⟩
      by_cases hn : n = 0 <;> simp [hn, objValue]
  · have hphi' : hasPhi e = true := by rw [hasPhi_iff]; exact not_not.1 hphi
    cases h with
    | const hc => exact absurd hc hphi
    | sum hs =>
      obtain ⟨ts, rfl, hts⟩ := hs
      obtain ⟨c, hc, hm⟩ := fourierTransform_add S hphi' (ts := ts) (fun t ht => by
        obtain ⟨l, a, b, rfl, h1, h2⟩ := hts t ht
        exact ⟨a, b, h1, h2⟩)
      refine ⟨c, fun σ => ⟨(hc σ).zero, fun z => ?_⟩, fun n hn => ?_⟩
      · rw [← (hc σ).sum z]
        unfold ofAngle
        simp only [Expr.eval]
        refine evalSum_congr (fun t ht => ?_)
        obtain ⟨l, a, b, rfl, h1, h2⟩ := hts t ht
        rfl
      · obtain ⟨e', h1, h2⟩ := hm n hn
        exact ⟨_, h1, h2⟩
    | @prod l a b hl hd h1 h2 =>
      refine ⟨fun σ n => Expr.evalProd σ (noPhi l) * Lookup.entry a b n, fun σ => hl.poly hd σ, fun n hn => ?_⟩
      exact fourierTransform_single S rfl hphi' (hl.getCode h1 h2) hd hn
    | @cosPow k hk =>
      refine ⟨fun _ n => Lookup.entry k 0 n, fun σ => ?_, fun n hn => ?_⟩
      · have := Lookup.trigPoly (a := k) (b := 0) (by omega)
        refine ⟨this.zero, fun z => ?_⟩
        rw [← this.sum z]
        simp [ofAngle, Expr.eval, assign]
      · obtain ⟨o, ho, hv⟩ := fourierTransform_single S (e := .pow (.cos (.sym phi)) k) rfl hphi' (a := k) (b := 0) rfl
          (by omega) hn
        exact ⟨o, ho, fun σ => by rw [hv σ]; simp [quotientArgs, Expr.evalProd]⟩
    | @sinPow k hk =>
      refine ⟨fun _ n => Lookup.entry 0 k n, fun σ => ?_, fun n hn => ?_⟩
      · have := Lookup.trigPoly (a := 0) (b := k) (by omega)
        refine ⟨this.zero, fun z => ?_⟩
        rw [← this.sum z]
        simp [ofAngle, Expr.eval, assign]
      · obtain ⟨o, ho, hv⟩ := fourierTransform_single S (e := .pow (.sin (.sym phi)) k) rfl hphi' (a := 0) (b := k) rfl
          (by omega) hn
        exact ⟨o, ho, fun σ => by rw [hv σ]; simp [quotientArgs, Expr.evalProd]⟩

end Shgpy
