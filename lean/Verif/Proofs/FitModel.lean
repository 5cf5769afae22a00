import Verif.Proofs.Fit
import Mathlib.Data.Nat.Digits.Lemmas

/-!
# Lemmas: file names and the model function
-/

set_option linter.unusedSectionVars false
set_option linter.unusedSimpArgs false

namespace Shgpy
open Spec
open scoped ComplexConjugate

/-! ## Chunks -/

theorem splitChunk_eq {α : Type} (a : List α) : ∀ (num start : ℕ), splitChunk a start num = (a.drop start).take num
  | 0, start => by simp [splitChunk]
  | num + 1, start => by
      unfold splitChunk
      by_cases h : start < a.length
      · rw [List.getElem?_eq_getElem h, splitChunk_eq a num, List.drop_eq_getElem_cons h, List.take_succ_cons]
      · rw [List.getElem?_eq_none (by omega), List.drop_eq_nil_of_le (by omega)]
        rfl

theorem flatten_chunks {α : Type} (a : List α) (n : ℕ) : ∀ c : ℕ,
    ((List.range c).map (fun i => (a.drop (i * n)).take n)).flatten = a.take (c * n)
  | 0 => by simp
  | c + 1 => by
      rw [List.range_succ, List.map_append, List.flatten_append, flatten_chunks a n c]
      simp only [List.map_cons, List.map_nil, List.flatten_cons, List.flatten_nil, List.append_nil]
      rw [Nat.succ_mul, List.take_add]

theorem split_ok {α : Type} (a : List α) {n : ℤ} (hn : 0 < n) : ∃ cs, split a n = .ok cs ∧ cs.flatten = a := by
  unfold split
  rw [if_neg (by omega), if_neg (by omega)]
  refine ⟨_, rfl, ?_⟩
  have hN : 0 < n.toNat := by omega
  generalize n.toNat = N at hN
  simp only [splitChunk_eq]
  rw [flatten_chunks, List.take_of_length_le]
  have := Nat.div_add_mod (a.length + N - 1) N
  have h2 := Nat.mod_lt (a.length + N - 1) hN
  have h3 : (a.length + N - 1) / N * N = N * ((a.length + N - 1) / N) := Nat.mul_comm _ _
  omega

/-- The chunks of an expression add up to it. -/
theorem splitExpr_ok (e : Expr) {n : ℤ} (hn : 0 < n) : ∃ cs, splitExpr e n = .ok cs ∧
    (∀ c ∈ cs, ∀ s ∈ c.free, s ∈ e.free) ∧ ∀ σ, (cs.map (fun c => c.eval σ)).sum = e.eval σ := by
  have hself : ∀ e : Expr, (∀ c ∈ [e], ∀ s ∈ c.free, s ∈ e.free) ∧ ∀ σ, ([e].map (fun c => c.eval σ)).sum = e.eval σ := by
    intro e
    refine ⟨?_, ?_⟩
    · intro c hc s hs
      rw [List.mem_singleton] at hc
      subst hc
      exact hs
    · intro σ
      simp
  cases e with
  | add l =>
    obtain ⟨cs, h1, h2⟩ := split_ok l hn
    refine ⟨cs.map .add, ?_, ?_, ?_⟩
    · unfold splitExpr
      simp only
      rw [h1]
      rfl
    · intro c hc s hs
      obtain ⟨g, hg, rfl⟩ := List.mem_map.1 hc
      simp only [Expr.free, Expr.mem_freeL] at hs ⊢
      obtain ⟨e, he, hse⟩ := hs
      exact ⟨e, by rw [← h2]; exact List.mem_flatten.2 ⟨g, hg, he⟩, hse⟩
    · intro σ
      rw [List.map_map]
      simp only [Expr.eval, Expr.evalSum_eq]
      rw [← h2, List.map_flatten, List.sum_flatten, List.map_map]
      congr 1
      refine List.map_congr_left (fun g _ => ?_)
      simp [Expr.eval, Expr.evalSum_eq]
  | num q => exact ⟨_, rfl, hself _⟩
  | I => exact ⟨_, rfl, hself _⟩
  | sym s => exact ⟨_, rfl, hself _⟩
  | mul l => exact ⟨_, rfl, hself _⟩
  | pow b n => exact ⟨_, rfl, hself _⟩
  | cos e => exact ⟨_, rfl, hself _⟩
  | sin e => exact ⟨_, rfl, hself _⟩

/-! ## Real and imaginary part -/

/-- The part of a complex number. -/
def Part.value (z : ℂ) : Part → ℝ
  | .real => z.re
  | .imag => z.im

theorem eval_part (S : Sympy) (e : Expr) (r : Sym → ℝ) (p : Part) :
    (p.of S e).eval (realVal r) = ((p.value (e.eval (realVal r)) : ℝ) : ℂ) := by
  cases p with
  | real =>
    simp only [Part.of, S.eval_norm, Expr.eval, Expr.evalProd, Expr.evalSum, eval_conj, Part.value]
    rw [add_zero, Complex.add_conj]
    push_cast
    ring
  | imag =>
    simp only [Part.of, S.eval_norm, Expr.eval, Expr.evalProd, Expr.evalSum, eval_conj, Part.value]
    have : e.eval (realVal r) + ((((-1 : ℚ) : ℂ) * (conj (e.eval (realVal r)) * 1)) + 0) =
        e.eval (realVal r) - conj (e.eval (realVal r)) := by push_cast; ring
    rw [this, Complex.sub_conj]
    push_cast
    linear_combination (-(e.eval (realVal r)).im : ℂ) * Complex.I_sq

theorem free_part (S : Sympy) (e : Expr) (p : Part) : ∀ s ∈ (p.of S e).free, s ∈ e.free := by
  intro s hs
  cases p with
  | real =>
    have := S.free_norm _ _ hs
    simp only [Expr.free, Expr.freeL, List.nil_append, List.append_nil, List.mem_append] at this
    exact this.elim id (free_conj e s)
  | imag =>
    have := S.free_norm _ _ hs
    simp only [Expr.free, Expr.freeL, List.nil_append, List.append_nil, List.mem_append] at this
    exact this.elim id (free_conj e s)

/-! ## The functions of one component -/

theorem modelExpr_ok (S : Sympy) {fform : FFormContainer} (hc : fform.Good) {arguments : Option (List Sym)} {l : List Sym}
    (hl : ArgumentOrder S fform arguments l) {k : Key} {m : ℤ} {f : Valuation → ℂ} (hf : FRepresents fform k m f) (p : Part) :
    ∃ e, modelExpr S fform k m p arguments = .ok e ∧ CostExpr l (fun r => p.value (f (realVal r))) e := by
  obtain ⟨h0, hl'⟩ := argumentSymbols_ok hc hl
  obtain ⟨a, o, ha, ho, hv⟩ := hf
  have hm : m ∈ freqs fform.getM := mem_freqs.2 ho.1
  have h1 : pyGet a.objs (n2i m fform.getM) = .ok o := (pyGet_n2i_iff hm).2 ho.2
  have hfree : ∀ s ∈ (p.of S (o.sympify S)).free, s ∈ l := fun s hs => hl'.2 s (free_component ha ho (free_part S _ p s hs))
  refine ⟨S.norm ((p.of S (o.sympify S)).xreplace (xsMapping l)), ?_, ?_, ?_⟩
  · unfold modelExpr
    rw [h0, ok_bind, ha, ok_bind, h1, ok_bind]
    rfl
  · intro s hs
    exact free_mapped hl'.1 hfree s (S.free_norm _ _ hs)
  · intro r
    rw [S.eval_norm, eval_mapped hl'.1 r hfree, eval_part, PyObj.eval_sympify, hv]

theorem split_sizes {α : Type} {a : List α} {n : ℤ} (hn : 0 < n) {cs : List (List α)} (h : split a n = .ok cs) :
    ∀ c ∈ cs, 1 ≤ c.length ∧ (c.length : ℤ) ≤ n := by
  unfold split at h
  rw [if_neg (by omega), if_neg (by omega)] at h
  obtain ⟨N, rfl⟩ : ∃ N : ℕ, n = N := ⟨n.toNat, by omega⟩
  have hN : 0 < N := by omega
  simp only [Int.toNat_natCast, Except.ok.injEq] at h
  subst h
  intro c hc
  obtain ⟨i, hi, rfl⟩ := List.mem_map.1 hc
  rw [List.mem_range] at hi
  rw [splitChunk_eq, List.length_take, List.length_drop]
  have h1 : (i + 1) * N ≤ a.length + N - 1 := by
    have := (Nat.le_div_iff_mul_le hN).1 (Nat.succ_le_of_lt hi)
    simpa using this
  rw [Nat.succ_mul] at h1
  have : i * N < a.length := by omega
  constructor
  · rw [Nat.le_min]
    omega
  · have := Nat.min_le_left N (a.length - i * N)
    exact_mod_cast this

/-- No chunk is empty or has more terms than asked for. -/
theorem splitExpr_sizes {e : Expr} {n : ℤ} (hn : 0 < n) {cs : List Expr} (h : splitExpr e n = .ok cs) :
    ∀ c ∈ cs, 1 ≤ termCount c ∧ (termCount c : ℤ) ≤ n := by
  have hself : ∀ e : Expr, termCount e = 1 → ∀ c ∈ [e], 1 ≤ termCount c ∧ (termCount c : ℤ) ≤ n := by
    intro e he c hc
    rw [List.mem_singleton] at hc
    subst hc
    rw [he]
    exact ⟨le_refl _, by push_cast; omega⟩
  cases e with
  | add l =>
    unfold splitExpr at h
    obtain ⟨gs, h1, h2⟩ := bind_ok h
    cases h2
    intro c hc
    obtain ⟨g, hg, rfl⟩ := List.mem_map.1 hc
    exact split_sizes hn h1 g hg
  | num q => cases h; exact hself _ rfl
  | I => cases h; exact hself _ rfl
  | sym s => cases h; exact hself _ rfl
  | mul l => cases h; exact hself _ rfl
  | pow b n => cases h; exact hself _ rfl
  | cos e => cases h; exact hself _ rfl
  | sin e => cases h; exact hself _ rfl

/-- What is known of the functions of one component. -/
theorem modelFuncs_ok (S : Sympy) (C : Compiler) {fform : FFormContainer} (hc : fform.Good) {arguments : Option (List Sym)}
    {l : List Sym} (hl : ArgumentOrder S fform arguments l) {k : Key} {m : ℤ} {f : Valuation → ℂ}
    (hf : FRepresents fform k m f) (p : Part) {n : ℤ} (hn : 0 < n) :
    ∃ gs : List CFunc, modelFuncs S C fform arguments n (k, m, p) =
        .ok (gs.zipIdx.map (fun g => (chunkName k m p g.2, g.1))) ∧
      (∀ r : Sym → ℝ, (gs.map (fun g => g (l.map r))).sum = p.value (f (realVal r))) ∧
      ∃ cs : List Expr, gs = cs.map C.run ∧ ∀ c ∈ cs, 1 ≤ termCount c ∧ (termCount c : ℤ) ≤ n ∧
        ∀ s ∈ c.free, ∃ i, i < l.length ∧ s = xsElem i := by
  obtain ⟨e, h1, h2⟩ := modelExpr_ok S hc hl hf p
  obtain ⟨cs, h3, h4, h5⟩ := splitExpr_ok e hn
  refine ⟨cs.map C.run, ?_, ?_, cs, rfl, fun c hc => ⟨(splitExpr_sizes hn h3 c hc).1, (splitExpr_sizes hn h3 c hc).2, fun s hs => h2.free s (h4 c hc s hs)⟩⟩
  · unfold modelFuncs
    simp only
    rw [h1, ok_bind, h3, ok_bind]
    show Except.ok _ = _
    rw [List.zipIdx_map, List.map_map]
    rfl
  · intro r
    rw [List.map_map]
    have : (cs.map ((fun g : CFunc => g (l.map r)) ∘ C.run)) = cs.map (fun c => (c.eval (xsVal (l.map r))).re) := by
      refine List.map_congr_left (fun c hc => ?_)
      exact C.spec c _ (fun s hs => by
        obtain ⟨i, hi, rfl⟩ := h2.free s (h4 c hc s hs)
        exact ⟨i, by simpa using hi, rfl⟩)
    rw [this]
    have h6 := congrArg Complex.re (h5 (xsVal (l.map r)))
    rw [h2.eval, Complex.ofReal_re] at h6
    rw [← h6]
    have : ∀ zs : List ℂ, zs.sum.re = (zs.map Complex.re).sum := fun zs => by
      induction zs with
      | nil => rfl
      | cons z zs ih => simp [ih]
    rw [this, List.map_map]
    rfl

/-! ## File names -/

theorem digitChar_inj {a b : ℕ} (ha : a < 10) (hb : b < 10) (h : Nat.digitChar a = Nat.digitChar b) : a = b := by
  have key : ∀ a < 10, ∀ b < 10, Nat.digitChar a = Nat.digitChar b → a = b := by decide
  exact key a ha b hb h

theorem natStr_digits {i : ℕ} : ∀ c ∈ natStr i, c ∈ ['0', '1', '2', '3', '4', '5', '6', '7', '8', '9'] := by
  intro c hc
  unfold natStr at hc
  split at hc
  · simp at hc; simp [hc]
  · obtain ⟨a, ha, rfl⟩ := List.mem_map.1 hc
    have : a < 10 := Nat.digits_lt_base (by norm_num) (List.mem_reverse.1 ha)
    clear ha hc
    revert a
    decide

theorem map_inj_on {α β : Type} {f : α → β} : ∀ {l l' : List α}, (∀ a ∈ l, ∀ b ∈ l', f a = f b → a = b) →
    l.map f = l'.map f → l = l'
  | [], [], _, _ => rfl
  | [], b :: l', _, h => by simp at h
  | a :: l, [], _, h => by simp at h
  | a :: l, b :: l', hinj, h => by
      simp only [List.map_cons, List.cons.injEq] at h
      rw [hinj a (by simp) b (by simp) h.1, map_inj_on (fun a ha b hb => hinj a (by simp [ha]) b (by simp [hb])) h.2]

theorem natStr_inj {i j : ℕ} (h : natStr i = natStr j) : i = j := by
  have key : ∀ i, i ≠ 0 → natStr i = (Nat.digits 10 i).reverse.map Nat.digitChar := fun i hi => by
    unfold natStr
    rw [if_neg hi]
  have hz : ∀ i, i ≠ 0 → natStr i ≠ natStr 0 := by
    intro i hi h
    rw [key i hi] at h
    have h0 : natStr 0 = [0].map Nat.digitChar := rfl
    rw [h0] at h
    have h1 := map_inj_on (fun a ha b hb hab => digitChar_inj (Nat.digits_lt_base (by norm_num) (List.mem_reverse.1 ha))
      (by simp at hb; omega) hab) h
    have h2 : Nat.digits 10 i = [0] := by simpa using congrArg List.reverse h1
    have h3 := Nat.getLast_digit_ne_zero 10 hi
    simp [h2] at h3
  by_cases hi : i = 0
  · by_cases hj : j = 0
    · rw [hi, hj]
    · subst hi; exact absurd h.symm (hz j hj)
  · by_cases hj : j = 0
    · subst hj; exact absurd h (hz i hi)
    · rw [key i hi, key j hj] at h
      have h1 := map_inj_on (fun a ha b hb hab => digitChar_inj (Nat.digits_lt_base (by norm_num) (List.mem_reverse.1 ha))
        (Nat.digits_lt_base (by norm_num) (List.mem_reverse.1 hb)) hab) h
      exact Nat.digits_inj_iff.1 (List.reverse_injective h1)

theorem intStr_inj {a b : ℤ} (h : intStr a = intStr b) : a = b := by
  have hminus : ∀ i, ∀ t, natStr i ≠ '-' :: t := by
    intro i t ht
    have := natStr_digits (i := i) '-' (by rw [ht]; simp)
    revert this
    decide
  unfold intStr at h
  split at h <;> split at h
  · have := natStr_inj (List.cons.inj h).2
    omega
  · exact absurd h.symm (hminus _ _)
  · exact absurd h (hminus _ _)
  · have := natStr_inj h
    omega

/-- The characters of numbers and component names. -/
def plainChars : List Char :=
  ['-', '0', '1', '2', '3', '4', '5', '6', '7', '8', '9', 'r', 'e', 'a', 'l', 'i', 'm', 'g']

theorem plain_natStr (i : ℕ) : ∀ c ∈ natStr i, c ∈ plainChars := by
  intro c hc
  have := natStr_digits c hc
  simp only [List.mem_cons, List.not_mem_nil, or_false] at this
  simp only [plainChars, List.mem_cons, List.not_mem_nil, or_false]
  tauto

theorem plain_intStr (m : ℤ) : ∀ c ∈ intStr m, c ∈ plainChars := by
  intro c hc
  unfold intStr at hc
  split at hc
  · rcases List.mem_cons.1 hc with rfl | hc
    · decide
    · exact plain_natStr _ c hc
  · exact plain_natStr _ c hc

theorem plain_part (p : Part) : ∀ c ∈ p.name, c ∈ plainChars := by
  cases p <;> decide

theorem not_underscore {c : Char} (h : c ∈ plainChars) : c ≠ '_' := by
  revert h
  revert c
  decide

/-- The part of a name before the first separator is determined. -/
theorem split_first {α : Type} {u v x y : List α} {c : α} (hu : c ∉ u) (hv : c ∉ v) (h : u ++ c :: x = v ++ c :: y) :
    u = v ∧ x = y := by
  induction u generalizing v with
  | nil =>
    cases v with
    | nil => simpa using h
    | cons b v =>
      simp only [List.nil_append, List.cons_append, List.cons.injEq] at h
      exact absurd (by simp [h.1]) hv
  | cons a u ih =>
    cases v with
    | nil =>
      simp only [List.nil_append, List.cons_append, List.cons.injEq] at h
      exact absurd (by simp [h.1]) hu
    | cons b v =>
      simp only [List.cons_append, List.cons.injEq] at h
      obtain ⟨h1, h2⟩ := ih (fun hc => hu (by simp [hc])) (fun hc => hv (by simp [hc])) h.2
      exact ⟨by rw [h.1, h1], h2⟩

theorem split_last {α : Type} {u v x y : List α} {c : α} (hx : c ∉ x) (hy : c ∉ y) (h : u ++ c :: x = v ++ c :: y) :
    u = v ∧ x = y := by
  have h' := congrArg List.reverse h
  simp only [List.reverse_append, List.reverse_cons, List.append_assoc, List.singleton_append] at h'
  obtain ⟨h1, h2⟩ := split_first (by simpa using hx) (by simpa using hy) h'
  exact ⟨List.reverse_injective h2, List.reverse_injective h1⟩

theorem partName_inj {k k' : Key} {m m' : ℤ} {p p' : Part} (h : partName k m p = partName k' m' p') :
    k = k' ∧ m = m' ∧ p = p' := by
  unfold partName at h
  have e1 : ∀ (k : Key) (m : ℤ) (p : Part), k ++ '_' :: intStr m ++ '_' :: p.name = (k ++ '_' :: intStr m) ++ '_' :: p.name :=
    fun _ _ _ => rfl
  obtain ⟨h1, h2⟩ := split_last (fun hc => not_underscore (plain_part p _ hc) rfl)
    (fun hc => not_underscore (plain_part p' _ hc) rfl) h
  obtain ⟨h3, h4⟩ := split_last (fun hc => not_underscore (plain_intStr m _ hc) rfl)
    (fun hc => not_underscore (plain_intStr m' _ hc) rfl) h1
  refine ⟨h3, intStr_inj h4, ?_⟩
  cases p <;> cases p' <;> first | rfl | (exfalso; revert h2; decide)

/-- Different chunks are saved in different files, whatever the names of the combinations. -/
theorem chunkName_inj {k k' : Key} {m m' : ℤ} {p p' : Part} {i i' : ℕ} (h : chunkName k m p i = chunkName k' m' p' i') :
    k = k' ∧ m = m' ∧ p = p' ∧ i = i' := by
  unfold chunkName at h
  have h0 := List.append_cancel_right h
  obtain ⟨h1, h2⟩ := split_last (fun hc => not_underscore (plain_natStr i _ hc) rfl)
    (fun hc => not_underscore (plain_natStr i' _ hc) rfl) h0
  obtain ⟨h3, h4, h5⟩ := partName_inj h1
  exact ⟨h3, h4, h5, natStr_inj h2⟩

theorem gradName_inj {pre : Key} {i j : ℕ} (h : gradName pre i = gradName pre j) : i = j := by
  unfold gradName at h
  exact natStr_inj (List.append_cancel_left (List.append_cancel_right h))

/-! ## Patterns -/

theorem glob_literal (p q s : List Char) (hp : '*' ∉ p ∧ '?' ∉ p) :
    globMatch (p ++ q) s = true ↔ ∃ t, s = p ++ t ∧ globMatch q t = true := by
  induction p generalizing s with
  | nil => simp
  | cons c p ih =>
    have hc1 : c ≠ '*' := fun h => hp.1 (by simp [h])
    have hc2 : c ≠ '?' := fun h => hp.2 (by simp [h])
    have ih' := fun s => ih s ⟨fun h => hp.1 (by simp [h]), fun h => hp.2 (by simp [h])⟩
    cases s with
    | nil =>
      rw [List.cons_append, globMatch]
      simp [hc1]
    | cons d s =>
      rw [List.cons_append, globMatch, if_neg hc1, if_neg hc2, Bool.and_eq_true, beq_iff_eq, ih' s]
      constructor
      · rintro ⟨rfl, t, rfl, h⟩
        exact ⟨t, rfl, h⟩
      · rintro ⟨t, h1, h2⟩
        simp only [List.cons_append, List.cons.injEq] at h1
        exact ⟨h1.1.symm, t, h1.2, h2⟩

theorem glob_all_literal (p s : List Char) (hp : '*' ∉ p ∧ '?' ∉ p) : globMatch p s = true ↔ s = p := by
  have := glob_literal p [] s hp
  rw [List.append_nil] at this
  rw [this]
  constructor
  · rintro ⟨t, rfl, h⟩
    cases t with
    | nil => simp
    | cons c t => simp [globMatch] at h
  · rintro rfl
    exact ⟨[], by simp, by simp [globMatch]⟩

theorem glob_star (q s : List Char) : globMatch ('*' :: q) s = true ↔ ∃ a b, s = a ++ b ∧ globMatch q b = true := by
  induction s with
  | nil =>
    rw [globMatch]
    simp only [beq_self_eq_true, Bool.true_and]
    constructor
    · intro h; exact ⟨[], [], rfl, h⟩
    · rintro ⟨a, b, h1, h2⟩
      have := List.append_eq_nil_iff.1 h1.symm
      rw [this.2] at h2
      exact h2
  | cons c s ih =>
    rw [globMatch, if_pos rfl, Bool.or_eq_true, ih]
    constructor
    · rintro (h | ⟨a, b, rfl, h⟩)
      · exact ⟨[], c :: s, rfl, h⟩
      · exact ⟨c :: a, b, rfl, h⟩
    · rintro ⟨a, b, h1, h2⟩
      cases a with
      | nil =>
        rw [List.nil_append] at h1
        subst h1
        exact Or.inl h2
      | cons d a =>
        simp only [List.cons_append, List.cons.injEq] at h1
        exact Or.inr ⟨a, b, h1.2, h2⟩

/-- The pattern of one component. -/
theorem glob_part {k : Key} {m : ℤ} {p : Part} (hk : '*' ∉ k ∧ '?' ∉ k) (s : List Char) :
    globMatch (partName k m p ++ ['*', '.', 's', 'o']) s = true ↔ ∃ a, s = partName k m p ++ a ++ ['.', 's', 'o'] := by
  have hplain : ∀ c ∈ plainChars, c ≠ '*' ∧ c ≠ '?' := by decide
  have hp : '*' ∉ partName k m p ∧ '?' ∉ partName k m p := by
    unfold partName
    simp only [List.mem_append, List.mem_cons, not_or]
    refine ⟨⟨⟨hk.1, by decide, fun h => (hplain _ (plain_intStr m _ h)).1 rfl⟩, by decide,
      fun h => (hplain _ (plain_part p _ h)).1 rfl⟩, ⟨hk.2, by decide, fun h => (hplain _ (plain_intStr m _ h)).2 rfl⟩, by decide,
      fun h => (hplain _ (plain_part p _ h)).2 rfl⟩
  rw [glob_literal _ _ _ hp]
  constructor
  · rintro ⟨t, rfl, h⟩
    obtain ⟨a, b, rfl, h2⟩ := (glob_star _ _).1 h
    rw [(glob_all_literal _ _ (by decide)).1 h2]
    exact ⟨a, by simp⟩
  · rintro ⟨a, rfl⟩
    refine ⟨a ++ ['.', 's', 'o'], by simp, (glob_star _ _).2 ⟨a, _, rfl, (glob_all_literal _ _ (by decide)).2 rfl⟩⟩

/-- The pattern of one component matches the files of that component only, when no name of a combination contains an
underscore. -/
theorem glob_chunk {k k' : Key} {m m' : ℤ} {p p' : Part} {i : ℕ} (hk : '*' ∉ k ∧ '?' ∉ k) (hu : '_' ∉ k) (hu' : '_' ∉ k') :
    globMatch (partName k m p ++ ['*', '.', 's', 'o']) (chunkName k' m' p' i) = true ↔ (k', m', p') = (k, m, p) := by
  rw [glob_part hk]
  constructor
  · rintro ⟨a, h⟩
    unfold chunkName at h
    have h0 := List.append_cancel_right h
    unfold partName at h0
    simp only [List.append_assoc, List.cons_append] at h0
    obtain ⟨h1, h2⟩ := split_first hu' hu h0
    obtain ⟨h3, h4⟩ := split_first (fun hc => not_underscore (plain_intStr m' _ hc) rfl)
      (fun hc => not_underscore (plain_intStr m _ hc) rfl) h2
    have h5 : p' = p := by
      cases p <;> cases p' <;> first | rfl | (exfalso; simp [Part.name] at h4)
    rw [h1, intStr_inj h3, h5]
  · intro h
    cases h
    exact ⟨'_' :: natStr i, by simp [chunkName]⟩

end Shgpy
