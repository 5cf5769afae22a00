import Verif.Proofs.FormThreads3

/-!
# Lemmas about threads that use one container of formulas: what each method keeps
-/

namespace Shgpy.FormThreads
open Spec

section Loops

variable {α O : Type} {L : Labels α O} {ks : List Key} {op : O}

theorem snoc_le {A : List O} {a : Multiset O} (op : O) (h : (A : Multiset O) ≤ a) : ((A ++ [op] : List O) : Multiset O) ≤ a + {op} := by
  rw [← Multiset.coe_add, Multiset.coe_singleton]
  exact add_le_add_left h _

theorem safe_rewriteLoop {f : α → α} (hf : ∀ {a k v}, L.data a k v → L.data (a + {op}) k (f v)) : ∀ (d : Dict Key α)
    (pend : Key → Multiset O) (g : Ghost O), (∀ k ∈ Dict.keys d, k ∈ ks) → (Dict.keys d).Nodup → (∀ k ∈ Dict.keys d, pend k = {op}) →
    (∀ it ∈ d, L.data (g.wrote it.1) it.1 it.2) → Safe L ks (rewriteLoop f d) pend g
  | [], _, _, _, _, _, _ => trivial
  | (k, v) :: d, pend, g, hk, hn, hp, hl => by
    intro g1 hg1 r hr
    have hn' : k ∉ Dict.keys d ∧ (Dict.keys d).Nodup := List.nodup_cons.1 hn
    refine ⟨hk k (by simp [Dict.keys]), ?_, fun g2 hg2 => ?_⟩
    · rw [hp k (by simp [Dict.keys])]
      exact hf (L.data_mono (hg1.2 _) (hl (k, v) (by simp)))
    · refine safe_rewriteLoop hf d _ g2 (fun k' hk' => hk k' (List.mem_cons_of_mem _ hk')) hn'.2 (fun k' hk' => ?_) (fun it hit => ?_)
      · have : k' ≠ k := fun e => hn'.1 (e ▸ hk')
        simp only [rest, this, decide_false, Bool.false_eq_true, if_false]
        exact hp k' (List.mem_cons_of_mem _ hk')
      · exact L.data_mono (le_trans (hg1.2 _) (le_trans ((g1.le_add _ _).2 _) (hg2.2 _))) (hl it (List.mem_cons_of_mem _ hit))

theorem safe_scaleLoop {f : α → α} (hf : ∀ {a k v}, L.data a k v → L.data (a + {op}) k (f v)) {r : ℕ} : ∀ (l : List Key)
    (pend : Key → Multiset O) (g : Ghost O), r < g.n → (∀ k ∈ l, k ∈ ks) → l.Nodup → (∀ k ∈ l, pend k = {op}) →
    Safe L ks (scaleLoop f r l) pend g
  | [], _, _, _, _, _, _ => trivial
  | k :: l, pend, g, hr, hk, hn, hp => by
    refine ⟨hr, hk k (by simp), fun g1 hg1 v hv g2 hg2 r' _ => ⟨hk k (by simp), ?_, fun g3 hg3 => ?_⟩⟩
    · rw [hp k (by simp)]
      exact hf (L.data_mono (hg2.2 _) hv)
    · refine safe_scaleLoop hf l _ g3 (lt_of_lt_of_le hr (hg1.1.trans (hg2.1.trans hg3.1))) (fun k' hk' => hk k' (List.mem_cons_of_mem _ hk'))
        (List.nodup_cons.1 hn).2 (fun k' hk' => ?_)
      have : k' ≠ k := fun e => (List.nodup_cons.1 hn).1 (e ▸ hk')
      simp only [rest, this, decide_false, Bool.false_eq_true, if_false]
      exact hp k' (List.mem_cons_of_mem _ hk')

theorem mem_set_wf {d : Dict Key α} (hd : Dict.WF d) {k : Key} {v : α} {it : Key × α} (h : it ∈ Dict.set d k v) :
    it = (k, v) ∨ (it ∈ d ∧ it.1 ≠ k) := by
  by_cases hk : it.1 = k
  · left
    have h1 := (Dict.get?_eq_some_iff (Dict.WF_set hd k v)).2 (show (it.1, it.2) ∈ Dict.set d k v from h)
    rw [Dict.get?_set, if_pos hk.symm] at h1
    rw [← hk, Option.some.inj h1]
  · rcases mem_set_dict h with rfl | h
    · exact absurd rfl hk
    · exact .inr ⟨h, hk⟩

/-- The keys of a dictionary under construction: all are there already, or those not treated yet are missing. -/
def Growing (ks : List Key) (d : Dict Key α) (l : List Key) : Prop := Dict.keys d = ks ∨ Dict.keys d ++ l = ks

theorem Growing.set (hks : ks.Nodup) {d : Dict Key α} {k : Key} {l : List Key} (hk : k ∈ ks) (h : Growing ks d (k :: l)) (v : α) :
    Dict.WF d ∧ Growing ks (Dict.set d k v) l := by
  rcases h with h | h
  · refine ⟨by unfold Dict.WF; rw [h]; exact hks, .inl ?_⟩
    rw [Dict.keys_set, h, if_pos hk]
  · have hn := hks
    rw [← h, List.nodup_append] at hn
    refine ⟨hn.1, .inr ?_⟩
    rw [Dict.keys_set, if_neg (fun hm => hn.2.2 k hm k (by simp) rfl), ← h]
    simp

end Loops

/-! ### `FormContainer` -/

/-- What some of the calls make of the formulas. -/
def formLabels (c : FormContainer) : Labels Expr FormContainer.Op where
  data a k e := ∃ e0, (k, e0) ∈ c.form ∧ ∃ A : List FormContainer.Op, (A : Multiset FormContainer.Op) ≤ a ∧
    ∀ σ, e.eval σ = formEffects A (fun σ => e0.eval σ) σ
  data_mono h _ _ := fun ⟨e0, h1, A, h2, h3⟩ => ⟨e0, h1, A, h2.trans h, h3⟩

theorem formLabels_op (S : Sympy) (c : FormContainer) (op : FormContainer.Op) {a : Multiset FormContainer.Op} {k : Key} {e : Expr}
    (h : (formLabels c).data a k e) : (formLabels c).data (a + {op}) k (FormContainer.opF S op e) := by
  obtain ⟨e0, h1, A, h2, h3⟩ := h
  refine ⟨e0, h1, A ++ [op], snoc_le op h2, fun σ => ?_⟩
  rw [FormContainer.eval_opF S op e _ h3]
  simp [formEffects]

theorem safe_subsLoop (S : Sympy) {c : FormContainer} {ks : List Key} {op : FormContainer.Op} {pairs : List (Sym × Expr)}
    (hop : FormContainer.opF S op = S.subs pairs) (hks : ks.Nodup) : ∀ (l : List Key) (d : Dict Key Expr) (g : Ghost FormContainer.Op),
    (∀ k ∈ l, k ∈ ks) → Growing ks d l → (∀ it ∈ d, it.1 ∈ l ∨ (formLabels c).data (g.wrote it.1 + {op}) it.1 it.2) →
    Safe (formLabels c) ks (subsLoop S pairs l d) (fun _ => {op}) g
  | [], d, g, _, hg, hd => by
    refine ⟨?_, fun it hit => (hd it hit).resolve_left (by simp), fun _ _ => trivial⟩
    rcases hg with h | h
    · exact h
    · simpa using h
  | k :: l, d, g, hl, hg, hd => by
    intro g1 hg1 r hr
    refine ⟨hr, hl k (by simp), fun g2 hg2 v hv => ?_⟩
    obtain ⟨hwf, hg'⟩ := Growing.set hks (hl k (by simp)) hg (S.subs pairs v)
    refine safe_subsLoop S hop hks l _ g2 (fun k' hk' => hl k' (by simp [hk'])) hg' (fun it hit => ?_)
    rcases mem_set_wf hwf hit with rfl | ⟨hit, hne⟩
    · right
      have := formLabels_op S c op hv
      rw [hop] at this
      exact this
    · rcases hd it hit with h | h
      · rcases List.mem_cons.1 h with h | h
        · exact absurd h hne
        · exact .inl h
      · exact .inr ((formLabels c).data_mono (add_le_add_left (le_trans (hg1.2 _) (hg2.2 _)) _) h)

theorem prog_safe (S : Sympy) {c : FormContainer} {ks : List Key} (hks : ks.Nodup) (op : FormContainer.Op) (g : Ghost FormContainer.Op) :
    Safe (formLabels c) ks (prog S op) (fun _ => {op}) g := by
  cases op with
  | subs pairs =>
    intro g1 _ r hr
    refine ⟨hr, fun g2 _ d hd _ => ?_⟩
    dsimp only
    rw [hd]
    exact safe_subsLoop S rfl hks ks [] g2 (fun k hk => hk) (.inr rfl) (by simp)
  | phaseShift a v =>
    intro g1 _ r hr
    refine ⟨hr, fun g2 _ d hd _ => ?_⟩
    dsimp only
    rw [hd]
    exact safe_subsLoop S rfl hks ks [] g2 (fun k hk => hk) (.inr rfl) (by simp)
  | scale s =>
    intro g1 _ r hr
    refine ⟨hr, fun g2 hg2 d hd _ => ?_⟩
    dsimp only
    rw [hd]
    exact safe_scaleLoop (fun h => formLabels_op S c (.scale s) h) ks _ g2 (lt_of_lt_of_le hr hg2.1) (fun k hk => hk) hks (fun _ _ => rfl)
  | rewrite w =>
    intro g1 _ r hr
    refine ⟨hr, fun g2 hg2 d hd hl => ?_⟩
    exact safe_rewriteLoop (fun h => formLabels_op S c (.rewrite w) h) d _ g2 (fun k hk => by rw [← hd]; exact hk) (by rw [hd]; exact hks)
      (fun _ _ => rfl) hl

/-! ### `fFormContainer` -/

/-- What some of the calls make of a component. -/
def CompOK (c : FFormContainer) (a : Multiset FFormContainer.Op) (k : Key) (i : ℕ) (o : PyObj) : Prop :=
  ∃ v0, (k, v0) ∈ c.fform ∧ ∃ o0, v0.objs[i]? = some o0 ∧ ∃ A : List FFormContainer.Op, (A : Multiset FFormContainer.Op) ≤ a ∧
    ∀ σ, objValue σ o = fformEffects ((i : ℤ) - c.M) A (fun σ => objValue σ o0) σ

theorem CompOK.mono {c : FFormContainer} {a b : Multiset FFormContainer.Op} {k : Key} {i : ℕ} {o : PyObj} (hab : a ≤ b)
    (h : CompOK c a k i o) : CompOK c b k i o := by
  obtain ⟨v0, h1, o0, h2, A, h3, h4⟩ := h
  exact ⟨v0, h1, o0, h2, A, h3.trans hab, h4⟩

/-- What some of the calls make of the components; they may be different calls for each component. -/
def fformLabels (c : FFormContainer) : Labels FArr FFormContainer.Op where
  data a k v := v.objs.length = 2 * c.M + 1 ∧ ∀ i o, v.objs[i]? = some o → CompOK c a k i o
  data_mono h _ _ := fun ⟨h1, h2⟩ => ⟨h1, fun i o ho => (h2 i o ho).mono h⟩

theorem CompOK.op {c : FFormContainer} {a : Multiset FFormContainer.Op} {k : Key} {i : ℕ} {o : PyObj} {op : FFormContainer.Op} {e : Expr}
    (h : CompOK c a k i o) (he : ∀ f : Valuation → ℂ, (∀ σ, objValue σ o = f σ) → ∀ σ, e.eval σ = fformEffect op ((i : ℤ) - c.M) f σ) :
    CompOK c (a + {op}) k i (.sy e) := by
  obtain ⟨v0, h1, o0, h2, A, h3, h4⟩ := h
  refine ⟨v0, h1, o0, h2, A ++ [op], snoc_le op h3, fun σ => ?_⟩
  have := he _ h4 σ
  rw [show objValue σ (.sy e) = e.eval σ from rfl, this]
  simp [fformEffects]

/-- The right-hand side of the inner loop does to a component what the call does. -/
def RhsOK (M : ℕ) (op : FFormContainer.Op) (rhs : FArr → ℤ → Except Err Expr) : Prop :=
  ∀ (v : FArr) (i : ℕ) (e : Expr), v.objs.length = 2 * M + 1 → i < 2 * M + 1 → rhs v ((i : ℤ) - M) = .ok e →
    ∃ o, v.objs[i]? = some o ∧ ∀ f : Valuation → ℂ, (∀ σ, objValue σ o = f σ) → ∀ σ, e.eval σ = fformEffect op ((i : ℤ) - M) f σ

theorem drop_freqs {M i : ℕ} (hi : i < 2 * M + 1) : (freqs M).drop i = ((i : ℤ) - M) :: (freqs M).drop (i + 1) := by
  have hlt : i < (freqs M).length := by rw [length_freqs]; omega
  rw [List.drop_eq_getElem_cons hlt]
  congr 1
  have := getElem?_freqs (M := M) (i := i) (by omega)
  rw [List.getElem?_eq_getElem hlt] at this
  exact Option.some.inj this

theorem safe_compLoop {c : FFormContainer} {ks : List Key} {op : FFormContainer.Op} {rhs : FArr → ℤ → Except Err Expr}
    (hrhs : RhsOK c.M op rhs) {k : Key} (hk : k ∈ ks) {next : List Expr → Prog FArr} {pend : Key → Multiset FFormContainer.Op} :
    ∀ (n i : ℕ) (buf : List Expr) (g : Ghost FFormContainer.Op), n + i = 2 * c.M + 1 → buf.length = 2 * c.M + 1 →
    (∀ j < i, ∀ e, buf[j]? = some e → CompOK c (g.wrote k + {op}) k j (.sy e)) →
    (∀ g', g ≤ g' → ∀ v : List Expr, (fformLabels c).data (g'.wrote k + {op}) k (.obj v) → Safe (fformLabels c) ks (next v) pend g') →
    Safe (fformLabels c) ks (compLoop c.M rhs k next ((freqs c.M).drop i) buf) pend g
  | 0, i, buf, g, hn, hlen, hbuf, hnext => by
    rw [List.drop_eq_nil_of_le (by rw [length_freqs]; omega)]
    refine hnext g g.refl buf ⟨by simpa [FArr.objs] using hlen, fun j o ho => ?_⟩
    simp only [FArr.objs, List.getElem?_map, Option.map_eq_some_iff] at ho
    obtain ⟨e, he, rfl⟩ := ho
    have := (List.getElem?_eq_some_iff.1 he).1
    exact hbuf j (by omega) e he
  | n + 1, i, buf, g, hn, hlen, hbuf, hnext => by
    rw [drop_freqs (by omega)]
    intro g1 hg1 r hr
    refine ⟨hr, hk, fun g2 hg2 v hv => ?_⟩
    dsimp only
    cases hx : rhs v ((i : ℤ) - c.M) with
    | error e => trivial
    | ok x =>
      have hset : pySet buf (n2i ((i : ℤ) - c.M) c.M) x = .ok (buf.set i x) := by
        rw [pySet_nonneg (by unfold n2i; omega) (by unfold n2i; omega)]
        congr 2
        unfold n2i
        omega
      have : (do let x ← (Except.ok x : Except Err Expr); pySet buf (n2i ((i : ℤ) - c.M) c.M) x) = .ok (buf.set i x) := hset
      rw [this]
      refine safe_compLoop hrhs hk n (i + 1) (buf.set i x) g2 (by omega) (by simpa using hlen) (fun j hj e he => ?_)
        (fun g' hg' => hnext g' (Ghost.trans hg1 (Ghost.trans hg2 hg')))
      by_cases hji : j = i
      · subst hji
        rw [List.getElem?_set_self (by omega)] at he
        obtain rfl := Option.some.inj he
        obtain ⟨o, ho, hf⟩ := hrhs v j _ hv.1 (by omega) hx
        exact (hv.2 j o ho).op hf
      · rw [List.getElem?_set_ne (fun h => hji h.symm)] at he
        exact (hbuf j (by omega) e he).mono (add_le_add_left (le_trans (hg1.2 _) (hg2.2 _)) _)

theorem safe_keyLoop {c : FFormContainer} {ks : List Key} {op : FFormContainer.Op} {rhs : FArr → ℤ → Except Err Expr}
    (hrhs : RhsOK c.M op rhs) (hks : ks.Nodup) : ∀ (l : List Key) (d : Dict Key FArr) (g : Ghost FFormContainer.Op),
    (∀ k ∈ l, k ∈ ks) → Growing ks d l → (∀ it ∈ d, it.1 ∈ l ∨ (fformLabels c).data (g.wrote it.1 + {op}) it.1 it.2) →
    Safe (fformLabels c) ks (keyLoop c.M rhs l d) (fun _ => {op}) g
  | [], d, g, _, hg, hd => by
    refine ⟨?_, fun it hit => (hd it hit).resolve_left (by simp), fun _ _ => trivial⟩
    rcases hg with h | h
    · exact h
    · simpa using h
  | k :: l, d, g, hl, hg, hd => by
    refine safe_compLoop (pend := fun _ => {op}) hrhs (hl k (by simp)) (2 * c.M + 1) 0 _ g (by omega) (by simp) (fun j hj => by omega)
      (fun g1 hg1 v hv => ?_)
    obtain ⟨hwf, hg'⟩ := Growing.set hks (hl k (by simp)) hg (.obj v)
    refine safe_keyLoop hrhs hks l _ g1 (fun k' hk' => hl k' (by simp [hk'])) hg' (fun it hit => ?_)
    rcases mem_set_wf hwf hit with rfl | ⟨hit, hne⟩
    · exact .inr hv
    · rcases hd it hit with h | h
      · rcases List.mem_cons.1 h with h | h
        · exact absurd h hne
        · exact .inl h
      · exact .inr ((fformLabels c).data_mono (add_le_add_left (hg1.2 _) _) h)

theorem rhs_get {M i : ℕ} {v : FArr} (hv : v.objs.length = 2 * M + 1) (hi : i < 2 * M + 1) :
    ∃ o, pyGet v.objs (n2i ((i : ℤ) - M) M) = .ok o ∧ v.objs[i]? = some o := by
  obtain ⟨o, h1, h2⟩ := pyGet_n2i_ok hv (m := (i : ℤ) - M) (by rw [mem_freqs]; omega)
  have : ((i : ℤ) - M + M).toNat = i := by omega
  rw [this] at h2
  exact ⟨o, h1, h2⟩

theorem rhs_subs (S : Sympy) (M : ℕ) (pairs : List (Sym × Expr)) :
    RhsOK M (.subs pairs) (fun a m => do let o ← pyGet a.objs (n2i m M); o.subs S pairs) := by
  intro v i e hv hi he
  obtain ⟨o, h1, h2⟩ := rhs_get hv hi
  dsimp only at he
  rw [h1] at he
  have he' : o.subs S pairs = .ok e := he
  refine ⟨o, h2, fun f hf σ => ?_⟩
  cases o with
  | native a b => cases he'
  | sy x =>
    cases he'
    simp only [objValue] at hf
    rw [S.eval_subs, hf]
    rfl

theorem rhs_shift (S : Sympy) (M : ℕ) (a : Expr) : RhsOK M (.phaseShift a)
    (fun v m => do let o ← pyGet v.objs (n2i m M); return S.mul (o.sympify S) (FFormContainer.phaseFactor S a m)) := by
  intro v i e hv hi he
  obtain ⟨o, h1, h2⟩ := rhs_get hv hi
  dsimp only at he
  rw [h1] at he
  have he' : (Except.ok (S.mul (o.sympify S) (FFormContainer.phaseFactor S a ((i : ℤ) - M))) : Except Err Expr) = .ok e := he
  cases he'
  refine ⟨o, h2, fun f hf σ => ?_⟩
  rw [S.eval_mul, PyObj.eval_sympify, FFormContainer.eval_phaseFactor, hf]
  rfl

theorem fformLabels_scale (S : Sympy) (c : FFormContainer) (s : Expr) {a : Multiset FFormContainer.Op} {k : Key} {v : FArr}
    (h : (fformLabels c).data a k v) : (fformLabels c).data (a + {.scale s}) k (.obj (v.objs.map (fun o => S.mul s (o.sympify S)))) := by
  refine ⟨by simpa [FArr.objs] using h.1, fun i o ho => ?_⟩
  simp only [FArr.objs_obj, List.map_map, List.getElem?_map, Option.map_eq_some_iff, Function.comp_apply] at ho
  obtain ⟨o', h1, rfl⟩ := ho
  refine (h.2 i o' h1).op (fun f hf σ => ?_)
  rw [S.eval_mul, PyObj.eval_sympify, hf]
  rfl

theorem fprog_safe (S : Sympy) {c : FFormContainer} {ks : List Key} (hks : ks.Nodup) (op : FFormContainer.Op) (g : Ghost FFormContainer.Op) :
    Safe (fformLabels c) ks (fprog S c.M op) (fun _ => {op}) g := by
  cases op with
  | subs pairs =>
    intro g1 _ r hr
    refine ⟨hr, fun g2 _ d hd _ => ?_⟩
    dsimp only
    rw [hd]
    exact safe_keyLoop (rhs_subs S c.M pairs) hks ks [] g2 (fun k hk => hk) (.inr rfl) (by simp)
  | phaseShift a =>
    intro g1 _ r hr
    refine ⟨hr, fun g2 _ d hd _ g3 _ r' hr' => ⟨hr', fun g4 _ d' hd' _ => ?_⟩⟩
    dsimp only
    rw [hd, hd']
    have hz : Dict.ofPairs (ks.map (fun k => (k, FArr.obj (List.replicate (2 * c.M + 1) (.num 0))))) =
        ks.map (fun k => (k, FArr.obj (List.replicate (2 * c.M + 1) (.num 0)))) := by
      apply Dict.ofPairs_of_nodup
      rw [List.map_map]
      simpa [Function.comp_def] using hks
    rw [hz]
    refine safe_keyLoop (rhs_shift S c.M a) hks ks _ g4 (fun k hk => hk) (.inl ?_) (fun it hit => ?_)
    · simp [Dict.keys, Function.comp_def]
    · obtain ⟨k, hk, rfl⟩ := List.mem_map.1 hit
      exact .inl hk
  | scale s =>
    intro g1 _ r hr
    refine ⟨hr, fun g2 hg2 d hd _ => ?_⟩
    dsimp only
    rw [hd]
    exact safe_scaleLoop (fun h => fformLabels_scale S c s h) ks _ g2 (lt_of_lt_of_le hr hg2.1) (fun k hk => hk) hks (fun _ _ => rfl)

end Shgpy.FormThreads
