import Verif.Proofs.Form
import Verif.Props.FData
import Verif.Model.Copy

/-!
# Properties C16, C31, C32, C64: the formula containers, and copies of all containers
-/

set_option linter.unusedSectionVars false
set_option linter.unusedSimpArgs false

namespace Shgpy
open Spec

/-- `c` can be obtained from a constructor call by any sequence of method calls (failing ones included). -/
def FFormContainer.Reachable (S : Sympy) (c : FFormContainer) : Prop :=
  ∃ iter M c₀ ops, FFormContainer.init S iter M = .ok c₀ ∧ c = FFormContainer.run S c₀ ops

/-- `c` can be obtained from a constructor call by any sequence of method calls. -/
def FormContainer.Reachable (S : Sympy) (c : FormContainer) : Prop :=
  ∃ iter c₀ ops, FormContainer.init S iter = .ok c₀ ∧ c = FormContainer.run S c₀ ops

namespace FFormContainer

theorem length_subsF (S : Sympy) (pairs : List (Sym × Expr)) (a : FArr) :
    (subsF S pairs a).objs.length = a.objs.length := by cases a <;> simp [subsF, FArr.objs]

theorem length_shiftF (S : Sympy) (M : ℕ) (a : Expr) {v : FArr} (h : v.objs.length = 2 * M + 1) :
    (shiftF S M a v).objs.length = v.objs.length := by
  simp only [shiftF, FArr.objs_obj, List.length_map, List.length_zipWith, length_freqs, h, min_self]

theorem length_scaleF (S : Sympy) (s : Expr) (v : FArr) : (scaleF S s v).objs.length = v.objs.length := by
  simp [scaleF]

theorem step_good (S : Sympy) {c : FFormContainer} (hc : c.Good) (op : Op) :
    (step S c op).1.Good ∧ (step S c op).1.getKeys = c.getKeys ∧ (step S c op).1.M = c.M := by
  cases op with
  | subs pairs =>
    by_cases h : ∃ it ∈ c.fform, it.2.isNative = true
    · rw [step_subs_error S hc pairs h]; exact ⟨hc, rfl, rfl⟩
    · rw [step_subs_ok S hc pairs (by simpa using h)]
      exact ⟨hc.mapVals (fun it _ => length_subsF S pairs it.2), by simp [getKeys], rfl⟩
  | phaseShift a =>
    rw [step_shift S hc a]
    exact ⟨hc.mapVals (fun it hit => length_shiftF S c.M a (hc.len _ hit)), by simp [getKeys], rfl⟩
  | scale s =>
    rw [step_scale]
    exact ⟨hc.mapVals (fun it _ => length_scaleF S s it.2), by simp [getKeys], rfl⟩

theorem run_good (S : Sympy) {c : FFormContainer} (hc : c.Good) (ops : List Op) :
    (run S c ops).Good ∧ (run S c ops).getKeys = c.getKeys ∧ (run S c ops).M = c.M := by
  induction ops generalizing c with
  | nil => exact ⟨hc, rfl, rfl⟩
  | cons op ops ih =>
    obtain ⟨h1, h2, h3⟩ := step_good S hc op
    obtain ⟨h4, h5, h6⟩ := ih h1
    exact ⟨h4, h5.trans h2, h6.trans h3⟩

theorem Reachable.good {S : Sympy} {c : FFormContainer} (h : Reachable S c) : c.Good := by
  obtain ⟨iter, M, c₀, ops, h1, rfl⟩ := h
  exact (run_good S (init_good h1).1 ops).1

theorem step_symbolic (S : Sympy) {c : FFormContainer} (hc : c.Good)
    (hn : ∀ it ∈ c.fform, it.2.isNative = false) (op : Op) :
    (step S c op).2 = none ∧ (∀ it ∈ (step S c op).1.fform, it.2.isNative = false) := by
  have key : ∀ {F : FArr → FArr}, (∀ a, a.isNative = false → (F a).isNative = false) →
      ∀ it ∈ c.fform.mapVals F, it.2.isNative = false := by
    intro F hF it hit
    obtain ⟨k, b⟩ := it
    obtain ⟨a, ha, rfl⟩ := Dict.mem_mapVals.1 hit
    exact hF a (hn _ ha)
  cases op with
  | subs pairs =>
    rw [step_subs_ok S hc pairs hn]
    refine ⟨rfl, key (fun a ha => ?_)⟩
    cases a with
    | obj v => rfl
    | native v => cases ha
  | phaseShift a => rw [step_shift S hc a]; exact ⟨rfl, key (fun _ _ => rfl)⟩
  | scale s => rw [step_scale]; exact ⟨rfl, key (fun _ _ => rfl)⟩

theorem step_rep (S : Sympy) {c : FFormContainer} (hc : c.Good) (op : Op) (h : (step S c op).2 = none)
    {k : Key} {m : ℤ} {f : Valuation → ℂ} (hf : FRepresents c k m f) :
    FRepresents (step S c op).1 k m (fformEffect op m f) := by
  cases op with
  | subs pairs =>
    by_cases hn : ∃ it ∈ c.fform, it.2.isNative = true
    · rw [step_subs_error S hc pairs hn] at h; cases h
    · have hn' : ∀ it ∈ c.fform, it.2.isNative = false := by simpa using hn
      rw [step_subs_ok S hc pairs hn']
      exact step_subs_rep S pairs hn' hf
  | phaseShift a => rw [step_shift S hc a]; exact step_shift_rep S a hf
  | scale s => rw [step_scale]; exact step_scale_rep S s hf

end FFormContainer

theorem FormContainer.run_wf (S : Sympy) {c : FormContainer} (hc : Dict.WF c.form) (ops : List FormContainer.Op) :
    Dict.WF (FormContainer.run S c ops).form := by
  induction ops generalizing c with
  | nil => exact hc
  | cons op ops ih =>
    refine ih (c := (FormContainer.step S c op).1) ?_
    rw [FormContainer.step_eq S hc]
    simpa [Dict.WF] using hc

theorem FormContainer.Reachable.wf {S : Sympy} {c : FormContainer} (h : Reachable S c) : Dict.WF c.form := by
  obtain ⟨iter, c₀, ops, h1, rfl⟩ := h
  exact run_wf S (init_wf h1) ops

/-! ## C64: what the constructors accept -/

/-- **C64.** `fFormContainer(iterable, M)` is accepted exactly when all keys are `str` and all values are
one-dimensional object arrays with `2M+1` elements; otherwise `ValueError`. -/
theorem C64_fform_validation (S : Sympy) (iter : List (RawKey × RawFF)) (M : ℕ) :
    ((∃ c, FFormContainer.init S iter M = .ok c) ↔
      ∀ k v, (k, v) ∈ Dict.ofPairs iter → (∃ s, k = RawKey.str s) ∧ ∃ l, v = .objArr l ∧ l.length = 2 * M + 1) ∧
    (∀ e, FFormContainer.init S iter M = .error e → e = .valueError) := by
  constructor
  · constructor
    · rintro ⟨c, hc⟩ k v hkv
      obtain ⟨d, hd, _⟩ := FFormContainer.init_ok_iff.1 hc
      obtain ⟨q, _, h1, h2⟩ := forall₂_mem_left (FFormContainer.checkFFIterable_ok hd) hkv
      obtain ⟨h3, h4⟩ := FFormContainer.checkFFVal_length h2
      exact ⟨⟨_, h1⟩, _, h3, h4⟩
    · intro h
      have : ∀ d : Dict RawKey RawFF, (∀ k v, (k, v) ∈ d → (∃ s, k = RawKey.str s) ∧
          ∃ l, v = .objArr l ∧ l.length = 2 * M + 1) → ∃ d', checkFFIterable M d = .ok d' := by
        intro d
        induction d with
        | nil => intro _; exact ⟨[], rfl⟩
        | cons p d ih =>
          intro h
          obtain ⟨k, v⟩ := p
          obtain ⟨⟨s, rfl⟩, l, rfl, hl⟩ := h k v List.mem_cons_self
          obtain ⟨d', hd'⟩ := ih (fun k v hkv => h k v (List.mem_cons_of_mem _ hkv))
          refine ⟨(s, l) :: d', ?_⟩
          have : checkFFVal M (.objArr l) = some l := by simp [checkFFVal, hl]
          simp only [checkFFIterable, this, hd']
      obtain ⟨d', hd'⟩ := this _ h
      exact ⟨_, FFormContainer.init_ok_iff.2 ⟨d', hd', rfl⟩⟩
  · intro e he
    unfold FFormContainer.init at he
    cases hc : checkFFIterable M (Dict.ofPairs iter) with
    | error e' => rw [hc] at he; cases he; exact FFormContainer.checkFFIterable_error hc
    | ok d => rw [hc] at he; cases he

/-- **C64.** An accepted container stores exactly the given values: component `m` of combination `k` has the value of
element `m + M` of the array given for `k`, under every valuation. -/
theorem C64_fform_contents (S : Sympy) {iter : List (RawKey × RawFF)} {M : ℕ} {c : FFormContainer}
    (h : FFormContainer.init S iter M = .ok c) :
    c.getM = M ∧ c.getKeys.map RawKey.str = Dict.keys (Dict.ofPairs iter) ∧
    ∀ k l, Dict.get? (Dict.ofPairs iter) (.str k) = some (.objArr l) → ∀ m o, Component l M m o →
      FRepresents c k m (fun σ => objValue σ o) := by
  obtain ⟨d, hd, rfl⟩ := FFormContainer.init_ok_iff.1 h
  have hf := FFormContainer.checkFFIterable_ok hd
  have hwf := (FFormContainer.init_good h).1
  refine ⟨rfl, ?_, ?_⟩
  · rw [show Dict.keys (Dict.ofPairs iter) = (Dict.keys d).map RawKey.str from FFormContainer.forall₂_keys hf]
    simp [FFormContainer.getKeys]
  · intro k l hk m o ho
    obtain ⟨q, hq, h1, h2⟩ := forall₂_mem_left hf (Dict.mem_of_get? hk)
    obtain ⟨k', v⟩ := q
    simp only [RawKey.str.injEq] at h1
    subst h1
    obtain ⟨h3, h4⟩ := FFormContainer.checkFFVal_length h2
    simp only [RawFF.objArr.injEq] at h3
    subst h3
    have hmem : (k, fformArray S l) ∈ d.mapVals (fformArray S) := Dict.mem_mapVals.2 ⟨l, hq, rfl⟩
    by_cases hn : l.all PyObj.isNative = true
    · refine ⟨_, o, hwf.getPc_iff.2 hmem, ?_, fun σ => rfl⟩
      have : (fformArray S l).objs = l := by
        unfold fformArray
        rw [if_pos hn]
        simp only [FArr.objs, List.map_map]
        conv_rhs => rw [← List.map_id l]
        refine List.map_congr_left (fun x hx => ?_)
        have := List.all_eq_true.1 hn x hx
        cases x with
        | native re im => rfl
        | sy e => cases this
      rw [this]
      exact ho
    · refine ⟨_, .sy (o.sympify S), hwf.getPc_iff.2 hmem, ?_, fun σ => PyObj.eval_sympify S σ o⟩
      have : (fformArray S l).objs = (l.map (PyObj.sympify S)).map .sy := by
        unfold fformArray
        rw [if_neg hn]
        rfl
      rw [this]
      exact component_map _ (component_map _ ho)

/-- **C64.** `FormContainer(iterable)` is accepted exactly when all keys are `str`, otherwise `ValueError`; it stores the
given values. -/
theorem C64_form_validation (S : Sympy) (iter : List (RawKey × PyObj)) :
    ((∃ c, FormContainer.init S iter = .ok c) ↔ ∀ k v, (k, v) ∈ Dict.ofPairs iter → ∃ s, k = RawKey.str s) ∧
    (∀ e, FormContainer.init S iter = .error e → e = .valueError) ∧
    (∀ c, FormContainer.init S iter = .ok c → c.getKeys.map RawKey.str = Dict.keys (Dict.ofPairs iter) ∧
      ∀ k o, Dict.get? (Dict.ofPairs iter) (.str k) = some o → Represents c k (fun σ => objValue σ o)) := by
  refine ⟨⟨?_, ?_⟩, ?_, ?_⟩
  · rintro ⟨c, hc⟩ k v hkv
    obtain ⟨d, hd, _⟩ := FormContainer.init_ok_iff.1 hc
    rw [hd] at hkv
    obtain ⟨q, _, hq⟩ := List.mem_map.1 hkv
    cases hq
    exact ⟨_, rfl⟩
  · intro h
    have : ∀ d : Dict RawKey PyObj, (∀ k v, (k, v) ∈ d → ∃ s, k = RawKey.str s) →
        ∃ d' : Dict Key PyObj, d = d'.map (fun kv => (.str kv.1, kv.2)) := by
      intro d
      induction d with
      | nil => intro _; exact ⟨[], rfl⟩
      | cons p d ih =>
        intro h
        obtain ⟨k, v⟩ := p
        obtain ⟨s, rfl⟩ := h k v List.mem_cons_self
        obtain ⟨d', rfl⟩ := ih (fun k v hkv => h k v (List.mem_cons_of_mem _ hkv))
        exact ⟨(s, v) :: d', rfl⟩
    obtain ⟨d', hd'⟩ := this _ h
    exact ⟨_, FormContainer.init_ok_iff.2 ⟨d', hd', rfl⟩⟩
  · intro e he
    unfold FormContainer.init at he
    cases hc : checkFormIterable (Dict.ofPairs iter) with
    | error e' => rw [hc] at he; cases he; exact FormContainer.checkFormIterable_error hc
    | ok d => rw [hc] at he; cases he
  · intro c hc
    have hwf := FormContainer.init_wf hc
    obtain ⟨d, hd, rfl⟩ := FormContainer.init_ok_iff.1 hc
    refine ⟨?_, ?_⟩
    · rw [hd]
      simp [FormContainer.getKeys, Dict.keys, Dict.mapVals, Function.comp_def]
    · intro k o ho
      have hmem := Dict.mem_of_get? ho
      rw [hd] at hmem
      obtain ⟨q, hq, hq'⟩ := List.mem_map.1 hmem
      cases hq'
      refine ⟨q.2.sympify S, ?_, fun σ => PyObj.eval_sympify S σ q.2⟩
      unfold FormContainer.getPc
      rw [Dict.get_ok_iff, Dict.get?_eq_some_iff hwf]
      exact Dict.mem_mapVals.2 ⟨q.2, hq, rfl⟩

/-! ## C31 -/

/-- **C31.** `FormContainer.get_free_symbols()` never raises and lists every symbol occurring in some formula, once, and
nothing else, in ascending order of name. -/
theorem C31_form_free_symbols (S : Sympy) {c : FormContainer} (hc : c.Reachable S) :
    ∃ l, c.getFreeSymbols S = .ok l ∧ l.Nodup ∧ l.Pairwise (fun a b => a.name ≤ b.name) ∧
      ∀ s, s ∈ l ↔ Occurs c s := by
  have hwf := hc.wf
  obtain ⟨l, hl, hs⟩ := FormContainer.getFreeSymbols_ok S hwf
  refine ⟨_, hl, S.sortSyms_nodup l, S.sortSyms_sorted l, fun s => ?_⟩
  rw [S.mem_sortSyms, hs]
  unfold Occurs FormContainer.getPc
  constructor
  · rintro ⟨k, e, h, he⟩
    exact ⟨k, e, Dict.get_ok_iff.2 ((Dict.get?_eq_some_iff hwf).2 h), he⟩
  · rintro ⟨k, e, h, he⟩
    exact ⟨k, e, Dict.mem_of_get? (Dict.get_ok_iff.1 h), he⟩

/-- **C31.** The same for `fFormContainer.get_free_symbols()`, unless some array has a numeric dtype (a combination all
of whose components were given as plain Python numbers): then it raises `AttributeError`. -/
theorem C31_fform_free_symbols (S : Sympy) {c : FFormContainer} (hc : c.Reachable S) :
    (Symbolic c → ∃ l, c.getFreeSymbols S = .ok l ∧ l.Nodup ∧ l.Pairwise (fun a b => a.name ≤ b.name) ∧
      ∀ s, s ∈ l ↔ FOccurs c s) ∧
    (¬ Symbolic c → c.getFreeSymbols S = .error .attributeError) := by
  have hg := hc.good
  constructor
  · intro hn
    have hn' := (FFormContainer.symbolic_iff hg).1 hn
    obtain ⟨l, hl, hs⟩ := FFormContainer.getFreeSymbols_ok S hg hn'
    refine ⟨_, hl, S.sortSyms_nodup l, S.sortSyms_sorted l, fun s => ?_⟩
    rw [S.mem_sortSyms, hs]
    unfold FOccurs
    constructor
    · rintro ⟨k, v, e, h, he, hse⟩
      have hlen := hg.len _ h
      obtain ⟨m, hm⟩ := exists_component_of_mem (M := c.M) (by simpa using hlen) he
      exact ⟨k, _, m, e, hg.getPc_iff.2 h, component_map _ hm, hse⟩
    · rintro ⟨k, a, m, e, h, he, hse⟩
      have h' := hg.getPc_iff.1 h
      have := hn' _ h'
      cases a with
      | native v => cases this
      | obj v =>
        obtain ⟨e', he', heq⟩ := List.mem_map.1 he.mem
        cases heq
        exact ⟨k, v, e, h', he', hse⟩
  · intro hn
    exact FFormContainer.getFreeSymbols_error S hg ((FFormContainer.not_symbolic_iff hg).1 hn)

theorem eq_of_sorted_syms {l l' : List Sym} (h1 : l.Nodup) (h2 : l'.Nodup)
    (s1 : l.Pairwise (fun a b => a.name ≤ b.name)) (s2 : l'.Pairwise (fun a b => a.name ≤ b.name))
    (hm : ∀ s, s ∈ l ↔ s ∈ l') (hinj : ∀ s ∈ l, ∀ t ∈ l, s.name = t.name → s = t) : l = l' := by
  have hp : l.Perm l' := (List.perm_ext_iff_of_nodup h1 h2).2 hm
  refine hp.eq_of_pairwise (le := fun a b => a.name ≤ b.name) ?_ s1 s2
  intro a b ha hb hab hba
  exact hinj a ha b ((hm b).2 hb) (List.le_antisymm hab hba)

/-- **C31.** When different symbols have different names the list does not depend on the iteration order of sets. -/
theorem C31_order_independent (S S' : Sympy) {l : List Sym}
    (hinj : ∀ s ∈ l, ∀ t ∈ l, s.name = t.name → s = t) : S.sortSyms l = S'.sortSyms l := by
  refine eq_of_sorted_syms (S.sortSyms_nodup l) (S'.sortSyms_nodup l) (S.sortSyms_sorted l) (S'.sortSyms_sorted l)
    (fun s => by rw [S.mem_sortSyms, S'.mem_sortSyms]) ?_
  intro s hs t ht
  rw [S.mem_sortSyms] at hs ht
  exact hinj s hs t ht

/-- **C31.** Hence two runs with different set orders get the same list from the same container. -/
theorem C31_form_order_independent (S S' : Sympy) {c : FormContainer} (hc : c.Reachable S) (hc' : c.Reachable S')
    (hinj : ∀ s t, Occurs c s → Occurs c t → s.name = t.name → s = t) :
    c.getFreeSymbols S = c.getFreeSymbols S' := by
  obtain ⟨l, h1, h2, h3, h4⟩ := C31_form_free_symbols S hc
  obtain ⟨l', h1', h2', h3', h4'⟩ := C31_form_free_symbols S' hc'
  rw [h1, h1']
  congr 1
  exact eq_of_sorted_syms h2 h2' h3 h3' (fun s => (h4 s).trans (h4' s).symm)
    (fun s hs t ht => hinj s t ((h4 s).1 hs) ((h4 t).1 ht))

/-! ## C32 -/

/-- **C32.** After any sequence of `subs`, `apply_phase_shift`, `apply_arbitrary_scale`, `simplify` and `expand` calls,
none of which raises, the keys are unchanged and every formula represents the original function with the effects of the
calls applied in order. -/
theorem C32_form_history (S : Sympy) {iter : List (RawKey × PyObj)} {c₀ : FormContainer}
    (h₀ : FormContainer.init S iter = .ok c₀) (ops : List FormContainer.Op) :
    (FormContainer.run S c₀ ops).getKeys = c₀.getKeys ∧
    (∀ op, (FormContainer.step S (FormContainer.run S c₀ ops) op).2 = none) ∧
    ∀ k f, Represents c₀ k f →
      Represents (FormContainer.run S c₀ ops) k (ops.foldl (fun f op => formEffect op f) f) := by
  have hwf := FormContainer.init_wf h₀
  clear h₀
  have hr := FormContainer.run_wf S hwf ops
  refine ⟨?_, fun op => by rw [FormContainer.step_eq S hr], ?_⟩
  · clear hr
    induction ops generalizing c₀ with
    | nil => rfl
    | cons op ops ih =>
      show (FormContainer.run S (FormContainer.step S c₀ op).1 ops).getKeys = _
      rw [ih (by rw [FormContainer.step_eq S hwf]; simpa [Dict.WF] using hwf), FormContainer.step_eq S hwf]
      simp [FormContainer.getKeys]
  · clear hr
    induction ops generalizing c₀ with
    | nil => intro k f h; exact h
    | cons op ops ih =>
      intro k f h
      show Represents (FormContainer.run S (FormContainer.step S c₀ op).1 ops) k _
      refine ih (by rw [FormContainer.step_eq S hwf]; simpa [Dict.WF] using hwf) k _ ?_
      rw [FormContainer.step_eq S hwf]
      obtain ⟨e, he, hf⟩ := h
      refine ⟨FormContainer.opF S op e, ?_, fun σ => FormContainer.eval_opF S op e f hf σ⟩
      unfold FormContainer.getPc at he ⊢
      rw [Dict.get_ok_iff, Dict.get?_mapVals, Dict.get_ok_iff.1 he]
      rfl

/-- **C32.** One call on an `fFormContainer`: it either succeeds and has its effect on every component, or it is a `subs`
on a container with a numeric array, which raises `AttributeError` and changes nothing.  Keys and `M` never change. -/
theorem C32_fform_step (S : Sympy) {c : FFormContainer} (hc : c.Reachable S) (op : FFormContainer.Op) :
    let r := FFormContainer.step S c op
    r.1.getKeys = c.getKeys ∧ r.1.getM = c.getM ∧
    ((r.2 = none ∧ ∀ k m f, FRepresents c k m f → FRepresents r.1 k m (fformEffect op m f)) ∨
     (r = (c, some .attributeError) ∧ ¬ Symbolic c ∧ ∃ pairs, op = .subs pairs)) := by
  intro r
  have hg := hc.good
  obtain ⟨h1, h2, h3⟩ := FFormContainer.step_good S hg op
  refine ⟨h2, h3, ?_⟩
  by_cases h : r.2 = none
  · exact Or.inl ⟨h, fun k m f hf => FFormContainer.step_rep S hg op h hf⟩
  · right
    cases op with
    | subs pairs =>
      by_cases hn : ∃ it ∈ c.fform, it.2.isNative = true
      · exact ⟨FFormContainer.step_subs_error S hg pairs hn, (FFormContainer.not_symbolic_iff hg).2 hn, pairs, rfl⟩
      · exact absurd (by simp only [r]; rw [FFormContainer.step_subs_ok S hg pairs (by simpa using hn)]) h
    | phaseShift a => exact absurd (by simp only [r]; rw [FFormContainer.step_shift S hg a]) h
    | scale s => exact absurd rfl h

/-- **C32.** Histories of a container without numeric arrays: no call raises, keys and `M` are unchanged, and every
component is the original one with the effects of the calls applied in order. -/
theorem C32_fform_history (S : Sympy) {iter : List (RawKey × RawFF)} {M : ℕ} {c₀ : FFormContainer}
    (h₀ : FFormContainer.init S iter M = .ok c₀) (hn : Symbolic c₀) (ops : List FFormContainer.Op) :
    let c := FFormContainer.run S c₀ ops
    c.getKeys = c₀.getKeys ∧ c.getM = M ∧ Symbolic c ∧ (∀ op, (FFormContainer.step S c op).2 = none) ∧
    ∀ k m f, FRepresents c₀ k m f → FRepresents c k m (ops.foldl (fun f op => fformEffect op m f) f) := by
  intro c
  obtain ⟨hg, hM⟩ := FFormContainer.init_good h₀
  obtain ⟨h1, h2, h3⟩ := FFormContainer.run_good S hg ops
  have hn' := (FFormContainer.symbolic_iff hg).1 hn
  have key : (∀ it ∈ (FFormContainer.run S c₀ ops).fform, it.2.isNative = false) ∧
      ∀ k m f, FRepresents c₀ k m f →
        FRepresents (FFormContainer.run S c₀ ops) k m (ops.foldl (fun f op => fformEffect op m f) f) := by
    clear h₀ hM h1 h2 h3 hn c
    induction ops generalizing c₀ with
    | nil => exact ⟨hn', fun k m f h => h⟩
    | cons op ops ih =>
      obtain ⟨e1, e2⟩ := FFormContainer.step_symbolic S hg hn' op
      obtain ⟨e3, e4⟩ := ih (FFormContainer.step_good S hg op).1 e2
      exact ⟨e3, fun k m f h => e4 k m _ (FFormContainer.step_rep S hg op e1 h)⟩
  refine ⟨h2, h3.trans hM, (FFormContainer.symbolic_iff h1).2 key.1, fun op => ?_, key.2⟩
  exact (FFormContainer.step_symbolic S h1 key.1 op).1

/-! ## C16 -/

/-- **C16 (FormContainer).** `copy()` of any reachable container is an equal container. -/
theorem C16_form_copy (S : Sympy) {c : FormContainer} (hc : c.Reachable S) : c.copy S = .ok c :=
  FormContainer.copy_ok S hc.wf

/-- **C16 (fFormContainer).** `copy()` is an equal container when no array is numeric; otherwise it raises `ValueError`. -/
theorem C16_fform_copy_partial (S : Sympy) {c : FFormContainer} (hc : c.Reachable S) :
    (Symbolic c → c.copy S = .ok c) ∧ (¬ Symbolic c → c.copy S = .error .valueError) :=
  ⟨fun h => FFormContainer.copy_ok S hc.good ((FFormContainer.symbolic_iff hc.good).1 h),
   fun h => FFormContainer.copy_error S hc.good ((FFormContainer.not_symbolic_iff hc.good).1 h)⟩

theorem FDataContainer.copy_eq {c : FDataContainer} (hc : c.Good) :
    c.copy = .ok { c with phaseShift := .tup c.phaseShift } := by
  have h1 : FDataContainer.init (c.fdata.map (fun it => (.str it.1, .arr1 .complex128 it.2))) c.M
      = .ok ⟨c.fdata, c.M, 1, .num 0⟩ := by
    have hnd : ((c.fdata.map (fun it => (RawKey.str it.1, RawFVal.arr1 .complex128 it.2))).map Prod.fst).Nodup := by
      rw [List.map_map]
      have h1 : (c.fdata.map (Prod.fst ∘ fun it => (RawKey.str it.1, RawFVal.arr1 .complex128 it.2)))
          = (Dict.keys c.fdata).map RawKey.str := by simp [Dict.keys, Function.comp_def]
      rw [h1]
      exact List.Nodup.map (fun a b h => by cases h; rfl) hc.wf
    unfold FDataContainer.init
    rw [Dict.ofPairs_of_nodup hnd]
    have : ∀ d : Dict Key (List ℂ), (∀ it ∈ d, it.2.length = 2 * c.M + 1) →
        checkFIterable c.M (d.map (fun it => (.str it.1, .arr1 .complex128 it.2))) = .ok d := by
      intro d
      induction d with
      | nil => intro _; rfl
      | cons p d ih =>
        intro h
        have h1 : checkFVal c.M (.arr1 .complex128 p.2) = some p.2 := by
          simp [checkFVal, h p List.mem_cons_self]
        have h2 := ih (fun it hit => h it (List.mem_cons_of_mem _ hit))
        simp only [List.map_cons, checkFIterable, h1, h2]
    rw [this _ hc.len]
    rfl
  unfold FDataContainer.copy
  rw [h1]
  rfl

/-- **C16 (fDataContainer), what holds.** `copy()` never raises; the copy has the same keys, values, `M` and scale, and
scaling and normalizing it behave as on the original.  Missing: the recorded phase shift, see
`C16_fdata_copy_phase_broken`. -/
theorem C16_fdata_copy_partial {c : FDataContainer} (hc : c.Reachable) :
    ∃ c', c.copy = .ok c' ∧ c'.getItems = c.getItems ∧ c'.getM = c.getM ∧ c'.getScale = c.getScale ∧
      (∀ s, (FDataContainer.step c' (.scale s)).2 = (FDataContainer.step c (.scale s)).2 ∧
        (FDataContainer.step c' (.scale s)).1.getItems = (FDataContainer.step c (.scale s)).1.getItems ∧
        (FDataContainer.step c' (.scale s)).1.getScale = (FDataContainer.step c (.scale s)).1.getScale) ∧
      (∀ d, (FDataContainer.step c' (.normalize d)).2 = (FDataContainer.step c (.normalize d)).2 ∧
        (FDataContainer.step c' (.normalize d)).1.getItems = (FDataContainer.step c (.normalize d)).1.getItems ∧
        (FDataContainer.step c' (.normalize d)).1.getScale = (FDataContainer.step c (.normalize d)).1.getScale) := by
  refine ⟨_, FDataContainer.copy_eq hc.good, rfl, rfl, rfl, ?_, ?_⟩
  · intro s
    rw [FDataContainer.step_scale, FDataContainer.step_scale]
    by_cases hs : s < 0
    · simp only [hs, if_true]; exact ⟨trivial, rfl, rfl⟩
    · simp only [hs, if_false]; exact ⟨trivial, rfl, rfl⟩
  · intro d
    rw [FDataContainer.step_normalize, FDataContainer.step_normalize]
    have : FDataContainer.getMaxval { c with phaseShift := .tup c.phaseShift } = c.getMaxval := rfl
    rw [this]
    cases c.getMaxval with
    | error e => exact ⟨rfl, rfl, rfl⟩
    | ok o => cases o with
      | none =>
        simp only
        rw [FDataContainer.step_scale, FDataContainer.step_scale, if_neg (lt_irrefl _), if_neg (lt_irrefl _)]
        exact ⟨rfl, rfl, rfl⟩
      | some km =>
        by_cases hm : km.2 = 0
        · simp only [hm, if_true]; exact ⟨trivial, rfl, rfl⟩
        · simp only [hm, if_false]
          rw [FDataContainer.step_scale, FDataContainer.step_scale]
          by_cases hs : d / km.2 < 0
          · simp only [hs, if_true]; exact ⟨trivial, rfl, rfl⟩
          · simp only [hs, if_false]; exact ⟨trivial, rfl, rfl⟩

/-- **C16 (fDataContainer), the failure.** For every reachable container, the recorded phase shift of the copy is a
one-element tuple instead of the number, and `phase_shift_fdata` on the copy, with any angle in valid units, changes the
data as on the original but then raises `TypeError`, where the original succeeds. -/
theorem C16_fdata_copy_phase_broken {c : FDataContainer} (hc : c.Reachable) :
    ∃ c', c.copy = .ok c' ∧ c'.getPhaseShift sRadians ≠ c.getPhaseShift sRadians ∧
      ∀ a u, lower u = sRadians ∨ lower u = sDegrees →
        (FDataContainer.step c (.phaseShift a u)).2 = none ∧
        (FDataContainer.step c' (.phaseShift a u)).2 = some .typeError ∧
        (FDataContainer.step c' (.phaseShift a u)).1.getItems = (FDataContainer.step c (.phaseShift a u)).1.getItems := by
  have hg := hc.good
  obtain ⟨p, hp⟩ := hg.num
  refine ⟨_, FDataContainer.copy_eq hg, ?_, ?_⟩
  · show Except.ok (Phase.tup c.phaseShift) ≠ Except.ok c.phaseShift
    rw [hp]
    intro h
    cases h
  · intro a u hu
    rw [FDataContainer.step_phaseShift hg.wf hg.len,
      FDataContainer.step_phaseShift (c := { c with phaseShift := .tup c.phaseShift }) hg.wf hg.len, if_pos hu,
      if_pos hu, hp]
    exact ⟨rfl, rfl, rfl⟩

/-- **C16 (DataContainer), the failure.** `copy()` raises `AttributeError` on every instance. -/
theorem C16_data_copy_broken {K : Type} [Field K] [LinearOrder K] [FloorRing K] [HasPi K] (c : DataContainer K) :
    c.copy = .error .attributeError := by
  have h1 : ("_data_dict" ∈ DataContainer.attributes) = True := by
    simp [DataContainer.attributes]
  have h2 : ("coerced" ∈ DataContainer.attributes) = False := by
    simp [DataContainer.attributes]
  simp only [DataContainer.copy, DataContainer.getattr, h1, h2, if_true, if_false]
  rfl

/-! ## Examples -/

section Examples

/-- `x`. -/
def symX : Sym := ⟨['x'], 0⟩
/-- `y`. -/
def symY : Sym := ⟨['y'], 0⟩

/-- `{'PP': x + 2*y}`. -/
def exForm : List (RawKey × PyObj) :=
  [(.str kPP, .sy (.add [.sym symX, .mul [.num 2, .sym symY]]))]

/-- `{'PP': array([x, 0, y])}` with `M = 1`. -/
def exFForm : List (RawKey × RawFF) :=
  [(.str kPP, .objArr [.sy (.sym symX), .native 0 0, .sy (.sym symY)])]

/-- `{'PP': array([1, 0, 1], dtype=object)}`. -/
def exNumeric : List (RawKey × RawFF) := [(.str kPP, .objArr [.native 1 0, .native 0 0, .native 1 0])]

example : FormContainer.init Sympy.plain exForm = .ok ⟨[(kPP, .add [.sym symX, .mul [.num 2, .sym symY]])]⟩ := rfl

example : ∃ c, FFormContainer.init Sympy.plain exFForm 1 = .ok c ∧ Symbolic c ∧ c.Reachable Sympy.plain := by
  refine ⟨⟨[(kPP, .obj [.sym symX, .num 0, .sym symY])], 1⟩, rfl, ?_, exFForm, 1, _, [], rfl, rfl⟩
  intro k a h
  have := Dict.mem_of_get? (Dict.get_ok_iff.1 h)
  simp only [List.mem_singleton, Prod.mk.injEq] at this
  rw [this.2]
  rfl

/-- An all-number combination gives a numeric array, on which `get_free_symbols` and `copy` fail. -/
example : ∃ c, FFormContainer.init Sympy.plain exNumeric 1 = .ok c ∧
    c.getFreeSymbols Sympy.plain = .error .attributeError ∧ c.copy Sympy.plain = .error .valueError :=
  ⟨⟨[(kPP, .native [(1, 0), (0, 0), (1, 0)])], 1⟩, rfl, rfl, rfl⟩

/-- Substitutions are sequential: `x -> y` followed by `y -> 1` turns `x + 2*y` into the value `3`. -/
example : (Sympy.plain.subs [(symX, .sym symY), (symY, .num 1)] (.add [.sym symX, .mul [.num 2, .sym symY]])).eval
    (fun _ => 0) = 3 := by
  rw [Sympy.eval_subs]
  simp [assigned, assign, Expr.eval, Expr.evalSum, Expr.evalProd, symX, symY]
  norm_num

example : (FFormContainer.step Sympy.plain ⟨[(kPP, .native [(1, 0), (0, 0), (1, 0)])], 1⟩ (.subs [(symX, .num 1)])).2
    = some .attributeError := rfl

end Examples

end Shgpy
