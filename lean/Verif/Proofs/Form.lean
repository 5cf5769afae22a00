import Verif.Proofs.Expr
import Verif.Proofs.Convert

/-!
# Lemmas about the formula containers
-/

set_option linter.unusedSectionVars false
set_option linter.unusedSimpArgs false

namespace Shgpy
open Spec

/-! ## Loops -/

theorem foldlM_set_kv {α β : Type} (f : Key × α → Except Err β) (g : Key × α → β) (items : Dict Key α)
    (pre : Dict Key β) (h : (Dict.keys pre ++ Dict.keys items).Nodup) (hf : ∀ it ∈ items, f it = .ok (g it)) :
    items.foldlM (fun (it : Dict Key β) kv => do
      let a ← f kv
      return Dict.set it kv.1 a) pre = .ok (pre ++ items.map (fun kv => (kv.1, g kv))) := by
  induction items generalizing pre with
  | nil => simp; rfl
  | cons p items ih =>
    obtain ⟨k, v⟩ := p
    rw [List.foldlM_cons, hf _ List.mem_cons_self]
    have hk : k ∉ Dict.keys pre := by
      intro hk
      rw [List.nodup_append] at h
      exact h.2.2 k hk k (by simp) rfl
    show List.foldlM _ (Dict.set pre k (g (k, v))) items = _
    rw [Dict.set_of_notMem hk, ih]
    · simp
    · simp only [Dict.keys, List.map_append, List.map_cons, List.map_nil, List.append_assoc, List.singleton_append]
      simpa [Dict.keys] using h
    · intro it hit
      exact hf it (List.mem_cons_of_mem _ hit)

theorem foldlM_error {ι δ : Type} (body : δ → ι → Except Err δ) (e : Err) (l : List ι) (d : δ)
    (h : ∀ i ∈ l, (∀ d, ∃ d', body d i = .ok d') ∨ (∀ d, body d i = .error e))
    (hex : ∃ i ∈ l, ∀ d, body d i = .error e) : l.foldlM body d = .error e := by
  induction l generalizing d with
  | nil => obtain ⟨i, hi, _⟩ := hex; cases hi
  | cons i l ih =>
    rw [List.foldlM_cons]
    rcases h i List.mem_cons_self with h1 | h1
    · obtain ⟨d', hd'⟩ := h1 d
      rw [hd']
      obtain ⟨j, hj, hj'⟩ := hex
      rcases List.mem_cons.1 hj with rfl | hj
      · rw [hj' d] at hd'; cases hd'
      · exact ih d' (fun i hi => h i (List.mem_cons_of_mem _ hi)) ⟨j, hj, hj'⟩
    · rw [h1 d]; rfl

theorem mapM_error {α β : Type} {f : α → Except Err β} {e : Err} {l : List α}
    (h : ∀ a ∈ l, (∃ b, f a = .ok b) ∨ f a = .error e) (hex : ∃ a ∈ l, f a = .error e) :
    l.mapM f = .error e := by
  induction l with
  | nil => obtain ⟨a, ha, _⟩ := hex; cases ha
  | cons a l ih =>
    rw [List.mapM_cons]
    rcases h a List.mem_cons_self with ⟨b, hb⟩ | hb
    · rw [hb]
      obtain ⟨c, hc, hc'⟩ := hex
      rcases List.mem_cons.1 hc with rfl | hc
      · rw [hc'] at hb; cases hb
      · rw [ih (fun a ha => h a (List.mem_cons_of_mem _ ha)) ⟨c, hc, hc'⟩]
        rfl
    · rw [hb]; rfl

theorem freqs_ne_nil (M : ℕ) : freqs M ≠ [] := by
  intro h
  have := length_freqs M
  rw [h] at this
  simp at this

theorem fillFreqs_get {α β : Type} {l : List α} {M : ℕ} (hl : l.length = 2 * M + 1) {z : β}
    (F : ℤ → α → Except Err β) (G : ℤ → α → β) (h : ∀ m, ∀ o ∈ l, F m o = .ok (G m o)) :
    fillFreqs M z (2 * M + 1) (fun m => do
      let o ← pyGet l (n2i m M)
      F m o) = .ok (List.zipWith G (freqs M) l) := by
  have key : ∀ m ∈ freqs M, ∃ o ∈ l, pyGet l (n2i m M) = .ok o ∧ l[(m + M).toNat]? = some o := by
    intro m hm
    obtain ⟨o, h1, h2⟩ := pyGet_n2i_ok hl hm
    exact ⟨o, List.mem_of_getElem? h2, h1, h2⟩
  obtain ⟨d, hd⟩ : ∃ d : α, d ∈ l := by
    cases l with
    | nil => simp at hl
    | cons a l => exact ⟨a, List.mem_cons_self⟩
  rw [fillFreqs_ok (g := fun m => G m (l.getD (m + M).toNat d))]
  · congr 1
    refine List.ext_getElem? (fun i => ?_)
    by_cases hi : i < 2 * M + 1
    · rw [List.getElem?_map, getElem?_freqs hi, List.getElem?_zipWith, getElem?_freqs hi]
      have : ((i : ℤ) - M + M).toNat = i := by omega
      simp only [Option.map_some, this, List.getD_eq_getElem?_getD]
      rw [List.getElem?_eq_getElem (by omega)]
      rfl
    · rw [List.getElem?_eq_none (by simp [length_freqs]; omega),
        List.getElem?_eq_none (by simp [length_freqs]; omega)]
  · intro m hm
    obtain ⟨o, h1, h2, h3⟩ := key m hm
    rw [h2]
    show F m o = _
    rw [h m o h1, List.getD_eq_getElem?_getD, h3]
    rfl

theorem component_zipWith {α β : Type} {l : List α} {M : ℕ} {m : ℤ} {o : α} (G : ℤ → α → β)
    (h : Component l M m o) : Component (List.zipWith G (freqs M) l) M m (G m o) := by
  obtain ⟨hm, ho⟩ := h
  refine ⟨hm, ?_⟩
  rw [List.getElem?_zipWith, getElem?_freqs (by omega), ho]
  have : (((m + M).toNat : ℕ) : ℤ) - M = m := by omega
  show some (G _ o) = _
  rw [this]

theorem component_map {α β : Type} {l : List α} {M : ℕ} {m : ℤ} {o : α} (g : α → β)
    (h : Component l M m o) : Component (l.map g) M m (g o) := by
  obtain ⟨hm, ho⟩ := h
  refine ⟨hm, ?_⟩
  rw [List.getElem?_map, ho]
  rfl

theorem Spec.Component.mem {α : Type} {l : List α} {M : ℕ} {m : ℤ} {o : α} (h : Component l M m o) : o ∈ l :=
  List.mem_of_getElem? h.2

theorem exists_component_of_mem {α : Type} {l : List α} {M : ℕ} (hl : l.length = 2 * M + 1) {o : α} (h : o ∈ l) :
    ∃ m, Component l M m o := by
  obtain ⟨i, hi, rfl⟩ := List.getElem_of_mem h
  refine ⟨(i : ℤ) - M, by constructor <;> omega, ?_⟩
  have : ((i : ℤ) - M + M).toNat = i := by omega
  rw [this, List.getElem?_eq_getElem hi]

/-! ## `fFormContainer` -/

theorem zipWith_freqs_const {α β : Type} {M : ℕ} {l : List α} (hl : l.length = 2 * M + 1) (g : α → β) :
    List.zipWith (fun _ o => g o) (freqs M) l = l.map g := by
  refine List.ext_getElem? (fun i => ?_)
  by_cases hi : i < 2 * M + 1
  · rw [List.getElem?_zipWith, getElem?_freqs hi, List.getElem?_map]
    cases l[i]? <;> rfl
  · rw [List.getElem?_eq_none (by simp [length_freqs]; omega), List.getElem?_eq_none (by simp; omega)]

namespace FArr

@[simp] theorem objs_obj (v : List Expr) : (FArr.obj v).objs = v.map .sy := rfl

theorem length_objs_obj (v : List Expr) : (FArr.obj v).objs.length = v.length := by simp

end FArr

namespace FFormContainer
open DataContainer (Meth liftE)

/-- What every container built by the constructor satisfies. -/
structure Good (c : FFormContainer) : Prop where
  wf : Dict.WF c.fform
  len : ∀ it ∈ c.fform, it.2.objs.length = 2 * c.M + 1

theorem checkFFIterable_ok {M : ℕ} {d : Dict RawKey RawFF} {d' : Dict Key (List PyObj)}
    (h : checkFFIterable M d = .ok d') :
    List.Forall₂ (fun p q => p.1 = RawKey.str q.1 ∧ checkFFVal M p.2 = some q.2) d d' := by
  induction d generalizing d' with
  | nil => simp only [checkFFIterable, Except.ok.injEq] at h; subst h; exact .nil
  | cons p d ih =>
    obtain ⟨k, v⟩ := p
    simp only [checkFFIterable] at h
    split at h
    · rename_i s a r' hv hr
      cases h
      exact .cons ⟨rfl, hv⟩ (ih hr)
    · cases h

theorem checkFFIterable_of_forall₂ {M : ℕ} {d : Dict RawKey RawFF} {d' : Dict Key (List PyObj)}
    (h : List.Forall₂ (fun p q => p.1 = RawKey.str q.1 ∧ checkFFVal M p.2 = some q.2) d d') :
    checkFFIterable M d = .ok d' := by
  induction h with
  | nil => rfl
  | @cons p q d d' h1 h2 ih =>
    obtain ⟨k, v⟩ := p
    obtain ⟨s, a⟩ := q
    obtain ⟨rfl, hv⟩ := h1
    simp only [checkFFIterable, hv, ih]

theorem checkFFIterable_error {M : ℕ} {d : Dict RawKey RawFF} {e : Err} (h : checkFFIterable M d = .error e) :
    e = .valueError := by
  cases d with
  | nil => cases h
  | cons p d =>
    obtain ⟨k, v⟩ := p
    unfold checkFFIterable at h
    split at h
    · cases h
    · cases h; rfl

theorem checkFFVal_length {M : ℕ} {r : RawFF} {v : List PyObj} (h : checkFFVal M r = some v) :
    r = .objArr v ∧ v.length = 2 * M + 1 := by
  cases r with
  | other => cases h
  | objArr w =>
    simp only [checkFFVal] at h
    by_cases hw : w.length = 2 * M + 1
    · rw [if_pos hw] at h
      cases h; exact ⟨rfl, hw⟩
    · rw [if_neg hw] at h; cases h

theorem length_fformArray (S : Sympy) (v : List PyObj) : (fformArray S v).objs.length = v.length := by
  unfold fformArray
  split <;> simp [FArr.objs]

theorem forall₂_keys {M : ℕ} {d : Dict RawKey RawFF} {d' : Dict Key (List PyObj)}
    (h : List.Forall₂ (fun p q => p.1 = RawKey.str q.1 ∧ checkFFVal M p.2 = some q.2) d d') :
    d.map Prod.fst = (Dict.keys d').map RawKey.str := by
  induction h with
  | nil => rfl
  | cons h1 _ ih => simp [h1.1, ih]

theorem init_ok_iff {S : Sympy} {iter : List (RawKey × RawFF)} {M : ℕ} {c : FFormContainer} :
    init S iter M = .ok c ↔ ∃ d, checkFFIterable M (Dict.ofPairs iter) = .ok d ∧
      c = ⟨d.mapVals (fformArray S), M⟩ := by
  unfold init
  cases hc : checkFFIterable M (Dict.ofPairs iter) with
  | error e => 
    constructor
    · intro h; cases h
    · rintro ⟨d, h, _⟩; cases h
  | ok d =>
    constructor
    · intro h; exact ⟨d, rfl, (Except.ok.inj h).symm⟩
    · rintro ⟨d', h, rfl⟩; cases h; rfl

theorem init_good {S : Sympy} {iter : List (RawKey × RawFF)} {M : ℕ} {c : FFormContainer}
    (h : init S iter M = .ok c) : c.Good ∧ c.M = M := by
  obtain ⟨d, hd, rfl⟩ := init_ok_iff.1 h
  have hf := checkFFIterable_ok hd
  refine ⟨⟨?_, ?_⟩, rfl⟩
  · have hw : Dict.WF (Dict.ofPairs iter) := Dict.WF_ofPairs iter
    unfold Dict.WF at *
    have : (Dict.keys d).Nodup := by
      have h2 : ((Dict.keys d).map RawKey.str).Nodup := by rw [← forall₂_keys hf]; exact hw
      exact List.Nodup.of_map _ h2
    simpa using this
  · intro it hit
    obtain ⟨k, a⟩ := it
    obtain ⟨v, hv, rfl⟩ := Dict.mem_mapVals.1 hit
    obtain ⟨p, _, hp⟩ := forall₂_mem_right hf hv
    rw [length_fformArray]
    exact (checkFFVal_length hp.2).2

theorem Good.get {c : FFormContainer} (hc : c.Good) {it : Key × FArr} (h : it ∈ c.fform) :
    Dict.get c.fform it.1 = .ok it.2 := by
  rw [Dict.get_ok_iff, Dict.get?_eq_some_iff hc.wf]; exact h

theorem Good.getPc_iff {c : FFormContainer} (hc : c.Good) {k : Key} {a : FArr} :
    c.getPc k = .ok a ↔ (k, a) ∈ c.fform := by
  unfold getPc
  rw [Dict.get_ok_iff, Dict.get?_eq_some_iff hc.wf]

/-- `subs` on a single array. -/
def subsF (S : Sympy) (pairs : List (Sym × Expr)) : FArr → FArr
  | .obj v => .obj (v.map (S.subs pairs))
  | .native v => .native v

theorem subsArr_obj (S : Sympy) {M : ℕ} (pairs : List (Sym × Expr)) {v : List Expr} (hv : v.length = 2 * M + 1) :
    subsArr S M pairs (.obj v) = .ok (v.map (S.subs pairs)) := by
  unfold subsArr
  rw [fillFreqs_get (l := (FArr.obj v).objs) (by simpa using hv) (F := fun _ o => o.subs S pairs)
    (G := fun _ o => match o with | .sy e => S.subs pairs e | .native _ _ => .num 0)]
  · rw [zipWith_freqs_const (by simpa using hv)]
    simp
  · intro m o ho
    simp only [FArr.objs_obj, List.mem_map] at ho
    obtain ⟨e, _, rfl⟩ := ho
    rfl

theorem subsArr_native (S : Sympy) {M : ℕ} (pairs : List (Sym × Expr)) {v : List (ℚ × ℚ)}
    (hv : v.length = 2 * M + 1) : subsArr S M pairs (.native v) = .error .attributeError := by
  unfold subsArr fillFreqs
  have hne := freqs_ne_nil M
  apply foldlM_error
  · intro m hm
    right
    intro d
    obtain ⟨o, ho, ho'⟩ := pyGet_n2i_ok (l := (FArr.native v).objs) (by simpa [FArr.objs] using hv) hm
    simp only [ho]
    have := List.mem_of_getElem? ho'
    simp only [FArr.objs, List.mem_map] at this
    obtain ⟨z, _, rfl⟩ := this
    rfl
  · obtain ⟨m, hm⟩ := List.exists_mem_of_ne_nil _ hne
    refine ⟨m, hm, fun d => ?_⟩
    obtain ⟨o, ho, ho'⟩ := pyGet_n2i_ok (l := (FArr.native v).objs) (by simpa [FArr.objs] using hv) hm
    simp only [ho]
    have := List.mem_of_getElem? ho'
    simp only [FArr.objs, List.mem_map] at this
    obtain ⟨z, _, rfl⟩ := this
    rfl

theorem step_subs_ok (S : Sympy) {c : FFormContainer} (hc : c.Good) (pairs : List (Sym × Expr))
    (h : ∀ it ∈ c.fform, it.2.isNative = false) :
    step S c (.subs pairs) = ({ c with fform := c.fform.mapVals (subsF S pairs) }, none) := by
  have hl : c.getItems.foldlM (fun (d : Dict Key FArr) kv => do
      let a ← Dict.get c.fform kv.1
      let v ← subsArr S c.M pairs a
      return Dict.set d kv.1 (.obj v)) [] = .ok (c.fform.mapVals (subsF S pairs)) := by
    have := foldlM_set_kv (fun kv : Key × FArr => do
        let a ← Dict.get c.fform kv.1
        let v ← subsArr S c.M pairs a
        return FArr.obj v) (fun kv => subsF S pairs kv.2) c.fform [] (by simpa [Dict.WF] using hc.wf) (by
      intro it hit
      obtain ⟨k, a⟩ := it
      rw [hc.get hit]
      have h1 := h _ hit
      have h2 := hc.len _ hit
      cases a with
      | native v => cases h1
      | obj v =>
        show (do let v ← subsArr S c.M pairs (.obj v); pure (FArr.obj v)) = _
        rw [subsArr_obj S pairs (by simpa using h2)]
        rfl)
    rw [List.nil_append] at this
    refine Eq.trans ?_ this
    show List.foldlM _ [] c.fform = _
    congr 1
    funext d kv
    cases Dict.get c.fform kv.1 with
    | error e => rfl
    | ok a => 
      show (do let v ← subsArr S c.M pairs a; pure (Dict.set d kv.1 (FArr.obj v))) =
        (do let a ← (do let v ← subsArr S c.M pairs a; pure (FArr.obj v)); pure (Dict.set d kv.1 a))
      cases subsArr S c.M pairs a <;> rfl
  unfold step
  simp only [Op.body, subsM, bind, ExceptT.bind, ExceptT.mk, ExceptT.bindCont, get, getThe, MonadStateOf.get, liftM,
    monadLift, MonadLift.monadLift, ExceptT.lift, StateT.get, StateT.bind, DataContainer.liftE, pure, StateT.pure,
    Functor.map, StateT.map, Except.bind, Except.pure] at hl ⊢
  rw [hl]
  rfl

theorem step_subs_error (S : Sympy) {c : FFormContainer} (hc : c.Good) (pairs : List (Sym × Expr))
    (h : ∃ it ∈ c.fform, it.2.isNative = true) :
    step S c (.subs pairs) = (c, some .attributeError) := by
  have hl : c.getItems.foldlM (fun (d : Dict Key FArr) kv => do
      let a ← Dict.get c.fform kv.1
      let v ← subsArr S c.M pairs a
      return Dict.set d kv.1 (.obj v)) [] = .error .attributeError := by
    apply foldlM_error
    · intro it hit
      have h2 := hc.len _ hit
      rw [hc.get hit]
      obtain ⟨k, a⟩ := it
      cases a with
      | obj v =>
        left; intro d
        refine ⟨Dict.set d k (.obj (v.map (S.subs pairs))), ?_⟩
        show (do let v ← subsArr S c.M pairs (.obj v); pure (Dict.set d k (FArr.obj v))) = _
        rw [subsArr_obj S pairs (by simpa using h2)]
        rfl
      | native v =>
        right; intro d
        show (do let v ← subsArr S c.M pairs (.native v); pure (Dict.set d k (FArr.obj v))) = _
        rw [subsArr_native S pairs (by simpa [FArr.objs] using h2)]
        rfl
    · obtain ⟨it, hit, hn⟩ := h
      have h2 := hc.len _ hit
      refine ⟨it, hit, fun d => ?_⟩
      rw [hc.get hit]
      obtain ⟨k, a⟩ := it
      cases a with
      | obj v => cases hn
      | native v =>
        show (do let v ← subsArr S c.M pairs (.native v); pure (Dict.set d k (FArr.obj v))) = _
        rw [subsArr_native S pairs (by simpa [FArr.objs] using h2)]
        rfl
  unfold step
  simp only [Op.body, subsM, bind, ExceptT.bind, ExceptT.mk, ExceptT.bindCont, get, getThe, MonadStateOf.get, liftM,
    monadLift, MonadLift.monadLift, ExceptT.lift, StateT.get, StateT.bind, DataContainer.liftE, pure, StateT.pure,
    Functor.map, StateT.map, Except.bind, Except.pure] at hl ⊢
  rw [hl]
  rfl

/-- `apply_phase_shift` on a single array. -/
def shiftF (S : Sympy) (M : ℕ) (a : Expr) (v : FArr) : FArr :=
  .obj (List.zipWith (fun m o => S.mul (PyObj.sympify S o) (phaseFactor S a m)) (freqs M) v.objs)

theorem step_shift (S : Sympy) {c : FFormContainer} (hc : c.Good) (a : Expr) :
    step S c (.phaseShift a) = ({ c with fform := c.fform.mapVals (shiftF S c.M a) }, none) := by
  have hz : (Dict.ofPairs (c.getKeys.map (fun k => (k, FArr.obj (List.replicate (2 * c.M + 1) (.num 0))))))
      = c.getKeys.map (fun k => (k, FArr.obj (List.replicate (2 * c.M + 1) (.num 0)))) := by
    apply Dict.ofPairs_of_nodup
    rw [List.map_map]
    simpa [Dict.WF, getKeys, Function.comp_def] using hc.wf
  obtain ⟨dflt⟩ : Nonempty FArr := ⟨.obj []⟩
  have hl : c.getKeys.foldlM (fun (d : Dict Key FArr) k => do
      let v ← Dict.get c.fform k
      let v' ← shiftFArr S c.M a v
      return Dict.set d k (.obj v'))
        (c.getKeys.map (fun k => (k, FArr.obj (List.replicate (2 * c.M + 1) (.num 0)))))
      = .ok (c.fform.mapVals (shiftF S c.M a)) := by
    have := foldlM_set_keys (fun k : Key => do
        let v ← Dict.get c.fform k
        let v' ← shiftFArr S c.M a v
        return FArr.obj v') (fun k => shiftF S c.M a ((Dict.get? c.fform k).getD dflt))
      (FArr.obj (List.replicate (2 * c.M + 1) (.num 0))) c.getKeys [] (by simpa [Dict.WF, getKeys] using hc.wf) (by
      intro k hk
      obtain ⟨v, hv⟩ := Dict.mem_keys.1 hk
      have hg := hc.get hv
      rw [hg, Dict.get_ok_iff.1 hg]
      have h2 := hc.len _ hv
      show (do let v' ← shiftFArr S c.M a v; pure (FArr.obj v')) = _
      unfold shiftFArr
      rw [fillFreqs_get h2 (F := fun m o => pure (S.mul (PyObj.sympify S o) (phaseFactor S a m)))
        (G := fun m o => S.mul (PyObj.sympify S o) (phaseFactor S a m)) (fun _ _ _ => rfl)]
      rfl)
    rw [List.nil_append, List.nil_append] at this
    have hfin : c.getKeys.map (fun k => (k, shiftF S c.M a ((Dict.get? c.fform k).getD dflt)))
        = c.fform.mapVals (shiftF S c.M a) := by
      unfold getKeys Dict.keys Dict.mapVals
      rw [List.map_map]
      refine List.map_congr_left (fun it hit => ?_)
      simp only [Function.comp_apply]
      rw [Dict.get_ok_iff.1 (hc.get hit)]
      rfl
    rw [← hfin, ← this]
    congr 1
    funext d k
    cases Dict.get c.fform k with
    | error e => rfl
    | ok v =>
      show (do let v' ← shiftFArr S c.M a v; pure (Dict.set d k (FArr.obj v'))) =
        (do let x ← (do let v' ← shiftFArr S c.M a v; pure (FArr.obj v')); pure (Dict.set d k x))
      cases shiftFArr S c.M a v <;> rfl
  rw [← hz] at hl
  unfold step
  simp only [Op.body, applyPhaseShiftM, bind, ExceptT.bind, ExceptT.mk, ExceptT.bindCont, get, getThe,
    MonadStateOf.get, liftM,
    monadLift, MonadLift.monadLift, ExceptT.lift, StateT.get, StateT.bind, DataContainer.liftE, pure, StateT.pure,
    Functor.map, StateT.map, Except.bind, Except.pure] at hl ⊢
  rw [hl]
  rfl

/-- `apply_arbitrary_scale` on a single array. -/
def scaleF (S : Sympy) (s : Expr) (v : FArr) : FArr := .obj (v.objs.map (fun o => S.mul s (o.sympify S)))

theorem step_scale (S : Sympy) (c : FFormContainer) (s : Expr) :
    step S c (.scale s) = ({ c with fform := c.fform.mapVals (scaleF S s) }, none) := rfl

theorem Good.mapVals {c : FFormContainer} (hc : c.Good) {f : FArr → FArr}
    (hf : ∀ it ∈ c.fform, (f it.2).objs.length = it.2.objs.length) :
    Good { c with fform := c.fform.mapVals f } := by
  refine ⟨by have := hc.wf; simpa [Dict.WF] using this, ?_⟩
  intro it hit
  obtain ⟨k, b⟩ := it
  obtain ⟨a, ha, rfl⟩ := Dict.mem_mapVals.1 hit
  rw [hf _ ha]
  exact hc.len _ ha

theorem eval_phaseFactor (S : Sympy) (a : Expr) (m : ℤ) (σ : Sym → ℂ) :
    (phaseFactor S a m).eval σ = Complex.exp (Complex.I * (m * a.eval σ)) := by
  unfold phaseFactor
  simp only [S.eval_add, S.eval_cos, S.eval_mul, S.eval_sin]
  simp only [Expr.eval]
  have : (((m : ℚ) : ℂ)) = (m : ℂ) := by norm_num
  rw [this, mul_comm Complex.I (↑m * _), Complex.exp_mul_I]
  ring

theorem rep_mapVals {c : FFormContainer} {k : Key} {m : ℤ} {f g : Valuation → ℂ} {F : FArr → FArr}
    (hF : ∀ a o, (k, a) ∈ c.fform → Component a.objs c.M m o → ∃ o', Component (F a).objs c.M m o' ∧
      ((∀ σ, objValue σ o = f σ) → ∀ σ, objValue σ o' = g σ))
    (h : FRepresents c k m f) : FRepresents { c with fform := c.fform.mapVals F } k m g := by
  obtain ⟨a, o, ha, ho, hv⟩ := h
  have hmem := Dict.mem_of_get? (Dict.get_ok_iff.1 ha)
  obtain ⟨o', h1, h2⟩ := hF a o hmem ho
  refine ⟨F a, o', ?_, h1, h2 hv⟩
  unfold getPc
  rw [Dict.get_ok_iff, Dict.get?_mapVals, Dict.get_ok_iff.1 ha]
  rfl

theorem step_subs_rep (S : Sympy) {c : FFormContainer} (pairs : List (Sym × Expr))
    (hn : ∀ it ∈ c.fform, it.2.isNative = false) {k : Key} {m : ℤ} {f : Valuation → ℂ} (h : FRepresents c k m f) :
    FRepresents { c with fform := c.fform.mapVals (subsF S pairs) } k m (fformEffect (.subs pairs) m f) := by
  refine rep_mapVals ?_ h
  intro a o ha ho
  have hna := hn _ ha
  cases a with
  | native v => cases hna
  | obj v =>
    obtain ⟨e, he, rfl⟩ := List.mem_map.1 ho.mem
    have ho' : Component v c.M m e := by
      obtain ⟨h1, h2⟩ := ho
      refine ⟨h1, ?_⟩
      simp only [FArr.objs_obj, List.getElem?_map] at h2
      cases hv : v[(m + c.M).toNat]? with
      | none => rw [hv] at h2; cases h2
      | some x => rw [hv] at h2; simp only [Option.map_some, Option.some.injEq, PyObj.sy.injEq] at h2; rw [h2]
    refine ⟨.sy (S.subs pairs e), ?_, ?_⟩
    · show Component ((v.map (S.subs pairs)).map PyObj.sy) c.M m _
      exact component_map _ (component_map _ ho')
    · intro hf σ
      simp only [objValue] at hf ⊢
      rw [S.eval_subs, hf]
      rfl

theorem step_shift_rep (S : Sympy) {c : FFormContainer} (a : Expr) {k : Key} {m : ℤ} {f : Valuation → ℂ}
    (h : FRepresents c k m f) :
    FRepresents { c with fform := c.fform.mapVals (shiftF S c.M a) } k m (fformEffect (.phaseShift a) m f) := by
  refine rep_mapVals ?_ h
  intro v o hv ho
  refine ⟨.sy (S.mul (o.sympify S) (phaseFactor S a m)), ?_, ?_⟩
  · exact component_map _ (component_zipWith _ ho)
  · intro hf σ
    simp only [objValue, fformEffect]
    rw [S.eval_mul, PyObj.eval_sympify, eval_phaseFactor, hf]

theorem step_scale_rep (S : Sympy) {c : FFormContainer} (s : Expr) {k : Key} {m : ℤ} {f : Valuation → ℂ}
    (h : FRepresents c k m f) :
    FRepresents { c with fform := c.fform.mapVals (scaleF S s) } k m (fformEffect (.scale s) m f) := by
  refine rep_mapVals ?_ h
  intro v o hv ho
  refine ⟨.sy (S.mul s (o.sympify S)), ?_, ?_⟩
  · exact component_map _ (component_map _ ho)
  · intro hf σ
    simp only [objValue, fformEffect]
    rw [S.eval_mul, PyObj.eval_sympify, hf]

end FFormContainer
end Shgpy

namespace Shgpy
open Spec

namespace FFormContainer

theorem arrFree_obj {M : ℕ} {v : List Expr} (hv : v.length = 2 * M + 1) :
    ∃ l, arrFree M (.obj v) = .ok l ∧ ∀ s, s ∈ l ↔ ∃ e ∈ v, s ∈ e.free := by
  have hlen : ((FArr.obj v).objs).length = 2 * M + 1 := by simpa using hv
  have h : ∀ m ∈ freqs M, (do
      let o ← pyGet (FArr.obj v).objs (n2i m M)
      o.freeSymbols) = .ok ((v.getD (m + M).toNat (.num 0)).free) := by
    intro m hm
    obtain ⟨o, h1, h2⟩ := pyGet_n2i_ok hlen hm
    rw [h1]
    simp only [FArr.objs_obj, List.getElem?_map] at h2
    cases he : v[(m + M).toNat]? with
    | none => rw [he] at h2; cases h2
    | some e =>
      rw [he] at h2
      cases h2
      rw [List.getD_eq_getElem?_getD, he]
      rfl
  unfold arrFree
  rw [mapM_ok h]
  refine ⟨_, rfl, fun s => ?_⟩
  simp only [List.mem_flatten, List.mem_map]
  constructor
  · rintro ⟨l, ⟨m, hm, rfl⟩, hs⟩
    rw [mem_freqs] at hm
    have hlt : (m + M).toNat < v.length := by omega
    rw [List.getD_eq_getElem?_getD, List.getElem?_eq_getElem hlt] at hs
    exact ⟨_, List.getElem_mem hlt, hs⟩
  · rintro ⟨e, he, hs⟩
    obtain ⟨m, hm, hc⟩ := exists_component_of_mem hv he
    refine ⟨_, ⟨m, mem_freqs.2 hm, rfl⟩, ?_⟩
    rw [List.getD_eq_getElem?_getD, hc]
    exact hs

theorem arrFree_native {M : ℕ} {v : List (ℚ × ℚ)} (hv : v.length = 2 * M + 1) :
    arrFree M (.native v) = .error .attributeError := by
  have hlen : ((FArr.native v).objs).length = 2 * M + 1 := by simpa [FArr.objs] using hv
  have h : ∀ m ∈ freqs M, (do
      let o ← pyGet (FArr.native v).objs (n2i m M)
      o.freeSymbols) = .error .attributeError := by
    intro m hm
    obtain ⟨o, h1, h2⟩ := pyGet_n2i_ok hlen hm
    rw [h1]
    have := List.mem_of_getElem? h2
    simp only [FArr.objs, List.mem_map] at this
    obtain ⟨z, _, rfl⟩ := this
    rfl
  unfold arrFree
  rw [mapM_error (e := .attributeError) (fun m hm => Or.inr (h m hm))]
  · rfl
  · obtain ⟨m, hm⟩ := List.exists_mem_of_ne_nil _ (freqs_ne_nil M)
    exact ⟨m, hm, h m hm⟩

theorem getFreeSymbols_ok (S : Sympy) {c : FFormContainer} (hc : c.Good)
    (hn : ∀ it ∈ c.fform, it.2.isNative = false) :
    ∃ l, c.getFreeSymbols S = .ok (S.sortSyms l) ∧
      ∀ s, s ∈ l ↔ ∃ k v e, (k, FArr.obj v) ∈ c.fform ∧ e ∈ v ∧ s ∈ e.free := by
  have h1 : ∀ k ∈ c.getKeys, ∃ l, (do
      let a ← Dict.get c.fform k
      arrFree c.M a) = Except.ok l ∧ ∀ s, s ∈ l ↔ ∃ v e, (k, FArr.obj v) ∈ c.fform ∧ e ∈ v ∧ s ∈ e.free := by
    intro k hk
    obtain ⟨a, ha⟩ := Dict.mem_keys.1 hk
    have h2 := hn _ ha
    have h3 := hc.len _ ha
    cases a with
    | native v => cases h2
    | obj v =>
      obtain ⟨l, hl, hs⟩ := arrFree_obj (M := c.M) (v := v) (by simpa using h3)
      refine ⟨l, ?_, fun s => ?_⟩
      · rw [hc.get ha]; exact hl
      · rw [hs]
        constructor
        · rintro ⟨e, he, hse⟩; exact ⟨v, e, ha, he, hse⟩
        · rintro ⟨v', e, hv', he, hse⟩
          have e1 := hc.get ha
          have e2 := hc.get hv'
          simp only at e1 e2
          rw [e1] at e2
          cases e2
          exact ⟨e, he, hse⟩
  choose! g hg hg' using h1
  unfold getFreeSymbols
  rw [mapM_ok hg]
  refine ⟨_, rfl, fun s => ?_⟩
  simp only [List.mem_flatten, List.mem_map]
  constructor
  · rintro ⟨l, ⟨k, hk, rfl⟩, hs⟩
    obtain ⟨v, e, h⟩ := (hg' k hk s).1 hs
    exact ⟨k, v, e, h⟩
  · rintro ⟨k, v, e, hkv, he, hs⟩
    have hk : k ∈ c.getKeys := Dict.mem_keys_of_mem hkv
    exact ⟨_, ⟨k, hk, rfl⟩, (hg' k hk s).2 ⟨v, e, hkv, he, hs⟩⟩

theorem getFreeSymbols_error (S : Sympy) {c : FFormContainer} (hc : c.Good)
    (hn : ∃ it ∈ c.fform, it.2.isNative = true) : c.getFreeSymbols S = .error .attributeError := by
  unfold getFreeSymbols
  rw [mapM_error (e := .attributeError)]
  · rfl
  · intro k hk
    obtain ⟨a, ha⟩ := Dict.mem_keys.1 hk
    have h3 := hc.len _ ha
    rw [hc.get ha]
    cases a with
    | native v => exact Or.inr (arrFree_native (by simpa [FArr.objs] using h3))
    | obj v =>
      obtain ⟨l, hl, _⟩ := arrFree_obj (M := c.M) (v := v) (by simpa using h3)
      exact Or.inl ⟨l, hl⟩
  · obtain ⟨it, hit, hna⟩ := hn
    obtain ⟨k, a⟩ := it
    have h3 := hc.len _ hit
    refine ⟨k, Dict.mem_keys_of_mem hit, ?_⟩
    rw [hc.get hit]
    cases a with
    | obj v => cases hna
    | native v => exact arrFree_native (by simpa [FArr.objs] using h3)

theorem symbolic_iff {c : FFormContainer} (hc : c.Good) :
    Symbolic c ↔ ∀ it ∈ c.fform, it.2.isNative = false := by
  constructor
  · intro h it hit; exact h it.1 it.2 (hc.getPc_iff.2 hit)
  · intro h k a ha; exact h (k, a) (hc.getPc_iff.1 ha)

theorem not_symbolic_iff {c : FFormContainer} (hc : c.Good) :
    ¬ Symbolic c ↔ ∃ it ∈ c.fform, it.2.isNative = true := by
  rw [symbolic_iff hc]
  simp

theorem copy_ok (S : Sympy) {c : FFormContainer} (hc : c.Good) (hn : ∀ it ∈ c.fform, it.2.isNative = false) :
    c.copy S = .ok c := by
  unfold copy
  rw [init_ok_iff]
  refine ⟨c.fform.mapVals FArr.objs, ?_, ?_⟩
  · have : Dict.ofPairs c.toIterable = c.toIterable := by
      apply Dict.ofPairs_of_nodup
      unfold toIterable
      rw [List.map_map]
      have h1 : (c.fform.map (Prod.fst ∘ fun kv => (RawKey.str kv.1, kv.2.toRaw)))
          = (Dict.keys c.fform).map RawKey.str := by simp [Dict.keys, Function.comp_def]
      rw [h1]
      exact List.Nodup.map (fun a b h => by cases h; rfl) hc.wf
    rw [this]
    apply checkFFIterable_of_forall₂
    unfold toIterable Dict.mapVals
    rw [List.forall₂_map_left_iff, List.forall₂_map_right_iff, List.forall₂_same]
    intro it hit
    refine ⟨rfl, ?_⟩
    obtain ⟨k, a⟩ := it
    have h1 := hn _ hit
    have h2 := hc.len _ hit
    cases a with
    | native v => cases h1
    | obj v =>
      simp only [FArr.toRaw, FArr.objs, checkFFVal]
      rw [if_pos (by simpa using h2)]
  · cases c with
    | mk d M =>
      congr 1
      rw [Dict.mapVals_mapVals]
      symm
      calc _ = Dict.mapVals (fun v => v) d := Dict.mapVals_congr (fun it hit => ?_)
        _ = d := Dict.mapVals_id d
      obtain ⟨k, a⟩ := it
      have h1 := hn _ hit
      have h2 := hc.len _ hit
      cases a with
      | native v => cases h1
      | obj v =>
        show (if (v.map PyObj.sy).all PyObj.isNative then _ else _) = _
        rw [if_neg]
        · simp [PyObj.sympify, Function.comp_def]
        · simp only [FArr.objs_obj, List.length_map] at h2
          cases v with
          | nil => simp at h2
          | cons e v => simp [PyObj.isNative]

theorem copy_error (S : Sympy) {c : FFormContainer} (hc : c.Good) (hn : ∃ it ∈ c.fform, it.2.isNative = true) :
    c.copy S = .error .valueError := by
  unfold copy
  cases h : init S c.toIterable c.M with
  | error e =>
    unfold init at h
    cases hch : checkFFIterable c.M (Dict.ofPairs c.toIterable) with
    | error e' =>
      rw [hch] at h
      have := checkFFIterable_error hch
      subst this
      cases h
      rfl
    | ok d => rw [hch] at h; cases h
  | ok c' =>
    exfalso
    obtain ⟨d, hd, _⟩ := init_ok_iff.1 h
    have hf := checkFFIterable_ok hd
    have : Dict.ofPairs c.toIterable = c.toIterable := by
      apply Dict.ofPairs_of_nodup
      unfold toIterable
      rw [List.map_map]
      have h1 : (c.fform.map (Prod.fst ∘ fun kv => (RawKey.str kv.1, kv.2.toRaw)))
          = (Dict.keys c.fform).map RawKey.str := by simp [Dict.keys, Function.comp_def]
      rw [h1]
      exact List.Nodup.map (fun a b h => by cases h; rfl) hc.wf
    rw [this] at hf
    obtain ⟨it, hit, hna⟩ := hn
    obtain ⟨q, _, _, hq⟩ := forall₂_mem_left hf (List.mem_map.2 ⟨it, hit, rfl⟩ : _ ∈ c.toIterable)
    obtain ⟨k, a⟩ := it
    cases a with
    | obj v => cases hna
    | native v => cases hq

end FFormContainer

/-! ## `FormContainer` -/

namespace FormContainer
open DataContainer (Meth liftE)

theorem checkFormIterable_ok {d : Dict RawKey PyObj} {d' : Dict Key PyObj} (h : checkFormIterable d = .ok d') :
    d = d'.map (fun kv => (.str kv.1, kv.2)) := by
  induction d generalizing d' with
  | nil => cases h; rfl
  | cons p d ih =>
    obtain ⟨k, v⟩ := p
    simp only [checkFormIterable] at h
    split at h
    · rename_i s r' hr
      cases h
      simp [ih hr]
    · cases h

theorem checkFormIterable_of (d : Dict Key PyObj) :
    checkFormIterable (d.map (fun kv => (.str kv.1, kv.2))) = .ok d := by
  induction d with
  | nil => rfl
  | cons p d ih => simp only [List.map_cons, checkFormIterable, ih]

theorem checkFormIterable_error {d : Dict RawKey PyObj} {e : Err} (h : checkFormIterable d = .error e) :
    e = .valueError := by
  cases d with
  | nil => cases h
  | cons p d =>
    obtain ⟨k, v⟩ := p
    simp only [checkFormIterable] at h
    split at h
    · cases h
    · cases h; rfl

theorem str_map_nodup {α β : Type} {d : Dict Key α} (hd : Dict.WF d) (f : α → β) :
    ((d.map (fun kv => (RawKey.str kv.1, f kv.2))).map Prod.fst).Nodup := by
  rw [List.map_map]
  have h1 : (d.map (Prod.fst ∘ fun kv => (RawKey.str kv.1, f kv.2))) = (Dict.keys d).map RawKey.str := by
    simp [Dict.keys, Function.comp_def]
  rw [h1]
  exact List.Nodup.map (fun a b h => by cases h; rfl) hd

theorem init_ok_iff {S : Sympy} {iter : List (RawKey × PyObj)} {c : FormContainer} :
    init S iter = .ok c ↔ ∃ d : Dict Key PyObj, Dict.ofPairs iter = d.map (fun kv => (.str kv.1, kv.2)) ∧
      c = ⟨d.mapVals (PyObj.sympify S)⟩ := by
  unfold init
  cases hc : checkFormIterable (Dict.ofPairs iter) with
  | error e =>
    constructor
    · intro h; cases h
    · rintro ⟨d, h, _⟩
      rw [h, checkFormIterable_of] at hc
      cases hc
  | ok d =>
    constructor
    · intro h; exact ⟨d, checkFormIterable_ok hc, (Except.ok.inj h).symm⟩
    · rintro ⟨d', h, rfl⟩
      rw [h, checkFormIterable_of] at hc
      cases hc; rfl

theorem init_wf {S : Sympy} {iter : List (RawKey × PyObj)} {c : FormContainer} (h : init S iter = .ok c) :
    Dict.WF c.form := by
  obtain ⟨d, hd, rfl⟩ := init_ok_iff.1 h
  have hw : Dict.WF (Dict.ofPairs iter) := Dict.WF_ofPairs iter
  rw [hd] at hw
  unfold Dict.WF Dict.keys at hw ⊢
  rw [List.map_map] at hw
  simp only [Dict.mapVals, List.map_map]
  have : d.map (Prod.fst ∘ fun kv => (RawKey.str kv.1, kv.2)) = (d.map Prod.fst).map RawKey.str := by
    simp [Function.comp_def]
  rw [this] at hw
  have := List.Nodup.of_map _ hw
  simpa [Function.comp_def] using this

theorem init_of_wf (S : Sympy) {d : Dict Key PyObj} (hd : Dict.WF d) :
    init S (d.map (fun kv => (.str kv.1, kv.2))) = .ok ⟨d.mapVals (PyObj.sympify S)⟩ := by
  rw [init_ok_iff]
  exact ⟨d, Dict.ofPairs_of_nodup (str_map_nodup hd (fun x => x)), rfl⟩

theorem copy_ok (S : Sympy) {c : FormContainer} (hc : Dict.WF c.form) : c.copy S = .ok c := by
  unfold copy
  have h : c.form.map (fun kv => (RawKey.str kv.1, PyObj.sy kv.2))
      = (c.form.mapVals PyObj.sy).map (fun kv => (.str kv.1, kv.2)) := by
    simp [Dict.mapVals]
  rw [h, init_of_wf S (by simpa [Dict.WF] using hc), Dict.mapVals_mapVals]
  cases c with
  | mk d =>
    congr 2
    exact Dict.mapVals_id d

theorem step_subs (S : Sympy) {c : FormContainer} (hc : Dict.WF c.form) (pairs : List (Sym × Expr)) :
    (subsM S pairs : Meth FormContainer Unit) c = (.ok (), { c with form := c.form.mapVals (S.subs pairs) }) := by
  have hl : c.getItems.foldlM (fun (d : Dict Key Expr) kv => do
      let e ← Dict.get c.form kv.1
      return Dict.set d kv.1 (S.subs pairs e)) [] = Except.ok (c.form.mapVals (S.subs pairs)) := by
    have := foldlM_set_kv (fun kv : Key × Expr => do
        let e ← Dict.get c.form kv.1
        return S.subs pairs e) (fun kv => S.subs pairs kv.2) c.form [] (by simpa [Dict.WF] using hc) (by
      intro it hit
      rw [Dict.get_ok_iff.2 ((Dict.get?_eq_some_iff hc).2 hit)]
      rfl)
    rw [List.nil_append] at this
    refine Eq.trans ?_ this
    show List.foldlM _ [] c.form = _
    congr 1
    funext d kv
    cases Dict.get c.form kv.1 <;> rfl
  simp only [subsM, bind, ExceptT.bind, ExceptT.mk, ExceptT.bindCont, get, getThe, MonadStateOf.get, liftM,
    monadLift, MonadLift.monadLift, ExceptT.lift, StateT.get, StateT.bind, DataContainer.liftE, pure, StateT.pure,
    Functor.map, StateT.map, Except.bind, Except.pure] at hl ⊢
  rw [hl]
  rfl

/-- The effect of an operation on one formula. -/
def opF (S : Sympy) : Op → Expr → Expr
  | .subs pairs => S.subs pairs
  | .phaseShift a v => S.subs [(v, S.add (.sym v) a)]
  | .scale s => S.mul s
  | .rewrite r => r.run

theorem step_eq (S : Sympy) {c : FormContainer} (hc : Dict.WF c.form) (op : Op) :
    step S c op = ({ c with form := c.form.mapVals (opF S op) }, none) := by
  cases op with
  | subs pairs =>
    unfold step
    simp only [Op.body, opF]
    rw [step_subs S hc]
  | phaseShift a v =>
    unfold step
    simp only [Op.body, opF, applyPhaseShiftM]
    rw [step_subs S hc]
  | scale s => rfl
  | rewrite r => rfl

theorem eval_opF (S : Sympy) (op : Op) (e : Expr) (f : Valuation → ℂ) (h : ∀ σ, e.eval σ = f σ) (σ : Valuation) :
    (opF S op e).eval σ = formEffect op f σ := by
  cases op with
  | subs pairs => simp only [opF, formEffect, S.eval_subs, h]
  | phaseShift a v =>
    simp only [opF, formEffect, S.eval_subs, assigned, S.eval_add, h]
    rfl
  | scale s => simp only [opF, formEffect, S.eval_mul, h]
  | rewrite r => simp only [opF, formEffect, r.eval_run, h]

theorem getFreeSymbols_ok (S : Sympy) {c : FormContainer} (hc : Dict.WF c.form) :
    ∃ l, c.getFreeSymbols S = .ok (S.sortSyms l) ∧ ∀ s, s ∈ l ↔ ∃ k e, (k, e) ∈ c.form ∧ s ∈ e.free := by
  have h1 : ∀ k ∈ c.getKeys, ∃ e, (k, e) ∈ c.form ∧ (do
      let e ← Dict.get c.form k
      return e.free) = Except.ok e.free := by
    intro k hk
    obtain ⟨e, he⟩ := Dict.mem_keys.1 hk
    refine ⟨e, he, ?_⟩
    rw [Dict.get_ok_iff.2 ((Dict.get?_eq_some_iff hc).2 he)]
    rfl
  have h2 : ∃ g : Key → Expr, ∀ k ∈ c.getKeys, (k, g k) ∈ c.form ∧ (do
      let e ← Dict.get c.form k
      return e.free) = Except.ok (g k).free := by
    have : Nonempty Expr := ⟨.I⟩
    choose! g hg using h1
    exact ⟨g, hg⟩
  obtain ⟨g, hg⟩ := h2
  unfold getFreeSymbols
  rw [mapM_ok (fun k hk => (hg k hk).2)]
  refine ⟨_, rfl, fun s => ?_⟩
  simp only [List.mem_flatten, List.mem_map]
  constructor
  · rintro ⟨l, ⟨k, hk, rfl⟩, hs⟩
    exact ⟨k, g k, (hg k hk).1, hs⟩
  · rintro ⟨k, e, hke, hs⟩
    have hk : k ∈ c.getKeys := Dict.mem_keys_of_mem hke
    refine ⟨_, ⟨k, hk, rfl⟩, ?_⟩
    have e1 := (Dict.get?_eq_some_iff hc).2 hke
    have e2 := (Dict.get?_eq_some_iff hc).2 (hg k hk).1
    rw [e1] at e2
    cases e2
    exact hs

end FormContainer
end Shgpy
