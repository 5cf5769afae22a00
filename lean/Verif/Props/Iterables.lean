import Verif.Model.Iterables
import Verif.Props.Form
import Verif.Props.FFormFitCases

/-!
# Property C88: iterators as arguments of the constructors and of `subs`
-/

set_option linter.unusedSectionVars false

namespace Shgpy
open Spec

section Constructors

theorem checkIterable_bad {K : Type} (d : Dict RawKey (RawVal K))
    (h : (badKey d || d.values.any (fun v => (checkVal v).isNone)) = true) : checkIterable d = .error .valueError := by
  induction d with
  | nil => simp [badKey, Dict.keys, Dict.values] at h
  | cons p d ih =>
    obtain ⟨k, v⟩ := p
    unfold checkIterable
    cases k with
    | other n => rfl
    | str s =>
      cases hv : checkVal v with
      | none => rfl
      | some a =>
        have : checkIterable d = .error .valueError := ih (by simpa [badKey, Dict.keys, Dict.values, hv] using h)
        rw [this]

theorem checkFIterable_bad (M : ℕ) (d : Dict RawKey RawFVal)
    (h : (badKey d || d.values.any (fun v => (checkFVal M v).isNone)) = true) : checkFIterable M d = .error .valueError := by
  induction d with
  | nil => simp [badKey, Dict.keys, Dict.values] at h
  | cons p d ih =>
    obtain ⟨k, v⟩ := p
    unfold checkFIterable
    cases k with
    | other n => rfl
    | str s =>
      cases hv : checkFVal M v with
      | none => rfl
      | some a =>
        have : checkFIterable M d = .error .valueError := ih (by simpa [badKey, Dict.keys, Dict.values, hv] using h)
        rw [this]

theorem checkFFIterable_bad (M : ℕ) (d : Dict RawKey RawFF)
    (h : (badKey d || d.values.any (fun v => (checkFFVal M v).isNone)) = true) : checkFFIterable M d = .error .valueError := by
  induction d with
  | nil => simp [badKey, Dict.keys, Dict.values] at h
  | cons p d ih =>
    obtain ⟨k, v⟩ := p
    unfold checkFFIterable
    cases k with
    | other n => rfl
    | str s =>
      cases hv : checkFFVal M v with
      | none => rfl
      | some a =>
        have : checkFFIterable M d = .error .valueError := ih (by simpa [badKey, Dict.keys, Dict.values, hv] using h)
        rw [this]

theorem checkFormIterable_bad (d : Dict RawKey PyObj) (h : badKey d = true) : checkFormIterable d = .error .valueError := by
  induction d with
  | nil => simp [badKey, Dict.keys] at h
  | cons p d ih =>
    obtain ⟨k, v⟩ := p
    unfold checkFormIterable
    cases k with
    | other n => rfl
    | str s =>
      have : checkFormIterable d = .error .valueError := ih (by simpa [badKey, Dict.keys] using h)
      rw [this]

theorem badKey_ofPairs {α : Type} (l : List (RawKey × α)) :
    badKey (Dict.ofPairs l) = true ↔ ∃ n v, (RawKey.other n, v) ∈ l := by
  simp only [badKey, List.any_eq_true]
  constructor
  · rintro ⟨k, hk, h⟩
    cases k with
    | str s => cases h
    | other n =>
      obtain ⟨⟨_, v⟩, hv, rfl⟩ := List.mem_map.1 (Dict.mem_keys_ofPairs.1 hk)
      exact ⟨n, v, hv⟩
  · rintro ⟨n, v, h⟩
    exact ⟨.other n, Dict.mem_keys_ofPairs.2 (List.mem_map.2 ⟨_, h, rfl⟩), rfl⟩

variable {K : Type} [Field K] [LinearOrder K] [IsStrictOrderedRing K] [FloorRing K] [HasPi K]

/-- **C88.**  Constructors called with a collection build what the models `init` of the other properties build from its items. -/
theorem C88_collection (S : Sympy) :
    (∀ (l : List (RawKey × RawVal K)) u b, DataContainer.initFrom (.collection l) u b = DataContainer.init l u b) ∧
    (∀ l M, FDataContainer.initFrom (.collection l) M = FDataContainer.init l M) ∧
    (∀ l M, FFormContainer.initFrom S (.collection l) M = FFormContainer.init S l M) ∧
    ∀ l, FormContainer.initFrom S (.collection l) = FormContainer.init S l := by
  refine ⟨fun l u b => ?_, fun l M => ?_, fun l M => ?_, fun l => ?_⟩
  · unfold DataContainer.initFrom DataContainer.init
    simp only [Iter.read]
    split
    · next h => rw [checkIterable_bad _ h]; rfl
    · rfl
  · unfold FDataContainer.initFrom FDataContainer.init
    split
    · next h => rw [checkFIterable_bad M (Dict.ofPairs l) h]; rfl
    · rfl
  · unfold FFormContainer.initFrom FFormContainer.init
    split
    · next h => rw [checkFFIterable_bad M (Dict.ofPairs l) h]; rfl
    · rfl
  · unfold FormContainer.initFrom FormContainer.init
    split
    · next h => rw [checkFormIterable_bad (Dict.ofPairs l) h]; rfl
    · rfl

/-- **C88.**  From an iterator whose names are all strings, the constructors build a container without any data, whatever the
values are, and raise nothing; `DataContainer(..., normal_to_oblique=True)` raises `ValueError`. -/
theorem C88_iterator_broken (S : Sympy) :
    (∀ (l : List (RawKey × RawVal K)) u, (∀ p ∈ l, ∃ s, p.1 = .str s) → (u = sRadians ∨ u = sDegrees) →
      (∃ c, DataContainer.initFrom (.iterator l) u false = .ok (c, []) ∧ c.getKeys = [] ∧ c.getItems u = .ok []) ∧
      DataContainer.initFrom (.iterator l) u true = .error .valueError) ∧
    (∀ (l : List (RawKey × RawFVal)) M, (∀ p ∈ l, ∃ s, p.1 = .str s) →
      ∃ c, FDataContainer.initFrom (.iterator l) M = .ok c ∧ c.getItems = []) ∧
    (∀ (l : List (RawKey × RawFF)) M, (∀ p ∈ l, ∃ s, p.1 = .str s) →
      ∃ c, FFormContainer.initFrom S (.iterator l) M = .ok c ∧ c.getItems = []) ∧
    ∀ (l : List (RawKey × PyObj)), (∀ p ∈ l, ∃ s, p.1 = .str s) →
      ∃ c, FormContainer.initFrom S (.iterator l) = .ok c ∧ c.getItems = [] := by
  have hb : ∀ {α : Type} (l : List (RawKey × α)), (∀ p ∈ l, ∃ s, p.1 = .str s) → badKey (Dict.ofPairs l) = false := by
    intro α l hl
    rw [← Bool.not_eq_true, badKey_ofPairs]
    rintro ⟨n, v, h⟩
    obtain ⟨s, hs⟩ := hl _ h
    cases hs
  refine ⟨fun l u hl hu => ⟨⟨⟨[], 1, 0, some 0, false, u⟩, ?_, rfl, ?_⟩, ?_⟩, fun l M hl => ⟨⟨[], M, 1, .num 0⟩, ?_, rfl⟩,
    fun l M hl => ⟨⟨[], M⟩, ?_, rfl⟩, fun l hl => ⟨⟨[]⟩, ?_, rfl⟩⟩
  · unfold DataContainer.initFrom
    simp only [Iter.read, hb l hl]
    rcases hu with rfl | rfl <;> rfl
  · rcases hu with rfl | rfl <;> rfl
  · unfold DataContainer.initFrom
    simp only [Iter.read, hb l hl]
    rcases hu with rfl | rfl <;> rfl
  · unfold FDataContainer.initFrom
    simp only [Iter.read, hb l hl]
    rfl
  · unfold FFormContainer.initFrom
    simp only [Iter.read, hb l hl]
    rfl
  · unfold FormContainer.initFrom
    simp only [Iter.read, hb l hl]
    rfl

/-- **C88.**  A name that is not a string is refused also in an iterator. -/
theorem C88_iterator_names (S : Sympy) :
    (∀ (l : List (RawKey × RawVal K)) u b, (∃ n v, (.other n, v) ∈ l) →
      DataContainer.initFrom (.iterator l) u b = .error .valueError) ∧
    (∀ (l : List (RawKey × RawFVal)) M, (∃ n v, (.other n, v) ∈ l) →
      FDataContainer.initFrom (.iterator l) M = .error .valueError) ∧
    (∀ (l : List (RawKey × RawFF)) M, (∃ n v, (.other n, v) ∈ l) →
      FFormContainer.initFrom S (.iterator l) M = .error .valueError) ∧
    ∀ (l : List (RawKey × PyObj)), (∃ n v, (.other n, v) ∈ l) → FormContainer.initFrom S (.iterator l) = .error .valueError := by
  refine ⟨fun l u b hl => ?_, fun l M hl => ?_, fun l M hl => ?_, fun l hl => ?_⟩
  · unfold DataContainer.initFrom
    simp only [Iter.read, (badKey_ofPairs l).2 hl]
    unfold checkAngleUnits
    split <;> rfl
  · unfold FDataContainer.initFrom
    simp only [Iter.read, (badKey_ofPairs l).2 hl]
    rfl
  · unfold FFormContainer.initFrom
    simp only [Iter.read, (badKey_ofPairs l).2 hl]
    rfl
  · unfold FormContainer.initFrom
    simp only [Iter.read, (badKey_ofPairs l).2 hl]
    rfl

end Constructors

section Subs

theorem foldlM_set_idx {α β : Type} (f : Key × α → ℕ → Except Err β) (g : Key × α → ℕ → β) (items : Dict Key α) (n : ℕ)
    (pre : Dict Key β) (h : (Dict.keys pre ++ Dict.keys items).Nodup) (hf : ∀ p ∈ items.zipIdx n, f p.1 p.2 = .ok (g p.1 p.2)) :
    (items.zipIdx n).foldlM (fun (d : Dict Key β) p => do
      let a ← f p.1 p.2
      return Dict.set d p.1.1 a) pre = .ok (pre ++ (items.zipIdx n).map (fun p => (p.1.1, g p.1 p.2))) := by
  induction items generalizing pre n with
  | nil => simp; rfl
  | cons p items ih =>
    obtain ⟨k, v⟩ := p
    rw [List.zipIdx_cons, List.foldlM_cons, hf _ (by rw [List.zipIdx_cons]; exact List.mem_cons_self)]
    have hk : k ∉ Dict.keys pre := by
      intro hk
      rw [List.nodup_append] at h
      exact h.2.2 k hk k (by simp [Dict.keys]) rfl
    show List.foldlM _ (Dict.set pre k _) _ = _
    rw [Dict.set_of_notMem hk, ih]
    · simp
    · simpa [Dict.keys] using h
    · intro p hp; exact hf p (by rw [List.zipIdx_cons]; exact List.mem_cons_of_mem _ hp)

theorem FormContainer.subsFrom_eq (S : Sympy) {c : FormContainer} (hc : Dict.WF c.form) (it : Iter (Sym × Expr)) :
    c.subsFrom S it = .ok ⟨c.form.zipIdx.map (fun p => (p.1.1, S.subs (it.read p.2) p.1.2))⟩ := by
  unfold FormContainer.subsFrom FormContainer.getItems
  rw [foldlM_set_idx (fun kv i => do
      let e ← Dict.get c.form kv.1
      return S.subs (it.read i) e) (fun kv i => S.subs (it.read i) kv.2) c.form 0 [] (by simpa [Dict.WF, Dict.keys] using hc)]
  · rfl
  · rintro ⟨⟨k, e⟩, i⟩ hp
    have hm : (k, e) ∈ c.form := by
      have := List.mem_map_of_mem (f := Prod.fst) hp
      simpa using this
    simp only [Dict.get_ok_iff.2 ((Dict.get?_eq_some_iff hc).2 hm)]
    rfl

theorem FFormContainer.subsArrFrom_obj (S : Sympy) {M : ℕ} (it : Iter (Sym × Expr)) (i : ℕ) {v : List Expr}
    (hv : v.length = 2 * M + 1) :
    subsArrFrom S M it i (.obj v) = .ok (List.zipWith (fun (m : ℤ) e => S.subs (it.read (i * (2 * M + 1) + (m + M).toNat)) e) (freqs M) v) := by
  unfold subsArrFrom
  rw [fillFreqs_get (l := (FArr.obj v).objs) (by simpa using hv)
    (F := fun m o => o.subs S (it.read (i * (2 * M + 1) + (m + M).toNat)))
    (G := fun m o => match o with | .sy e => S.subs (it.read (i * (2 * M + 1) + (m + M).toNat)) e | .native _ _ => .num 0)]
  · simp [FArr.objs, List.zipWith_map_right]
  · intro m o ho
    simp only [FArr.objs_obj, List.mem_map] at ho
    obtain ⟨e, _, rfl⟩ := ho
    rfl

/-- The elements of an array of expressions. -/
def FArr.exprs : FArr → List Expr
  | .obj v => v
  | .native _ => []

theorem FFormContainer.subsFrom_eq (S : Sympy) {c : FFormContainer} (hc : c.Good)
    (h : ∀ it ∈ c.fform, it.2.isNative = false) (it : Iter (Sym × Expr)) :
    c.subsFrom S it = .ok { c with fform := c.fform.zipIdx.map (fun p => (p.1.1, .obj (List.zipWith (fun (m : ℤ) e =>
      S.subs (it.read (p.2 * (2 * c.M + 1) + (m + c.M).toNat)) e) (freqs c.M) p.1.2.exprs))) } := by
  unfold FFormContainer.subsFrom FFormContainer.getItems
  rw [foldlM_set_idx (fun kv i => do
      let a ← Dict.get c.fform kv.1
      let v ← subsArrFrom S c.M it i a
      return FArr.obj v) (fun kv i => .obj (List.zipWith (fun (m : ℤ) e =>
      S.subs (it.read (i * (2 * c.M + 1) + (m + c.M).toNat)) e) (freqs c.M) kv.2.exprs)) c.fform 0 []
      (by simpa [Dict.WF, Dict.keys] using hc.wf)]
  · rfl
  · rintro ⟨⟨k, a⟩, i⟩ hp
    have hm : (k, a) ∈ c.fform := by
      have := List.mem_map_of_mem (f := Prod.fst) hp
      simpa using this
    simp only [hc.get hm]
    have h1 := h _ hm
    have h2 := hc.len _ hm
    cases a with
    | native v => cases h1
    | obj v =>
      show (do let v ← subsArrFrom S c.M it i (.obj v); pure (FArr.obj v)) = _
      rw [subsArrFrom_obj S it i (by simpa using h2)]
      rfl

theorem zipIdx_map_const {α β : Type} (f : α → β) (l : List α) (n : ℕ) : (l.zipIdx n).map (fun p => f p.1) = l.map f := by
  induction l generalizing n with
  | nil => rfl
  | cons a l ih => simp only [List.zipIdx_cons, List.map_cons, ih]

/-- The dictionary with `f` applied to its first item. -/
def headMap {α : Type} (f : Key × α → α) : Dict Key α → Dict Key α
  | [] => []
  | p :: r => (p.1, f p) :: r

theorem mapIdx_head {α : Type} (f : Key × α → α) (g : Key × α → ℕ → α) (hg0 : ∀ p, g p 0 = f p) (d : Dict Key α)
    (hg : ∀ p ∈ d, ∀ i, g p (i + 1) = p.2) :
    d.zipIdx.map (fun p => (p.1.1, g p.1 p.2)) = headMap f d := by
  cases d with
  | nil => rfl
  | cons p r =>
    simp only [headMap, List.zipIdx_cons, List.map_cons, hg0]
    congr 1
    have : ∀ (l : List (Key × α)) n, (∀ q ∈ l, ∀ i, g q (i + 1) = q.2) →
        (l.zipIdx (n + 1)).map (fun p => (p.1.1, g p.1 p.2)) = l := by
      intro l
      induction l with
      | nil => intro _ _; rfl
      | cons q l ih =>
        intro n hq
        simp only [List.zipIdx_cons, List.map_cons, ih (n + 1) (fun q' h' => hq q' (List.mem_cons_of_mem _ h')),
          hq q List.mem_cons_self]
    exact this r 0 (fun q hq => hg q (List.mem_cons_of_mem _ hq))

theorem get_head {α : Type} {f : Key × α → α} {d : Dict Key α} {k : Key} {a : α} (h : Dict.get d k = .ok a) :
    Dict.get (headMap f d) k =
      .ok (if (Dict.keys d).head? = some k then f (k, a) else a) := by
  rw [Dict.get_ok_iff] at h ⊢
  cases d with
  | nil => cases h
  | cons p r =>
    obtain ⟨k', a'⟩ := p
    simp only [headMap, Dict.get?, Dict.keys, List.map_cons, List.head?_cons, Option.some.injEq] at h ⊢
    by_cases hk : k' = k
    · subst hk
      simp only [if_true] at h ⊢
      cases h; rfl
    · rw [if_neg hk] at h
      rw [if_neg hk, if_neg hk]
      exact h

/-- **C88.**  `FormContainer.subs` with a collection of pairs is the operation of the other properties.  With an iterator, only the
formula of the first combination is changed. -/
theorem C88_form_subs_broken (S : Sympy) {c : FormContainer} (hc : FormContainer.Reachable S c) (pairs : List (Sym × Expr)) :
    c.subsFrom S (.collection pairs) = .ok (FormContainer.step S c (.subs pairs)).1 ∧
    ∃ c', c.subsFrom S (.iterator pairs) = .ok c' ∧ c'.getKeys = c.getKeys ∧
      ∀ k e, c.getPc k = .ok e → c'.getPc k = .ok (if c.getKeys.head? = some k then S.subs pairs e else e) := by
  refine ⟨?_, ?_⟩
  · rw [FormContainer.subsFrom_eq S hc.wf]
    have h := FormContainer.step_subs S hc.wf pairs
    unfold FormContainer.step
    simp only [FormContainer.Op.body, h]
    congr 2
    exact zipIdx_map_const (fun kv : Key × Expr => (kv.1, S.subs pairs kv.2)) c.form 0
  · refine ⟨_, FormContainer.subsFrom_eq S hc.wf _, ?_, ?_⟩
    · simp [FormContainer.getKeys, Dict.keys, List.map_map, Function.comp_def]
      exact zipIdx_map_const Prod.fst c.form 0
    · intro k e he
      unfold FormContainer.getPc at he ⊢
      have := get_head (f := fun p => S.subs pairs p.2) he
      rw [← mapIdx_head (fun p : Key × Expr => S.subs pairs p.2) (fun p i => S.subs ((Iter.iterator pairs).read i) p.2)
        (fun _ => rfl) _ (fun _ _ _ => rfl)] at this
      exact this

theorem freqs_eq_cons (M : ℕ) : ∃ r, freqs M = -(M : ℤ) :: r ∧ ∀ m ∈ r, -(M : ℤ) < m := by
  unfold freqs
  rw [List.range_succ_eq_map, List.map_cons]
  refine ⟨_, by rw [Nat.cast_zero, zero_sub], ?_⟩
  intro m hm
  simp only [List.map_map, List.mem_map, Function.comp_apply] at hm
  obtain ⟨i, _, rfl⟩ := hm
  push_cast
  omega

/-- **C88.**  `fFormContainer.subs` with a collection of pairs is the operation of the other properties.  With an iterator, only the
lowest Fourier component of the first combination is changed. -/
theorem C88_fform_subs_broken (S : Sympy) {c : FFormContainer} (hc : FFormContainer.Reachable S c)
    (h : ∀ k a, c.getPc k = .ok a → a.isNative = false) (pairs : List (Sym × Expr)) :
    c.subsFrom S (.collection pairs) = .ok (FFormContainer.step S c (.subs pairs)).1 ∧
    ∃ c', c.subsFrom S (.iterator pairs) = .ok c' ∧ c'.getKeys = c.getKeys ∧ c'.getM = c.getM ∧
      ∀ k e r, c.getPc k = .ok (.obj (e :: r)) →
        c'.getPc k = .ok (.obj (if c.getKeys.head? = some k then S.subs pairs e :: r else e :: r)) := by
  have hg := hc.good
  have hn : ∀ it ∈ c.fform, it.2.isNative = false := fun it hit => h it.1 it.2 (hg.get hit)
  have hz : ∀ (f : ℤ → Expr → Expr) (g : Expr → Expr) (l : List Expr), (∀ m e, f m e = g e) → l.length = (freqs c.M).length →
      List.zipWith f (freqs c.M) l = l.map g := by
    intro f g l hf hl
    have : f = fun _ e => g e := by funext m e; exact hf m e
    subst this
    generalize freqs c.M = ms at hl
    induction l generalizing ms with
    | nil => simp
    | cons a l ih =>
      cases ms with
      | nil => cases hl
      | cons m ms => simp only [List.zipWith_cons_cons, List.map_cons]; rw [ih ms (by simpa using hl)]
  have hlen : ∀ p ∈ c.fform, p.2.exprs.length = (freqs c.M).length ∧ p.2 = .obj p.2.exprs := by
    rintro ⟨k, a⟩ hp
    have h1 := hn _ hp
    have h2 := hg.len _ hp
    cases a with
    | native v => cases h1
    | obj v => exact ⟨by simpa [FArr.exprs, freqs] using h2, rfl⟩
  refine ⟨?_, ?_⟩
  · rw [FFormContainer.subsFrom_eq S hg hn, FFormContainer.step_subs_ok S hg pairs hn]
    congr 2
    refine Eq.trans (zipIdx_map_const (fun kv : Key × FArr => (kv.1, FArr.obj (List.zipWith (fun (_ : ℤ) e => S.subs pairs e)
      (freqs c.M) kv.2.exprs))) c.fform 0) ?_
    unfold Dict.mapVals
    refine List.map_congr_left (fun p hp => ?_)
    obtain ⟨h1, h2⟩ := hlen p hp
    rw [hz _ (S.subs pairs) _ (fun _ _ => rfl) h1]
    congr 1
    rw [h2]
    rfl
  · refine ⟨_, FFormContainer.subsFrom_eq S hg hn _, ?_, rfl, ?_⟩
    · simp [FFormContainer.getKeys, Dict.keys, List.map_map, Function.comp_def]
      exact zipIdx_map_const Prod.fst c.fform 0
    · intro k e r he
      unfold FFormContainer.getPc at he ⊢
      obtain ⟨ms, hms, hlt⟩ := freqs_eq_cons c.M
      have h1 : ∀ p ∈ c.fform, ∀ i, (FArr.obj (List.zipWith (fun (m : ℤ) e =>
          S.subs ((Iter.iterator pairs).read ((i + 1) * (2 * c.M + 1) + (m + c.M).toNat)) e) (freqs c.M) p.2.exprs)) = p.2 := by
        intro p hp i
        obtain ⟨h1, h2⟩ := hlen p hp
        have hr : ∀ (m : ℤ), (Iter.iterator pairs).read ((i + 1) * (2 * c.M + 1) + (m + c.M).toNat) = [] := by
          intro m
          obtain ⟨n, hn⟩ : ∃ n, (i + 1) * (2 * c.M + 1) + (m + c.M).toNat = n + 1 :=
            ⟨_, (Nat.succ_pred_eq_of_pos (by positivity)).symm⟩
          rw [hn]; rfl
        rw [hz _ id _ (fun m e => by rw [hr m]; rfl) h1, List.map_id, ← h2]
      have := get_head (f := fun p => FArr.obj (List.zipWith (fun (m : ℤ) e =>
          S.subs ((Iter.iterator pairs).read (0 * (2 * c.M + 1) + (m + c.M).toNat)) e) (freqs c.M) p.2.exprs)) he
      rw [← mapIdx_head (fun p : Key × FArr => FArr.obj (List.zipWith (fun (m : ℤ) e =>
          S.subs ((Iter.iterator pairs).read (0 * (2 * c.M + 1) + (m + c.M).toNat)) e) (freqs c.M) p.2.exprs))
        (fun p i => FArr.obj (List.zipWith (fun (m : ℤ) e =>
          S.subs ((Iter.iterator pairs).read (i * (2 * c.M + 1) + (m + c.M).toNat)) e) (freqs c.M) p.2.exprs))
        (fun _ => rfl) _ h1] at this
      refine Eq.trans this ?_
      congr 1
      unfold FFormContainer.getKeys
      split
      · congr 1
        have hl := (hlen _ (Dict.mem_of_get? (Dict.get_ok_iff.1 he))).1
        simp only [FArr.exprs, hms] at hl ⊢
        simp only [List.zipWith_cons_cons]
        congr 1
        · simp [Iter.read]
        · have hr : ∀ m ∈ ms, (Iter.iterator pairs).read (0 * (2 * c.M + 1) + (m + c.M).toNat) = [] := by
            intro m hm
            have := hlt m hm
            obtain ⟨n, hn⟩ : ∃ n, 0 * (2 * c.M + 1) + (m + c.M).toNat = n + 1 :=
              ⟨_, (Nat.succ_pred_eq_of_pos (by omega)).symm⟩
            rw [hn]; rfl
          clear * - hr hl
          simp only [List.length_cons, Nat.add_right_cancel_iff] at hl
          induction r generalizing ms with
          | nil => simp
          | cons e r ih =>
            cases ms with
            | nil => cases hl
            | cons m ms =>
              rw [List.zipWith_cons_cons, hr m List.mem_cons_self, ih ms (fun m hm => hr m (List.mem_cons_of_mem _ hm)) (by simpa using hl)]
              rfl
      · rfl

/-- Two combinations with the formula `x`; `subs` with an iterator over `[(x, 1)]` changes the first one only. -/
example : ∃ c c', FormContainer.init Sympy.plain [(.str kPP, .sy (.sym symX)), (.str kSS, .sy (.sym symX))] = .ok c ∧
    c.subsFrom Sympy.plain (.iterator [(symX, .num 1)]) = .ok c' ∧ c'.getPc kPP = .ok (.num 1) ∧
    c'.getPc kSS = .ok (.sym symX) :=
  ⟨_, _, rfl, rfl, rfl, rfl⟩

/-- The hypotheses of `C88_fform_subs_broken` are met; only one of the three components changes. -/
example : FFormContainer.Reachable Sympy.plain FitCases.formula ∧
    (∀ k a, FitCases.formula.getPc k = .ok a → a.isNative = false) ∧
    ∃ c', FitCases.formula.subsFrom Sympy.plain (.iterator [(FitCases.symB, .num 7)]) = .ok c' ∧
      c'.getPc kPP = .ok (.obj [.num 7, .sym FitCases.symA, .sym FitCases.symB]) := by
  refine ⟨FitCases.formula_reachable, ?_, _, rfl, rfl⟩
  intro k a h
  have := Dict.mem_of_get? (Dict.get_ok_iff.1 h)
  simp only [FitCases.formula, List.mem_singleton, Prod.mk.injEq] at this
  rw [this.2]
  rfl

/-- An iterator with one valid and one invalid value: an empty container. -/
example : DataContainer.initFrom (K := ℚ) (.iterator [(.str kPP, .arr2 .float [[0, 1], [1, 3]]), (.str kSS, .other)]) sRadians
    false = .ok (⟨[], 1, 0, some 0, false, sRadians⟩, []) := rfl

end Subs

end Shgpy
