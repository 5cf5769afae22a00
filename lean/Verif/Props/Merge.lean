import Verif.Spec.Merge
import Verif.Props.FormConvert
import Verif.Props.DataArith

/-!
# Property C34: `merge_containers`
-/

set_option linter.unusedSectionVars false
set_option linter.unusedSimpArgs false

namespace Shgpy
open Spec

theorem items_eq (c : AnyC) (b : Bool) :
    c.items b = if b = decide (c.kind = .data) then .ok (shown c) else .error .typeError := by
  cases c <;> cases b <;> simp [AnyC.items, AnyC.kind, shown, getItems_radians, FDataContainer.getItems,
    FormContainer.getItems, FFormContainer.getItems]

theorem mergeItems_eq (m : Key → ℕ → RawKey) (i : ℕ) (l : List (Key × MVal)) (d : Dict RawKey MVal) :
    mergeItems m i false l d = .ok ((l.map (fun kv => (m kv.1 i, kv.2))).foldl (fun d p => Dict.set d p.1 p.2) d) := by
  induction l generalizing d with
  | nil => rfl
  | cons p l ih =>
    obtain ⟨k, v⟩ := p
    simp only [mergeItems, Bool.false_eq_true, if_false, ih, List.map_cons, List.foldl_cons]

theorem mergeItems_odd (m : Key → ℕ → RawKey) (i : ℕ) (l : List (Key × MVal)) (d : Dict RawKey MVal) :
    mergeItems m i true l d = if l = [] then .ok d else .error .typeError := by
  cases l with
  | nil => rfl
  | cons p l => simp [mergeItems]

/-- The container stops a merge into containers of the given kind. -/
def Odd (κ : Kind) (c : AnyC) : Prop := c.kind ≠ κ ∧ (shown c ≠ [] ∨ c.kind = .data ∨ κ = .data)

theorem mergeLoop_eq (κ : Kind) (m : Key → ℕ → RawKey) (i : ℕ) (cs : List AnyC) (d : Dict RawKey MVal)
    (h : ∀ c ∈ cs, ¬ Odd κ c) :
    mergeLoop κ m i cs d = .ok (((cs.zipIdx i).flatMap
      (fun ci => (shown ci.1).map (fun kv => (m kv.1 ci.2, kv.2)))).foldl (fun d p => Dict.set d p.1 p.2) d) := by
  induction cs generalizing i d with
  | nil => rfl
  | cons c cs ih =>
    have hc := h c List.mem_cons_self
    unfold Odd at hc
    push Not at hc
    unfold mergeLoop
    by_cases hk : c.kind = κ
    · rw [items_eq, if_pos (by rw [hk]), ok_bind, decide_eq_false (by simpa using hk), mergeItems_eq, ok_bind,
        ih _ _ (fun c hc => h c (List.mem_cons_of_mem _ hc))]
      simp only [List.zipIdx_cons, List.flatMap_cons, List.foldl_append]
    · obtain ⟨h1, h2, h3⟩ := hc hk
      rw [items_eq, if_pos (by simp [h2, h3]), ok_bind, decide_eq_true hk, mergeItems_odd, if_pos h1, ok_bind,
        ih _ _ (fun c hc => h c (List.mem_cons_of_mem _ hc))]
      simp only [List.zipIdx_cons, List.flatMap_cons, h1, List.map_nil, List.nil_append]

theorem mergeLoop_error (κ : Kind) (m : Key → ℕ → RawKey) (i : ℕ) (cs : List AnyC) (d : Dict RawKey MVal)
    (h : ∃ c ∈ cs, Odd κ c) : mergeLoop κ m i cs d = .error .typeError := by
  induction cs generalizing i d with
  | nil => obtain ⟨c, hc, _⟩ := h; cases hc
  | cons c cs ih =>
    unfold mergeLoop
    by_cases ho : Odd κ c
    · obtain ⟨hk, ho⟩ := ho
      rw [items_eq]
      by_cases hb : decide (κ = Kind.data) = decide (c.kind = Kind.data)
      · rw [if_pos hb, ok_bind, decide_eq_true hk, mergeItems_odd, if_neg]
        · rfl
        · intro hn
          rcases ho with ho | ho | ho
          · exact ho hn
          · simp only [decide_eq_decide] at hb
            exact hk (ho.trans (hb.2 ho).symm)
          · simp only [decide_eq_decide] at hb
            exact hk ((hb.1 ho).trans ho.symm)
      · rw [if_neg hb]; rfl
    · have h' : ∃ c ∈ cs, Odd κ c := by
        obtain ⟨c', hc', ho'⟩ := h
        rcases List.mem_cons.1 hc' with rfl | hc'
        · exact absurd ho' ho
        · exact ⟨c', hc', ho'⟩
      unfold Odd at ho
      push Not at ho
      by_cases hk : c.kind = κ
      · rw [items_eq, if_pos (by rw [hk]), ok_bind, decide_eq_false (by simpa using hk), mergeItems_eq, ok_bind]
        exact ih _ _ h'
      · obtain ⟨h1, h2, h3⟩ := ho hk
        rw [items_eq, if_pos (by simp [h2, h3]), ok_bind, decide_eq_true hk, mergeItems_odd, if_pos h1, ok_bind]
        exact ih _ _ h'

theorem mergeBuild_error {S : Sympy} {d : Dict RawKey MVal} {κ : Kind} {e : Err} (h : mergeBuild S d κ = .error e) :
    e = .valueError := by
  cases κ with
  | data =>
    unfold mergeBuild at h
    cases hi : DataContainer.init (d.map (fun kv => (kv.1, kv.2.toData))) sRadians false with
    | ok r => rw [hi] at h; cases h
    | error e' =>
      rw [hi] at h; cases h
      exact (C04_acceptance _ _ _).2 _ hi
  | fdata =>
    unfold mergeBuild FDataContainer.init at h
    cases hi : checkFIterable 16 (Dict.ofPairs (d.map (fun kv => (kv.1, kv.2.toFData)))) with
    | ok r => rw [hi] at h; cases h
    | error e' => rw [hi] at h; cases h; exact checkFIterable_error hi
  | form =>
    unfold mergeBuild FormContainer.init at h
    cases hi : checkFormIterable (Dict.ofPairs (d.map (fun kv => (kv.1, kv.2.toForm)))) with
    | ok r => rw [hi] at h; cases h
    | error e' => rw [hi] at h; cases h; exact FormContainer.checkFormIterable_error hi
  | fform =>
    unfold mergeBuild FFormContainer.init at h
    cases hi : checkFFIterable 16 (Dict.ofPairs (d.map (fun kv => (kv.1, kv.2.toFForm)))) with
    | ok r => rw [hi] at h; cases h
    | error e' => rw [hi] at h; cases h; exact FFormContainer.checkFFIterable_error hi

/-- **C34, mixed types.** Merging raises `TypeError` exactly when some container is of another type than the first one
and either has a combination or one of the two is a `DataContainer`; an empty list raises `IndexError`. -/
theorem C34_mixed_types (S : Sympy) (m : Key → ℕ → RawKey) :
    mergeContainers S [] m = .error .indexError ∧
    ∀ c₀ cs, mergeContainers S (c₀ :: cs) m = .error .typeError ↔
      ∃ c ∈ cs, c.kind ≠ c₀.kind ∧ (shown c ≠ [] ∨ c.kind = .data ∨ c₀.kind = .data) := by
  refine ⟨rfl, fun c₀ cs => ?_⟩
  constructor
  · intro h
    by_contra hn
    have h' : ∀ c ∈ c₀ :: cs, ¬ Odd c₀.kind c := by
      intro c hc ho
      rcases List.mem_cons.1 hc with rfl | hc
      · exact ho.1 rfl
      · exact hn ⟨c, hc, ho⟩
    unfold mergeContainers at h
    simp only at h
    rw [mergeLoop_eq _ _ _ _ _ h', ok_bind] at h
    cases mergeBuild_error h
  · rintro ⟨c, hc, ho⟩
    unfold mergeContainers
    simp only
    rw [mergeLoop_error _ _ _ _ _ ⟨c, List.mem_cons_of_mem _ hc, ho⟩]
    rfl

theorem lastAt_ofPairs {κ α : Type} [DecidableEq κ] {l : List (κ × α)} {k : κ} {v : α} :
    (k, v) ∈ Dict.ofPairs l ↔ LastAt l k v := by
  rw [← Dict.get?_eq_some_iff (Dict.WF_ofPairs l), Dict.get?_ofPairs]
  constructor
  · intro h
    obtain ⟨p, h1, h2⟩ := Option.map_eq_some_iff.1 h
    clear h
    induction l with
    | nil => simp at h1
    | cons q l ih =>
      rw [List.filter_cons] at h1
      cases hl : l.filter (fun p => decide (p.1 = k)) with
      | nil =>
        rw [hl] at h1
        split at h1
        · rename_i hq
          simp only [List.getLast?_singleton, Option.some.injEq] at h1
          subst h1
          refine ⟨[], l, ?_, ?_⟩
          · rw [← h2, ← of_decide_eq_true hq]; rfl
          · intro p hp he
            have : p ∈ l.filter (fun p => decide (p.1 = k)) := List.mem_filter.2 ⟨hp, by simpa using he⟩
            rw [hl] at this
            cases this
        · simp at h1
      | cons r rs =>
        have h3 : (l.filter (fun p => decide (p.1 = k))).getLast? = some p := by
          split at h1
          · rw [hl, List.getLast?_cons_cons] at h1
            rw [hl]; exact h1
          · exact h1
        obtain ⟨pre, post, e, hp⟩ := ih h3
        exact ⟨q :: pre, post, by rw [e]; rfl, hp⟩
  · rintro ⟨pre, post, rfl, hp⟩
    have : post.filter (fun p => decide (p.1 = k)) = [] := by
      rw [List.filter_eq_nil_iff]
      intro p hp'
      simpa using hp p hp'
    rw [List.filter_append, List.filter_cons]
    simp [this]

theorem ofPairs_str {α : Type} (l : List (Key × α)) :
    Dict.ofPairs (l.map (fun kv => (RawKey.str kv.1, kv.2))) = (Dict.ofPairs l).map (fun kv => (.str kv.1, kv.2)) := by
  have hset : ∀ (d : Dict Key α) k v, Dict.set (d.map (fun kv => (RawKey.str kv.1, kv.2))) (.str k) v =
      (Dict.set d k v).map (fun kv => (.str kv.1, kv.2)) := by
    intro d k v
    induction d with
    | nil => rfl
    | cons p d ih =>
      obtain ⟨k', v'⟩ := p
      simp only [List.map_cons, Dict.set, RawKey.str.injEq]
      split <;> simp [ih]
  unfold Dict.ofPairs
  suffices ∀ d : Dict Key α, (l.map (fun kv => (RawKey.str kv.1, kv.2))).foldl (fun d p => Dict.set d p.1 p.2)
      (d.map (fun kv => (RawKey.str kv.1, kv.2))) = (l.foldl (fun d p => Dict.set d p.1 p.2) d).map
        (fun kv => (.str kv.1, kv.2)) from this []
  intro d
  induction l generalizing d with
  | nil => rfl
  | cons p l ih => simp only [List.map_cons, List.foldl_cons, hset, ih]

theorem mergeEntries_str (cs : List AnyC) (m : Key → ℕ → Key) :
    mergeEntries cs (fun k i => RawKey.str (m k i)) = (mergeEntries cs m).map (fun kv => (.str kv.1, kv.2)) := by
  unfold mergeEntries
  rw [List.map_flatMap]
  simp [Function.comp_def]

/-- Containers of one kind reduce to the constructor on the dictionary of all entries. -/
theorem merge_eq (S : Sympy) {c₀ : AnyC} {cs : List AnyC} (hk : ∀ c ∈ c₀ :: cs, c.kind = c₀.kind) (m : Key → ℕ → Key) :
    mergeContainers S (c₀ :: cs) (fun k i => .str (m k i)) =
      mergeBuild S ((Dict.ofPairs (mergeEntries (c₀ :: cs) m)).map (fun kv => (.str kv.1, kv.2))) c₀.kind := by
  unfold mergeContainers
  simp only
  rw [mergeLoop_eq _ _ _ _ _ (fun c hc ho => ho.1 (hk c hc)), ok_bind]
  have := ofPairs_str (mergeEntries (c₀ :: cs) m)
  rw [← mergeEntries_str] at this
  rw [← this]
  rfl

/-- A container as obtained by constructor and method calls. -/
def AnyC.Reachable (S : Sympy) : AnyC → Prop
  | .data c => c.Reachable
  | .fdata c => c.Reachable
  | .form c => c.Reachable S
  | .fform c => c.Reachable S

/-- What merging needs of a container: the default `M = 16`, no numeric formula arrays, pairwise distinct angles. -/
def Mergeable : AnyC → Prop
  | .data c => DistinctKeys c
  | .fdata c => c.getM = 16
  | .form _ => True
  | .fform c => c.getM = 16 ∧ Symbolic c

/-- What is known of the entries of a reachable, mergeable container of a kind. -/
def GoodVal : Kind → MVal → Prop
  | .data, .arr2 pts => NormalForm pts ∧ (pts.map Prod.fst).Nodup
  | .fdata, .arr1 v => v.length = 33
  | .form, .expr _ => True
  | .fform, .farr a => a.objs.length = 33 ∧ a.isNative = false
  | _, _ => False

theorem goodVal_shown {S : Sympy} {c : AnyC} (hr : c.Reachable S) (hm : Mergeable c) :
    ∀ kv ∈ shown c, GoodVal c.kind kv.2 := by
  cases c with
  | data c =>
    rintro kv hkv
    obtain ⟨it, hit, rfl⟩ := List.mem_map.1 hkv
    have h := reachable_normalForm (show DataContainer.Reachable c from hr)
    exact ⟨h.2 it hit, hm it.1 it.2 (get_of_mem h.1 hit)⟩
  | fdata c =>
    rintro kv hkv
    obtain ⟨it, hit, rfl⟩ := List.mem_map.1 hkv
    have h := (show FDataContainer.Reachable c from hr).good.len it hit
    have h2 : c.M = 16 := hm
    rw [h2] at h
    exact h
  | form c =>
    rintro kv hkv
    obtain ⟨it, hit, rfl⟩ := List.mem_map.1 hkv
    trivial
  | fform c =>
    rintro kv hkv
    obtain ⟨it, hit, rfl⟩ := List.mem_map.1 hkv
    have hg := (show FFormContainer.Reachable S c from hr).good
    have h := hg.len it hit
    have h2 : c.M = 16 := hm.1
    rw [h2] at h
    exact ⟨h, (FFormContainer.symbolic_iff hg).1 hm.2 it hit⟩

theorem mem_mergeEntries {κ : Type} {cs : List AnyC} {m : Key → ℕ → κ} {p : κ × MVal} (h : p ∈ mergeEntries cs m) :
    ∃ c ∈ cs, ∃ k i, (k, p.2) ∈ shown c ∧ p.1 = m k i := by
  unfold mergeEntries at h
  obtain ⟨ci, h1, h2⟩ := List.mem_flatMap.1 h
  obtain ⟨kv, h3, rfl⟩ := List.mem_map.1 h2
  refine ⟨ci.1, ?_, kv.1, ci.2, h3, rfl⟩
  obtain ⟨c, i⟩ := ci
  have := List.mem_zipIdx h1
  simp only at this ⊢
  rw [this.2.2]
  exact List.getElem_mem _

theorem mergeBuild_ok (S : Sympy) {d : Dict Key MVal} (hd : Dict.WF d) {κ : Kind} (hg : ∀ kv ∈ d, GoodVal κ kv.2) :
    ∃ r, mergeBuild S (d.map (fun kv => (.str kv.1, kv.2))) κ = .ok r ∧ r.kind = κ ∧ r.Reachable S ∧ shown r = d ∧
      Mergeable r := by
  cases κ with
  | data =>
    obtain ⟨d', rfl⟩ : ∃ d' : Dict Key (List (ℝ × ℝ)), d = d'.mapVals MVal.arr2 := by
      clear hd
      induction d with
      | nil => exact ⟨[], rfl⟩
      | cons p d ih =>
        obtain ⟨d', h⟩ := ih (fun kv hkv => hg kv (List.mem_cons_of_mem _ hkv))
        obtain ⟨k, v⟩ := p
        have h2 := hg _ List.mem_cons_self
        cases v with
        | arr2 pts => exact ⟨(k, pts) :: d', by rw [h]; rfl⟩
        | _ => exact absurd h2 (by simp [GoodVal])
    have hwf : Dict.WF d' := by simpa [Dict.WF] using hd
    have hg' : ∀ it ∈ d', NormalForm it.2 ∧ (it.2.map Prod.fst).Nodup :=
      fun it hit => hg (it.1, .arr2 it.2) (Dict.mem_mapVals.2 ⟨it.2, hit, rfl⟩)
    have hi := init_items hwf (fun it hit => (hg' it hit).1) (fun it hit => (hg' it hit).2)
    have he : ((d'.mapVals MVal.arr2).map (fun kv => ((.str kv.1 : RawKey), kv.2))).map (fun kv => (kv.1, kv.2.toData))
        = d'.map (fun it => (.str it.1, .arr2 .float [it.2.map Prod.fst, it.2.map Prod.snd])) := by
      simp [Dict.mapVals, MVal.toData]
    unfold mergeBuild
    simp only
    rw [he, hi]
    refine ⟨_, rfl, rfl, ⟨_, _, _, _, _, [], hi, rfl⟩, rfl, ?_⟩
    intro k pts hk
    rw [getPc_radians] at hk
    exact (hg' (k, pts) (Dict.mem_of_get? (Dict.get_ok_iff.1 hk))).2
  | fdata =>
    obtain ⟨d', rfl⟩ : ∃ d' : Dict Key (List ℂ), d = d'.mapVals MVal.arr1 := by
      clear hd
      induction d with
      | nil => exact ⟨[], rfl⟩
      | cons p d ih =>
        obtain ⟨d', h⟩ := ih (fun kv hkv => hg kv (List.mem_cons_of_mem _ hkv))
        obtain ⟨k, v⟩ := p
        have h2 := hg _ List.mem_cons_self
        cases v with
        | arr1 v => exact ⟨(k, v) :: d', by rw [h]; rfl⟩
        | _ => exact absurd h2 (by simp [GoodVal])
    have hwf : Dict.WF d' := by simpa [Dict.WF] using hd
    have hg' : ∀ it ∈ d', it.2.length = 2 * 16 + 1 :=
      fun it hit => hg (it.1, .arr1 it.2) (Dict.mem_mapVals.2 ⟨it.2, hit, rfl⟩)
    have hi := FDataContainer.init_items .complex128 (Or.inr rfl) hwf hg'
    have he : ((d'.mapVals MVal.arr1).map (fun kv => ((.str kv.1 : RawKey), kv.2))).map (fun kv => (kv.1, kv.2.toFData))
        = d'.map (fun it => (.str it.1, .arr1 .complex128 it.2)) := by
      simp [Dict.mapVals, MVal.toFData]
    unfold mergeBuild
    simp only
    rw [he, hi]
    exact ⟨_, rfl, rfl, ⟨_, _, _, [], hi, rfl⟩, rfl, rfl⟩
  | form =>
    obtain ⟨d', rfl⟩ : ∃ d' : Dict Key Expr, d = d'.mapVals MVal.expr := by
      clear hd
      induction d with
      | nil => exact ⟨[], rfl⟩
      | cons p d ih =>
        obtain ⟨d', h⟩ := ih (fun kv hkv => hg kv (List.mem_cons_of_mem _ hkv))
        obtain ⟨k, v⟩ := p
        have h2 := hg _ List.mem_cons_self
        cases v with
        | expr v => exact ⟨(k, v) :: d', by rw [h]; rfl⟩
        | _ => exact absurd h2 (by simp [GoodVal])
    have hwf : Dict.WF d' := by simpa [Dict.WF] using hd
    have hi := FormContainer.copy_ok S (c := ⟨d'⟩) hwf
    unfold FormContainer.copy at hi
    have he : ((d'.mapVals MVal.expr).map (fun kv => ((.str kv.1 : RawKey), kv.2))).map (fun kv => (kv.1, kv.2.toForm))
        = d'.map (fun it => (.str it.1, .sy it.2)) := by
      simp [Dict.mapVals, MVal.toForm]
    unfold mergeBuild
    simp only
    rw [he, hi]
    exact ⟨_, rfl, rfl, ⟨_, _, [], hi, rfl⟩, rfl, trivial⟩
  | fform =>
    obtain ⟨d', rfl⟩ : ∃ d' : Dict Key FArr, d = d'.mapVals MVal.farr := by
      clear hd
      induction d with
      | nil => exact ⟨[], rfl⟩
      | cons p d ih =>
        obtain ⟨d', h⟩ := ih (fun kv hkv => hg kv (List.mem_cons_of_mem _ hkv))
        obtain ⟨k, v⟩ := p
        have h2 := hg _ List.mem_cons_self
        cases v with
        | farr v => exact ⟨(k, v) :: d', by rw [h]; rfl⟩
        | _ => exact absurd h2 (by simp [GoodVal])
    have hwf : Dict.WF d' := by simpa [Dict.WF] using hd
    have hg' : ∀ it ∈ d', it.2.objs.length = 2 * 16 + 1 ∧ it.2.isNative = false :=
      fun it hit => hg (it.1, .farr it.2) (Dict.mem_mapVals.2 ⟨it.2, hit, rfl⟩)
    have hgood : (FFormContainer.mk d' 16).Good := ⟨hwf, fun it hit => (hg' it hit).1⟩
    have hi := FFormContainer.copy_ok S hgood (fun it hit => (hg' it hit).2)
    unfold FFormContainer.copy at hi
    have he : ((d'.mapVals MVal.farr).map (fun kv => ((.str kv.1 : RawKey), kv.2))).map (fun kv => (kv.1, kv.2.toFForm))
        = (FFormContainer.mk d' 16).toIterable := by
      simp [Dict.mapVals, MVal.toFForm, FFormContainer.toIterable]
    unfold mergeBuild
    simp only
    rw [he, hi]
    exact ⟨_, rfl, rfl, ⟨_, _, _, [], hi, rfl⟩, rfl, rfl,
      (FFormContainer.symbolic_iff hgood).2 (fun it hit => (hg' it hit).2)⟩

/-- **C34.** Merging containers of one kind gives a container of that kind whose keys are the images of the mapping in
order of first appearance, and under each key the value of the last combination mapped to it. -/
theorem C34_merge (S : Sympy) {c₀ : AnyC} {cs : List AnyC} (hk : ∀ c ∈ cs, c.kind = c₀.kind)
    (hr : ∀ c ∈ c₀ :: cs, c.Reachable S ∧ Mergeable c) (m : Key → ℕ → Key) :
    ∃ r, mergeContainers S (c₀ :: cs) (fun k i => .str (m k i)) = .ok r ∧ r.kind = c₀.kind ∧ r.Reachable S ∧
      Mergeable r ∧ (shown r).map Prod.fst = firstOcc ((mergeEntries (c₀ :: cs) m).map Prod.fst) ∧
      ∀ k v, (k, v) ∈ shown r ↔ LastAt (mergeEntries (c₀ :: cs) m) k v := by
  have hk' : ∀ c ∈ c₀ :: cs, c.kind = c₀.kind := by
    intro c hc
    rcases List.mem_cons.1 hc with rfl | hc
    · rfl
    · exact hk c hc
  rw [merge_eq S hk']
  have hwf := Dict.WF_ofPairs (mergeEntries (c₀ :: cs) m)
  obtain ⟨r, h1, h2, h3, h4, h5⟩ := mergeBuild_ok S hwf (κ := c₀.kind) (by
    rintro ⟨k, v⟩ hkv
    obtain ⟨pre, post, e, _⟩ := lastAt_ofPairs.1 hkv
    obtain ⟨c, hc, k', i, h1, _⟩ := mem_mergeEntries (p := (k, v)) (cs := c₀ :: cs) (m := m) (by rw [e]; simp)
    have := goodVal_shown (hr c hc).1 (hr c hc).2 _ h1
    rw [hk' c hc] at this
    exact this)
  refine ⟨r, h1, h2, h3, h5, ?_, ?_⟩
  · rw [h4]; exact keys_ofPairs _
  · intro k v
    rw [h4]; exact lastAt_ofPairs

/-- **C34.** When no two combinations get the same new key, nothing is lost: the combinations of the result are exactly those of
all the containers, in order, each under its new key. -/
theorem C34_distinct (S : Sympy) {c₀ : AnyC} {cs : List AnyC} (hk : ∀ c ∈ cs, c.kind = c₀.kind)
    (hr : ∀ c ∈ c₀ :: cs, c.Reachable S ∧ Mergeable c) (m : Key → ℕ → Key)
    (hm : ((mergeEntries (c₀ :: cs) m).map Prod.fst).Nodup) :
    ∃ r, mergeContainers S (c₀ :: cs) (fun k i => .str (m k i)) = .ok r ∧ r.kind = c₀.kind ∧ r.Reachable S ∧ Mergeable r ∧
      shown r = mergeEntries (c₀ :: cs) m := by
  have hk' : ∀ c ∈ c₀ :: cs, c.kind = c₀.kind := by
    intro c hc
    rcases List.mem_cons.1 hc with rfl | hc
    · rfl
    · exact hk c hc
  obtain ⟨r, h1, h2, h3, h4, h5⟩ := mergeBuild_ok S (Dict.WF_ofPairs (mergeEntries (c₀ :: cs) m)) (κ := c₀.kind) (by
    rintro ⟨k, v⟩ hkv
    obtain ⟨pre, post, e, _⟩ := lastAt_ofPairs.1 hkv
    obtain ⟨c, hc, k', i, h1, _⟩ := mem_mergeEntries (p := (k, v)) (cs := c₀ :: cs) (m := m) (by rw [e]; simp)
    have := goodVal_shown (hr c hc).1 (hr c hc).2 _ h1
    rw [hk' c hc] at this
    exact this)
  refine ⟨r, by rw [merge_eq S hk', h1], h2, h3, h5, ?_⟩
  rw [h4, Dict.ofPairs_of_nodup hm]

/-- The keys of a container are different. -/
theorem shown_nodup {S : Sympy} {c : AnyC} (hr : c.Reachable S) : ((shown c).map Prod.fst).Nodup := by
  cases c with
  | data c =>
    have := (reachable_normalForm (show DataContainer.Reachable c from hr)).1
    simpa [shown, Dict.WF, Dict.keys, Function.comp_def] using this
  | fdata c =>
    have := (show FDataContainer.Reachable c from hr).good.wf
    simpa [shown, Dict.WF, Dict.keys, Function.comp_def] using this
  | form c =>
    have := (show FormContainer.Reachable S c from hr).wf
    simpa [shown, Dict.WF, Dict.keys, Function.comp_def] using this
  | fform c =>
    have := (show FFormContainer.Reachable S c from hr).good.wf
    simpa [shown, Dict.WF, Dict.keys, Function.comp_def] using this

/-- A mapping that is injective on a set of keys that contains those of the containers gives different new keys. -/
theorem mergeEntries_nodup (S : Sympy) {l : List AnyC} (hr : ∀ c ∈ l, c.Reachable S) {m : Key → ℕ → Key} (P : Key → Prop)
    (hP : ∀ c ∈ l, ∀ kv ∈ shown c, P kv.1) (hm : ∀ k i k' i', P k → P k' → m k i = m k' i' → k = k' ∧ i = i') :
    ((mergeEntries l m).map Prod.fst).Nodup := by
  unfold mergeEntries
  suffices ∀ n, (((l.zipIdx n).flatMap (fun ci => (shown ci.1).map (fun kv => (m kv.1 ci.2, kv.2)))).map
      Prod.fst).Nodup from this 0
  induction l with
  | nil => intro n; simp
  | cons c l ih =>
    intro n
    simp only [List.zipIdx_cons, List.flatMap_cons, List.map_append, List.map_map]
    rw [List.nodup_append]
    refine ⟨?_, ih (fun c hc => hr c (List.mem_cons_of_mem _ hc)) (fun c hc => hP c (List.mem_cons_of_mem _ hc)) (n + 1), ?_⟩
    · have h1 := shown_nodup (hr c List.mem_cons_self)
      have : (shown c).map (Prod.fst ∘ fun kv => (m kv.1 n, kv.2)) = ((shown c).map Prod.fst).map (fun k => m k n) := by
        simp [Function.comp_def]
      rw [this]
      refine h1.map_on (fun a ha b hb h => ?_)
      obtain ⟨kv, hkv, rfl⟩ := List.mem_map.1 ha
      obtain ⟨kv', hkv', rfl⟩ := List.mem_map.1 hb
      exact (hm _ _ _ _ (hP c List.mem_cons_self _ hkv) (hP c List.mem_cons_self _ hkv') h).1
    · intro a ha b hb hab
      subst hab
      obtain ⟨kv, hkv, rfl⟩ := List.mem_map.1 ha
      obtain ⟨q, hq, hqa⟩ := List.mem_map.1 hb
      obtain ⟨ci, h1, h2⟩ := List.mem_flatMap.1 hq
      obtain ⟨kv', hkv', rfl⟩ := List.mem_map.1 h2
      obtain ⟨c', i⟩ := ci
      have hc' : c' ∈ l := by
        have := List.mem_zipIdx h1
        rw [this.2.2]; exact List.getElem_mem _
      have := (hm _ _ _ _ (hP c' (List.mem_cons_of_mem _ hc') _ hkv') (hP c List.mem_cons_self _ hkv) hqa).2
      have := (List.mem_zipIdx h1).1
      simp only at *
      omega

/-- **C34.** With an injective mapping nothing is lost: the combinations of the result are exactly those of all the
containers, in order, each under its new key. -/
theorem C34_injective (S : Sympy) {c₀ : AnyC} {cs : List AnyC} (hk : ∀ c ∈ cs, c.kind = c₀.kind)
    (hr : ∀ c ∈ c₀ :: cs, c.Reachable S ∧ Mergeable c) (m : Key → ℕ → Key)
    (hm : ∀ k i k' i', m k i = m k' i' → k = k' ∧ i = i') :
    ∃ r, mergeContainers S (c₀ :: cs) (fun k i => .str (m k i)) = .ok r ∧
      shown r = mergeEntries (c₀ :: cs) m := by
  obtain ⟨r, h1, _, _, _, h5⟩ := C34_distinct S hk hr m
    (mergeEntries_nodup S (fun c hc => (hr c hc).1) (fun _ => True) (fun _ _ _ _ => trivial) (fun k i k' i' _ _ => hm k i k' i'))
  exact ⟨r, h1, h5⟩

theorem mergeBuild_fits {S : Sympy} {d : Dict Key MVal} (hd : Dict.WF d) {κ : Kind} {r : AnyC}
    (h : mergeBuild S (d.map (fun kv => (.str kv.1, kv.2))) κ = .ok r) (hκ : κ = .fdata ∨ κ = .fform) :
    ∀ kv ∈ d, Fits kv.2 := by
  have hof : ∀ {α : Type} (f : MVal → α), Dict.ofPairs ((d.map (fun kv => ((.str kv.1 : RawKey), kv.2))).map
      (fun kv => (kv.1, f kv.2))) = d.map (fun kv => (.str kv.1, f kv.2)) := by
    intro α f
    rw [List.map_map]
    exact Dict.ofPairs_of_nodup (FormContainer.str_map_nodup hd f)
  rcases hκ with rfl | rfl
  · unfold mergeBuild FDataContainer.init at h
    simp only at h
    rw [hof] at h
    cases hi : checkFIterable 16 (d.map (fun kv => ((.str kv.1 : RawKey), kv.2.toFData))) with
    | error e => rw [hi] at h; cases h
    | ok d' =>
      have hf := checkFIterable_ok hi
      intro kv hkv
      obtain ⟨q, _, _, hq⟩ := forall₂_mem_left hf (List.mem_map.2 ⟨kv, hkv, rfl⟩)
      obtain ⟨dt, h1, h2, _⟩ := checkFVal_some.1 hq
      obtain ⟨k, v⟩ := kv
      cases v <;> simp [MVal.toFData, Fits] at h1 ⊢
      rw [h1.2]; exact h2
  · unfold mergeBuild FFormContainer.init at h
    simp only at h
    rw [hof] at h
    cases hi : checkFFIterable 16 (d.map (fun kv => ((.str kv.1 : RawKey), kv.2.toFForm))) with
    | error e => rw [hi] at h; cases h
    | ok d' =>
      have hf := FFormContainer.checkFFIterable_ok hi
      intro kv hkv
      obtain ⟨q, _, _, hq⟩ := forall₂_mem_left hf (List.mem_map.2 ⟨kv, hkv, rfl⟩)
      obtain ⟨k, v⟩ := kv
      cases v with
      | farr a =>
        cases a with
        | native v => cases hq
        | obj v =>
          simp only [MVal.toFForm, FArr.toRaw, checkFFVal] at hq
          by_cases hl : (v.map PyObj.sy).length = 2 * 16 + 1
          · exact ⟨by simpa using hl, rfl⟩
          · rw [if_neg hl] at hq; cases hq
      | _ => cases hq

/-- **C34, other sizes.** Merging Fourier containers raises `ValueError` if a value that would survive does not have 33
components (a container with `M ≠ 16`) or is a numeric formula array. -/
theorem C34_other_M (S : Sympy) {c₀ : AnyC} {cs : List AnyC} (hk : ∀ c ∈ cs, c.kind = c₀.kind)
    (hf : c₀.kind = .fdata ∨ c₀.kind = .fform) (m : Key → ℕ → Key)
    (h : ∃ k v, LastAt (mergeEntries (c₀ :: cs) m) k v ∧ ¬ Fits v) :
    mergeContainers S (c₀ :: cs) (fun k i => .str (m k i)) = .error .valueError := by
  have hk' : ∀ c ∈ c₀ :: cs, c.kind = c₀.kind := by
    intro c hc
    rcases List.mem_cons.1 hc with rfl | hc
    · rfl
    · exact hk c hc
  rw [merge_eq S hk']
  cases hb : mergeBuild S ((Dict.ofPairs (mergeEntries (c₀ :: cs) m)).map (fun kv => (.str kv.1, kv.2))) c₀.kind with
  | error e => rw [mergeBuild_error hb]
  | ok r =>
    obtain ⟨k, v, h1, h2⟩ := h
    exact absurd (mergeBuild_fits (Dict.WF_ofPairs _) hb hf (k, v) (lastAt_ofPairs.2 h1)) h2

/-- **C34, other sizes.** In particular merging `fDataContainer`s that all have `M ≠ 16` raises `ValueError` as soon as
one of them has a combination. -/
theorem C34_fdata_other_M (S : Sympy) {c₀ : FDataContainer} {cs : List FDataContainer}
    (hr : ∀ c ∈ c₀ :: cs, c.Reachable ∧ c.getM ≠ 16) (hne : ∃ c ∈ c₀ :: cs, c.getKeys ≠ []) (m : Key → ℕ → Key) :
    mergeContainers S ((c₀ :: cs).map .fdata) (fun k i => .str (m k i)) = .error .valueError := by
  rw [List.map_cons]
  refine C34_other_M S (fun c hc => ?_) (Or.inl rfl) m ?_
  · obtain ⟨c', _, rfl⟩ := List.mem_map.1 hc
    rfl
  · obtain ⟨c, hc, hcne⟩ := hne
    have hmem : ∃ p, p ∈ mergeEntries (AnyC.fdata c₀ :: cs.map AnyC.fdata) m := by
      obtain ⟨i, hi, rfl⟩ := List.mem_iff_getElem.1 hc
      have hne' : shown (.fdata (c₀ :: cs)[i]) ≠ [] := by
        intro h
        apply hcne
        simpa [shown, FDataContainer.getKeys, Dict.keys] using h
      obtain ⟨kv, l, hl⟩ := List.exists_cons_of_ne_nil hne'
      refine ⟨(m kv.1 i, kv.2), List.mem_flatMap.2 ⟨(.fdata (c₀ :: cs)[i], i), ?_, ?_⟩⟩
      · rw [List.mem_zipIdx_iff_getElem?, ← List.map_cons (f := AnyC.fdata), List.getElem?_map,
          List.getElem?_eq_getElem hi]
        rfl
      · exact List.mem_map.2 ⟨kv, by simp only; rw [hl]; exact List.mem_cons_self, rfl⟩
    obtain ⟨p, hp⟩ := hmem
    have hkey : p.1 ∈ Dict.keys (Dict.ofPairs (mergeEntries (AnyC.fdata c₀ :: cs.map AnyC.fdata) m)) := by
      rw [Dict.mem_keys_ofPairs]
      exact List.mem_map.2 ⟨p, hp, rfl⟩
    obtain ⟨v, hv⟩ := Dict.mem_keys.1 hkey
    refine ⟨p.1, v, lastAt_ofPairs.1 hv, ?_⟩
    obtain ⟨pre, post, e, _⟩ := lastAt_ofPairs.1 hv
    obtain ⟨c', hc', k', i, h1, _⟩ := mem_mergeEntries (p := (p.1, v)) (by rw [e]; simp)
    rw [← List.map_cons (f := AnyC.fdata)] at hc'
    obtain ⟨c'', hc'', rfl⟩ := List.mem_map.1 hc'
    obtain ⟨it, hit, he⟩ := List.mem_map.1 h1
    have hl := (hr c'' hc'').1.good.len it hit
    have hM := (hr c'' hc'').2
    simp only [Prod.mk.injEq] at he
    rw [← he.2]
    show ¬ (it.2.length = 33)
    unfold FDataContainer.getM at hM
    omega

/-! ### The hypotheses can be met -/

/-- Two containers with the same combination: the last one wins. -/
example : ∃ r, mergeContainers Sympy.plain [.form ⟨[(kPP, .num 1)]⟩, .form ⟨[(kPP, .num 2), (kPS, .num 3)]⟩]
    (fun k _ => .str k) = .ok r ∧ (kPP, .expr (.num 2)) ∈ shown r ∧ (shown r).map Prod.fst = [kPP, kPS] := by
  have hr : ∀ c ∈ [AnyC.form ⟨[(kPP, .num 1)]⟩, .form ⟨[(kPP, .num 2), (kPS, .num 3)]⟩],
      c.Reachable Sympy.plain ∧ Mergeable c := by
    intro c hc
    simp only [List.mem_cons, List.not_mem_nil, or_false] at hc
    rcases hc with rfl | rfl
    · exact ⟨⟨[(.str kPP, .sy (.num 1))], _, [], rfl, rfl⟩, trivial⟩
    · exact ⟨⟨[(.str kPP, .sy (.num 2)), (.str kPS, .sy (.num 3))], _, [], rfl, rfl⟩, trivial⟩
  obtain ⟨r, h1, _, _, _, h5, h6⟩ := C34_merge Sympy.plain (c₀ := .form ⟨[(kPP, .num 1)]⟩)
    (cs := [.form ⟨[(kPP, .num 2), (kPS, .num 3)]⟩]) (by simp [AnyC.kind]) hr (fun k _ => k)
  refine ⟨r, h1, (h6 _ _).2 ⟨[(kPP, .expr (.num 1))], [(kPS, .expr (.num 3))], rfl, by decide +revert⟩, ?_⟩
  rw [h5]
  rfl

/-- An injective mapping. -/
example : ∀ k i k' i', List.replicate i 'x' ++ '#' :: k = List.replicate i' 'x' ++ '#' :: k' → k = k' ∧ i = i' := by
  intro k i
  induction i with
  | zero =>
    intro k' i' h
    cases i' with
    | zero => simpa using h
    | succ i' => simp [List.replicate_succ] at h
  | succ i ih =>
    intro k' i' h
    cases i' with
    | zero => simp [List.replicate_succ] at h
    | succ i' =>
      simp only [List.replicate_succ, List.cons_append, List.cons.injEq, true_and] at h
      obtain ⟨h1, h2⟩ := ih k' i' h
      exact ⟨h1, by omega⟩

/-- A container with `M = 1`. -/
example : ∃ c : FDataContainer, c.Reachable ∧ c.getM ≠ 16 ∧ c.getKeys ≠ [] := by
  have hi := FDataContainer.init_items (d := [(kPP, [0, 1, 0])]) (M := 1) .complex128 (Or.inr rfl)
    (by simp [Dict.WF, Dict.keys]) (by simp)
  exact ⟨_, ⟨_, _, _, [], hi, rfl⟩, by decide, by simp [FDataContainer.run, FDataContainer.getKeys, Dict.keys]⟩

end Shgpy
