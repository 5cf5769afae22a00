import Verif.Proofs.Coerce

/-! More lemmas for the construction properties. -/

set_option linter.unusedSectionVars false

namespace Shgpy
open Spec

variable {K : Type} [Field K] [LinearOrder K] [IsStrictOrderedRing K] [FloorRing K] [HasPi K]

theorem keys_ofPairs {κ α : Type} [DecidableEq κ] (l : List (κ × α)) :
    Dict.keys (Dict.ofPairs l) = firstOcc (l.map Prod.fst) := by
  have aux : ∀ (l : List (κ × α)) (d : Dict κ α),
      Dict.keys (l.foldl (fun d p => Dict.set d p.1 p.2) d)
        = Dict.keys d ++ (firstOcc (l.map Prod.fst)).filter (fun k => k ∉ Dict.keys d) := by
    intro l
    induction l with
    | nil => intro d; simp [firstOcc]
    | cons p l ih =>
      intro d
      rw [List.foldl_cons, ih, Dict.keys_set]
      simp only [List.map_cons, firstOcc, List.filter_cons]
      by_cases hp : p.1 ∈ Dict.keys d
      · simp only [hp, if_true, not_true, decide_false, List.filter_filter]
        simp only [Bool.false_eq_true, if_false]
        congr 1
        apply List.filter_congr
        intro k _
        by_cases hk : k = p.1
        · subst hk; simp [hp]
        · simp [hk]
      · simp only [hp, if_false, not_false_eq_true, decide_true, if_true, List.append_assoc,
          List.filter_filter, List.singleton_append]
        congr 2
        apply List.filter_congr
        intro k _
        simp only [List.mem_append, List.mem_singleton, not_or, ne_eq, Bool.decide_and]
  simpa [Dict.ofPairs] using aux l []

/-- What `getPc` returns in radians. -/
theorem getPc_radians (c : DataContainer K) (k : Key) : c.getPc k sRadians = Dict.get c.data k := by
  rfl

theorem getItems_radians (c : DataContainer K) : c.getItems sRadians = .ok c.data := by
  rfl

/-- The validated array in radians. -/
def radArr (units : Key) (v : NArr K) : NArr K :=
  if units = sDegrees then ⟨false, v.pts.map (fun p => (deg2rad p.1, p.2))⟩ else v

theorem radDict_eq (units : Key) (d : Dict Key (NArr K)) :
    radDict units d = d.mapVals (radArr units) := by
  unfold radDict radArr
  by_cases hu : units = sDegrees
  · simp [hu, toRadians]
  · simp [hu]

/-- The validated array in radians of a raw value. -/
def xyArr (units : Key) (dt : DType) (xs ys : List K) : NArr K :=
  ⟨decide (dt = .int ∧ units ≠ sDegrees), (xs.zip ys).map (fun p => (rad units p.1, p.2))⟩

theorem radArr_of_isXY {units : Key} {v : RawVal K} {a : NArr K} {dt : DType} {xs ys : List K}
    (h : checkVal v = some a) (hv : IsXY v dt xs ys) : radArr units a = xyArr units dt xs ys := by
  obtain ⟨rest, rfl, hl, hd⟩ := hv
  simp only [checkVal, hl, hd, ne_eq, not_false_eq_true, and_self, if_true, Option.some.injEq] at h
  subst h
  unfold radArr xyArr rad
  by_cases hu : units = sDegrees
  · simp [hu, deg2rad]
  · simp [hu]

/-- `checkIterable` succeeds exactly on dictionaries with string keys and two-row values. -/
theorem checkIterable_ok_iff {d : Dict RawKey (RawVal K)} :
    (∃ d', checkIterable d = .ok d') ↔
      ∀ k v, (k, v) ∈ d → (∃ s, k = RawKey.str s) ∧ ∃ dt xs ys, IsXY v dt xs ys := by
  constructor
  · rintro ⟨d', h⟩ k v hkv
    have := checkIterable_ok h
    obtain ⟨q, hq1, hq2, hq3⟩ : ∃ q ∈ d', (k = .str q.1 ∧ checkVal v = some q.2) := by
      clear h
      induction this with
      | nil => simp at hkv
      | cons hpq _ ih =>
        rcases List.mem_cons.1 hkv with rfl | hkv
        · exact ⟨_, List.mem_cons_self, hpq⟩
        · obtain ⟨q, hq, hh⟩ := ih hkv
          exact ⟨q, List.mem_cons_of_mem _ hq, hh⟩
    refine ⟨⟨q.1, hq2⟩, ?_⟩
    obtain ⟨dt, xs, ys, rest, h1, h2, h3, _⟩ := checkVal_some.1 hq3
    exact ⟨dt, xs, ys, rest, h1, h2, h3⟩
  · intro h
    apply checkIterable_of_forall
    rintro ⟨k, v⟩ hkv
    obtain ⟨⟨s, hs⟩, dt, xs, ys, rest, h1, h2, h3⟩ := h k v hkv
    exact ⟨s, _, hs, checkVal_some.2 ⟨dt, xs, ys, rest, h1, h2, h3, rfl⟩⟩

/-- Matching items of the raw and of the validated dictionary. -/
theorem forall₂_mem_left {α β : Type} {R : α → β → Prop} {l : List α} {l' : List β}
    (h : List.Forall₂ R l l') {a : α} (ha : a ∈ l) : ∃ b ∈ l', R a b := by
  induction h with
  | nil => simp at ha
  | cons hpq _ ih =>
    rcases List.mem_cons.1 ha with rfl | ha
    · exact ⟨_, List.mem_cons_self, hpq⟩
    · obtain ⟨q, hq, hh⟩ := ih ha
      exact ⟨q, List.mem_cons_of_mem _ hq, hh⟩

theorem forall₂_mem_right {α β : Type} {R : α → β → Prop} {l : List α} {l' : List β}
    (h : List.Forall₂ R l l') {b : β} (hb : b ∈ l') : ∃ a ∈ l, R a b := by
  induction h with
  | nil => simp at hb
  | cons hpq _ ih =>
    rcases List.mem_cons.1 hb with rfl | hb
    · exact ⟨_, List.mem_cons_self, hpq⟩
    · obtain ⟨q, hq, hh⟩ := ih hb
      exact ⟨q, List.mem_cons_of_mem _ hq, hh⟩

theorem keys_checkIterable {d : Dict RawKey (RawVal K)} {d' : Dict Key (NArr K)}
    (h : checkIterable d = .ok d') : (Dict.keys d').map RawKey.str = Dict.keys d := by
  have := checkIterable_ok h
  clear h
  induction this with
  | nil => rfl
  | cons hpq _ ih => simp only [Dict.keys_cons, List.map_cons, ih, hpq.1]

theorem WF_checkIterable {d : Dict RawKey (RawVal K)} {d' : Dict Key (NArr K)}
    (h : checkIterable d = .ok d') (hd : Dict.WF d) : Dict.WF d' := by
  unfold Dict.WF at *
  rw [← keys_checkIterable h] at hd
  exact hd.of_map _

/-- The points of a float array end up in the container up to reduction and order. -/
theorem finalPts_matched {v : NArr K} (h : v.isInt = false) :
    Matched (fun p q : K × K => AngleEq q.1 p.1 ∧ q.2 = p.2) (dedupFrom [] v.pts) (finalPts v) := by
  refine ⟨_, ?_, sortPts_perm _⟩
  rw [List.forall₂_map_right_iff, List.forall₂_same]
  intro p _
  rw [h]
  exact ⟨pmod_angleEq _, rfl⟩

/-- Result of a successful constructor call. -/
theorem init_ok {iter : List (RawKey × RawVal K)} {units : Key} {b : Bool} {c : DataContainer K}
    {w : List Key} (h : DataContainer.init iter units b = .ok (c, w)) :
    (units = sRadians ∨ units = sDegrees) ∧
    ∃ d d', checkIterable (Dict.ofPairs iter) = .ok d ∧
      (if b then coerceOblique (radDict units d) else .ok (radDict units d)) = .ok d' ∧
      (∀ p ∈ d', p.2.pts ≠ []) ∧ c = ⟨d'.mapVals finalPts, 1, 0, some 0, b, units⟩ ∧
      w = duplicateWarnings d' := by
  rw [init_eq] at h
  split at h
  · next hu =>
    refine ⟨hu, ?_⟩
    cases hc : checkIterable (Dict.ofPairs iter) with
    | error e => rw [hc] at h; cases h
    | ok d =>
      rw [hc] at h
      simp only at h
      cases hd : (if b then coerceOblique (radDict units d) else .ok (radDict units d)) with
      | error e => rw [hd] at h; cases h
      | ok d' =>
        rw [hd] at h
        simp only at h
        split at h
        · next hne =>
          cases h
          exact ⟨d, d', rfl, hd, hne, rfl, rfl⟩
        · cases h
  · cases h

theorem mem_duplicateWarnings {d : Dict Key (NArr K)} (hd : Dict.WF d) {k : Key} {v : NArr K}
    (hk : (k, v) ∈ d) : k ∈ duplicateWarnings d ↔ (dedupFrom [] v.pts).length < v.pts.length := by
  have hle := (dedup_sublist v.pts).length_le
  unfold duplicateWarnings
  rw [List.mem_map]
  constructor
  · rintro ⟨⟨k', v'⟩, hm, rfl⟩
    rw [List.mem_filter] at hm
    have : v' = v := by
      have h1 := (Dict.get?_eq_some_iff hd).2 hm.1
      have h2 := (Dict.get?_eq_some_iff hd).2 hk
      rw [h1] at h2
      exact Option.some.inj h2
    subst this
    have := hm.2
    simp only [bne_iff_ne, ne_eq] at this
    omega
  · intro h
    refine ⟨(k, v), List.mem_filter.2 ⟨hk, ?_⟩, rfl⟩
    simp only [bne_iff_ne, ne_eq]
    omega

theorem get_of_mem {α : Type} {d : Dict Key α} (hd : Dict.WF d) {k : Key} {v : α} (h : (k, v) ∈ d) :
    Dict.get d k = .ok v := Dict.get_ok_iff.2 ((Dict.get?_eq_some_iff hd).2 h)

theorem WF_mapVals {κ α β : Type} [DecidableEq κ] {f : α → β} {d : Dict κ α} :
    Dict.WF (d.mapVals f) ↔ Dict.WF d := by
  unfold Dict.WF
  rw [Dict.keys_mapVals]

/-- The dictionary of a container built without `normal_to_oblique`. -/
theorem init_plain {iter : List (RawKey × RawVal K)} {units : Key} {c : DataContainer K}
    {w : List Key} (h : DataContainer.init iter units false = .ok (c, w)) :
    c.getKeys.map RawKey.str = firstOcc (iter.map Prod.fst) ∧
    ∀ k v dt xs ys, (RawKey.str k, v) ∈ Dict.ofPairs iter → IsXY v dt xs ys →
      c.getPc k sRadians = .ok (finalPts (xyArr units dt xs ys)) ∧
      (k ∈ w ↔ (dedupFrom [] (xyArr units dt xs ys).pts).length < (xyArr units dt xs ys).pts.length) := by
  obtain ⟨_, d, d', hd, hd', _, rfl, rfl⟩ := init_ok h
  simp only [Bool.false_eq_true, if_false, Except.ok.injEq] at hd'
  subst hd'
  have hwf : Dict.WF d := WF_checkIterable hd (Dict.WF_ofPairs _)
  constructor
  · unfold DataContainer.getKeys
    rw [radDict_eq, Dict.keys_mapVals, Dict.keys_mapVals, keys_checkIterable hd, keys_ofPairs]
  · intro k v dt xs ys hk hv
    obtain ⟨⟨k', a⟩, hq, hk', ha⟩ := forall₂_mem_left (checkIterable_ok hd) hk
    simp only [RawKey.str.injEq] at hk' ha
    subst hk'
    have hr := radArr_of_isXY (units := units) ha hv
    have hm : (k, xyArr units dt xs ys) ∈ radDict units d := by
      rw [radDict_eq, Dict.mem_mapVals]
      exact ⟨a, hq, hr⟩
    have hwf' : Dict.WF (radDict units d) := by rw [radDict_eq, WF_mapVals]; exact hwf
    constructor
    · rw [getPc_radians]
      exact get_of_mem (WF_mapVals.2 hwf') (Dict.mem_mapVals.2 ⟨_, hm, rfl⟩)
    · exact mem_duplicateWarnings hwf' hm

/-! ### Key collisions under `normal_to_oblique` -/

theorem mem_ofPairs_iff {κ α : Type} [DecidableEq κ] (l : List (κ × α)) (k : κ) (v : α) :
    (k, v) ∈ Dict.ofPairs l ↔ ∃ pre post, l = pre ++ (k, v) :: post ∧ k ∉ post.map Prod.fst := by
  rw [← Dict.get?_eq_some_iff (Dict.WF_ofPairs l), Dict.get?_ofPairs]
  constructor
  · intro h
    induction l with
    | nil => simp at h
    | cons p l ih =>
      rw [List.filter_cons] at h
      by_cases hl : k ∈ l.map Prod.fst
      · have : ∃ q r, List.filter (fun p : κ × α => decide (p.1 = k)) l = q :: r := by
          obtain ⟨q, hq, hk⟩ := List.mem_map.1 hl
          cases hf : List.filter (fun p : κ × α => decide (p.1 = k)) l with
          | nil => rw [List.filter_eq_nil_iff] at hf; exact absurd hk (by simpa using hf q hq)
          | cons q r => exact ⟨q, r, rfl⟩
        obtain ⟨q, r, hqr⟩ := this
        have h' : ((List.filter (fun p : κ × α => decide (p.1 = k)) l).getLast?.map Prod.snd) = some v := by
          rw [hqr] at h ⊢
          split at h
          · simpa using h
          · exact h
        obtain ⟨pre, post, rfl, hp⟩ := ih h'
        exact ⟨p :: pre, post, rfl, hp⟩
      · have hf : List.filter (fun p : κ × α => decide (p.1 = k)) l = [] := by
          rw [List.filter_eq_nil_iff]
          intro q hq
          simp only [decide_eq_true_eq]
          intro hqk
          exact hl (List.mem_map.2 ⟨q, hq, hqk⟩)
        rw [hf] at h
        split at h
        · next hk =>
          simp only [decide_eq_true_eq] at hk
          simp only [List.getLast?_singleton, Option.map_some, Option.some.injEq] at h
          obtain ⟨pk, pv⟩ := p
          simp only at hk h
          subst hk h
          exact ⟨[], l, rfl, hl⟩
        · simp at h
  · rintro ⟨pre, post, rfl, hp⟩
    have hf : List.filter (fun p : κ × α => decide (p.1 = k)) post = [] := by
      rw [List.filter_eq_nil_iff]
      intro q hq
      simp only [decide_eq_true_eq]
      intro hqk
      exact hp (List.mem_map.2 ⟨q, hq, hqk⟩)
    simp [List.filter_append, hf]

theorem forall₂_split_left {α β : Type} {R : α → β → Prop} {pre : List α} {a : α} {post : List α}
    {l' : List β} (h : List.Forall₂ R (pre ++ a :: post) l') :
    ∃ pre' b post', l' = pre' ++ b :: post' ∧ R a b ∧ List.Forall₂ R post post' := by
  induction pre generalizing l' with
  | nil =>
    cases h with
    | cons hab ht => exact ⟨[], _, _, rfl, hab, ht⟩
  | cons p pre ih =>
    cases h with
    | cons hab ht =>
      obtain ⟨pre', b, post', rfl, h1, h2⟩ := ih ht
      exact ⟨_ :: pre', b, post', rfl, h1, h2⟩

theorem forall₂_split_right {α β : Type} {R : α → β → Prop} {pre' : List β} {b : β} {post' : List β}
    {l : List α} (h : List.Forall₂ R l (pre' ++ b :: post')) :
    ∃ pre a post, l = pre ++ a :: post ∧ R a b ∧ List.Forall₂ R post post' := by
  induction pre' generalizing l with
  | nil =>
    cases h with
    | cons hab ht => exact ⟨[], _, _, rfl, hab, ht⟩
  | cons p pre ih =>
    cases h with
    | cons hab ht =>
      obtain ⟨pre', b, post', rfl, h1, h2⟩ := ih ht
      exact ⟨_ :: pre', b, post', rfl, h1, h2⟩

theorem pcs_eq {d : Dict RawKey (RawVal K)} {d' : Dict Key (NArr K)}
    (h : List.Forall₂ (fun p q => p.1 = RawKey.str q.1 ∧ checkVal p.2 = some q.2) d d') :
    pcs d = (Dict.keys d').map normKey := by
  induction h with
  | nil => rfl
  | @cons p q l l' hpq ht ih =>
    obtain ⟨k, v⟩ := p
    obtain ⟨hk, _⟩ := hpq
    simp only at hk
    subst hk
    rw [Dict.keys_cons, List.map_cons, ← ih]
    rfl

theorem mem_renamed {d : Dict RawKey (RawVal K)} {d' : Dict Key (NArr K)} (units : Key)
    (h : checkIterable d = .ok d') (X : Key) (u : NArr K) :
    (X, u) ∈ renamed (radDict units d') ↔
      ∃ k v a, pcOf k = X ∧ LastFor d k v ∧ checkVal v = some a ∧ radArr units a = u := by
  have hf := checkIterable_ok h
  unfold renamed
  rw [mem_ofPairs_iff, radDict_eq]
  have hk : ∀ d'' : Dict Key (NArr K), List.map Prod.fst
      (List.map (fun p : Key × NArr K => (normKey p.1, p.2)) (Dict.mapVals (radArr units) d''))
        = (Dict.keys d'').map normKey := by
    intro d''
    simp [Dict.mapVals, Dict.keys, Function.comp_def]
  constructor
  · rintro ⟨pre, post, he, hp⟩
    rw [Dict.mapVals, List.map_map, List.map_eq_append_iff] at he
    obtain ⟨l₁, l₂, rfl, _, h2⟩ := he
    rw [List.map_eq_cons_iff] at h2
    obtain ⟨⟨k, a⟩, post', rfl, h3, rfl⟩ := h2
    obtain ⟨pre₀, ⟨k₀, v⟩, post₀, rfl, ⟨h4, h5⟩, h6⟩ := forall₂_split_right hf
    simp only [Function.comp, Prod.mk.injEq] at h3 h4 h5
    subst h4
    refine ⟨k, v, a, h3.1, ⟨pre₀, post₀, rfl, ?_⟩, h5, h3.2⟩
    rw [pcs_eq h6]
    have hX : pcOf k = X := h3.1
    rw [hX]
    simpa [Dict.keys, Function.comp_def] using hp
  · rintro ⟨k, v, a, rfl, ⟨pre, post, rfl, hp⟩, ha, rfl⟩
    obtain ⟨pre', ⟨k', a'⟩, post', rfl, ⟨h1, h2⟩, h3⟩ := forall₂_split_left hf
    simp only [RawKey.str.injEq] at h1 h2
    subst h1
    rw [ha] at h2
    cases h2
    refine ⟨List.map (fun p : Key × NArr K => (normKey p.1, p.2)) (Dict.mapVals (radArr units) pre'),
      List.map (fun p : Key × NArr K => (normKey p.1, p.2)) (Dict.mapVals (radArr units) post'), ?_, ?_⟩
    · simp [Dict.mapVals, normKey, pcOf, upper]
    · rw [hk, ← pcs_eq h3]
      exact hp

theorem xyArr_pts_eq_nil {units : Key} {dt : DType} {xs ys : List K} (h : xs.length = ys.length) :
    (xyArr units dt xs ys).pts = [] ↔ xs = [] := by
  unfold xyArr
  simp only [List.map_eq_nil_iff, List.zip_eq_nil_iff]
  constructor
  · rintro (rfl | rfl)
    · rfl
    · simpa using h
  · rintro rfl; exact Or.inl rfl

theorem rot90_pts_eq_nil {v : NArr K} : (rot90 v).pts = [] ↔ v.pts = [] := by
  simp [rot90]

end Shgpy
