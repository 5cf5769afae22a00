import Verif.Spec.SameMeasurement
import Verif.Props.DataInit
import Verif.Props.MergeConvert
import Verif.Model.FitExample

/-!
# Property C125: how a measurement is written does not matter
-/

set_option linter.unusedSectionVars false
set_option linter.unusedSimpArgs false
set_option linter.unusedVariables false

namespace Shgpy
open Spec

variable {K : Type} [Field K] [LinearOrder K] [IsStrictOrderedRing K] [FloorRing K] [HasPi K]

/-! ### Normal forms are unique -/

theorem normalForm_unique {a b : List (K × K)} (ha : NormalForm a) (hb : NormalForm b)
    (hm : Matched (fun p q => AngleEq q.1 p.1 ∧ q.2 = p.2) a b) (hd : (a.map Prod.fst).Nodup) : a = b := by
  obtain ⟨m, h1, h2⟩ := hm
  have hmt : ∀ p ∈ m, InTurn p.1 := fun p hp => hb.2.1 p (h2.mem_iff.2 hp)
  have : a = m := by
    have h3 : List.Forall₂ (fun p q : K × K => p = q) a m := by
      clear h2 hd
      replace ha := ha.2.1
      induction h1 with
      | nil => exact .nil
      | cons h _ ih =>
        refine .cons ?_ (ih (fun p hp => hmt p (List.mem_cons_of_mem _ hp)) (fun p hp => ha p (List.mem_cons_of_mem _ hp)))
        have := InTurn.eq_of_angleEq (hmt _ List.mem_cons_self) (ha _ List.mem_cons_self) h.1
        exact Prod.ext this.symm h.2.symm
    exact List.forall₂_eq_eq_eq ▸ h3
  subst this
  exact eq_of_perm_sorted h2.symm ha.2.2 hb.2.2 hd

theorem distinct_matched {α : Type} {f : α → K} {a : List α} {b : List (K × K)}
    (hm : Matched (fun p q => AngleEq q.1 (f p) ) a b) (hd : a.Pairwise (fun p q => ¬ AngleEq (f p) (f q))) :
    (b.map Prod.fst).Nodup := by
  obtain ⟨m, h1, h2⟩ := hm
  have h3 : m.Pairwise (fun p q => ¬ AngleEq p.1 q.1) := by
    clear h2
    induction h1 with
    | nil => exact .nil
    | cons h hr ih =>
      rw [List.pairwise_cons] at hd ⊢
      refine ⟨fun q hq => ?_, ih hd.2⟩
      obtain ⟨p, hp, hpq⟩ := forall₂_mem_right hr hq
      intro hc
      exact hd.1 p hp (h.symm.trans (hc.trans hpq))
  rw [(h2.map Prod.fst).nodup_iff, List.Nodup, List.pairwise_map]
  exact h3.imp (fun {p q} h e => h (by rw [e]; exact AngleEq.refl _))

theorem Spec.Matched.symm' {α β : Type} {R : α → β → Prop} {a : List α} {b : List β} (h : Matched R a b) :
    Matched (fun q p => R p q) b a := by
  obtain ⟨m, h1, h2⟩ := h
  have h1' : List.Forall₂ (fun q p => R p q) m a := List.Forall₂.flip h1
  obtain ⟨l, h3, h4⟩ := List.perm_comp_forall₂ h2 h1'
  exact ⟨l, h3, h4.symm⟩

/-- The stored points of two arrays with the same points. -/
theorem same_stored {u u' : Key} {l l' pts pts' : List (K × K)} (hn : NormalForm pts) (hn' : NormalForm pts')
    (h : Matched (fun p q => AngleEq q.1 (rad u p.1) ∧ q.2 = p.2) l pts)
    (h' : Matched (fun p q => AngleEq q.1 (rad u' p.1) ∧ q.2 = p.2) l' pts')
    (hs : Matched (fun p q => AngleEq (rad u p.1) (rad u' q.1) ∧ q.2 = p.2) l l')
    (hd : DistinctAngles (l.map (fun p => (rad u p.1, p.2)))) : pts = pts' := by
  apply normalForm_unique hn hn'
  · have h1 := Matched.trans (T := fun (q : K × K) (p' : K × K) => AngleEq q.1 (rad u' p'.1) ∧ q.2 = p'.2)
      (fun a b c hab hbc => ⟨hab.1.trans hbc.1, hab.2.trans hbc.2.symm⟩) h.symm' hs
    exact Matched.trans (fun a b c hab hbc => ⟨hbc.1.trans hab.1.symm, hbc.2.trans hab.2.symm⟩) h1 h'
  · apply distinct_matched (f := fun p : K × K => rad u p.1) (h.mono (fun _ _ h => h.1))
    simpa [DistinctAngles, List.pairwise_map] using hd

theorem distinct_other {u u' : Key} {l l' : List (K × K)}
    (hs : Matched (fun p q => AngleEq (rad u p.1) (rad u' q.1) ∧ q.2 = p.2) l l')
    (hd : DistinctAngles (l.map (fun p => (rad u p.1, p.2)))) : DistinctAngles (l'.map (fun p => (rad u' p.1, p.2))) := by
  obtain ⟨m, h1, h2⟩ := hs
  unfold DistinctAngles at *
  rw [List.pairwise_map] at *
  have h3 : m.Pairwise (fun p q => ¬ AngleEq (rad u' p.1) (rad u' q.1)) := by
    clear h2
    induction h1 with
    | nil => exact .nil
    | cons h hr ih =>
      rw [List.pairwise_cons] at hd ⊢
      refine ⟨fun q hq => ?_, ih hd.2⟩
      obtain ⟨p, hp, hpq⟩ := forall₂_mem_right hr hq
      intro hc
      exact hd.1 p hp (h.1.trans (hc.trans hpq.1.symm))
  exact h2.symm.pairwise h3 (fun h e => h e.symm)

theorem Spec.SameArray.symm {u u' : Key} {v v' : RawVal K} (h : SameArray u u' v v') : SameArray u' u v' v := by
  obtain ⟨xs, ys, xs', ys', h1, h2, h3, h4⟩ := h
  exact ⟨xs', ys', xs, ys, h2, h1, h3.symm'.mono (fun _ _ h => ⟨h.1.symm, h.2.symm⟩), distinct_other h3 h4⟩

theorem Spec.SameMeasurement.symm {u u' : Key} {d d' : Dict RawKey (RawVal K)} (hd : Dict.WF d) (hd' : Dict.WF d')
    (h : SameMeasurement u u' d d') : SameMeasurement u' u d' d := by
  obtain ⟨h1, h2, h3, h4⟩ := h
  refine ⟨h2, h1, fun k v' hk => ?_, fun k v hk => ?_⟩
  · obtain ⟨v, hv⟩ := h4 k v' hk
    obtain ⟨hs, v'', hv'', h5⟩ := h3 k v hv
    have : v'' = v' := by
      have e1 := (Dict.get?_eq_some_iff hd').2 hv''
      have e2 := (Dict.get?_eq_some_iff hd').2 hk
      rw [e1] at e2
      exact Option.some.inj e2
    subst this
    exact ⟨hs, v, hv, h5.symm⟩
  · obtain ⟨_, v', hv', _⟩ := h3 k v hk
    exact ⟨v', hv'⟩

theorem isXY_unique {v : RawVal K} {dt dt' : DType} {xs ys xs' ys' : List K} (h : IsXY v dt xs ys) (h' : IsXY v dt' xs' ys') :
    dt = dt' ∧ xs = xs' ∧ ys = ys' := by
  obtain ⟨r, rfl, -, -⟩ := h
  obtain ⟨r', e, -, -⟩ := h'
  simp only [RawVal.arr2.injEq, List.cons.injEq] at e
  exact ⟨e.1, e.2.1, e.2.2.1⟩

theorem Spec.SameMeasurement.mem_pcs {u u' : Key} {d d' : Dict RawKey (RawVal K)} (h : SameMeasurement u u' d d') (x : Key)
    (hx : x ∈ pcs d) : x ∈ pcs d' := by
  unfold pcs at *
  rw [List.mem_filterMap] at *
  obtain ⟨⟨k, v⟩, hk, e⟩ := hx
  obtain ⟨_, v', hv', _⟩ := h.2.2.1 k v hk
  exact ⟨(k, v'), hv', e⟩

theorem lastFor_mem {d : Dict RawKey (RawVal K)} {k : Key} {v : RawVal K} (h : LastFor d k v) : (RawKey.str k, v) ∈ d := by
  obtain ⟨pre, post, rfl, _⟩ := h
  simp

theorem Spec.SameMeasurement.acceptable {u u' : Key} {d d' : Dict RawKey (RawVal K)} (hd : Dict.WF d) (hd' : Dict.WF d')
    (h : SameMeasurement u u' d d') {b : Bool} (hpc : b = true → (pcs d).Nodup) (ha : Acceptable d u b) : Acceptable d' u' b := by
  have h' := h.symm hd hd'
  have hempty : (∀ k v dt xs ys, (k, v) ∈ d → IsXY v dt xs ys → xs ≠ []) →
      ∀ k v dt xs ys, (k, v) ∈ d' → IsXY v dt xs ys → xs ≠ [] := by
    intro hne k v' dt xs' ys' hk hxy e
    obtain ⟨_, v, hv, xs₁, ys₁, xs₂, ys₂, i1, i2, m, _⟩ := h'.2.2.1 k v' hk
    obtain ⟨_, rfl, rfl⟩ := isXY_unique i1 hxy
    subst e
    obtain ⟨_, m1, m2⟩ := m
    cases m1
    have hl : xs₂.length = ys₂.length := i2.choose_spec.2.1
    have h0 : xs₂.zip ys₂ = [] := m2.eq_nil
    apply hne k v _ xs₂ ys₂ hv i2
    have := congrArg List.length h0
    simp [hl] at this
    rw [← List.length_eq_zero_iff, hl, this]; rfl
  refine ⟨h.2.1, ?_, ?_⟩
  · intro k v' hk
    obtain ⟨hs, v, hv, xs, ys, xs', ys', i1, i2, -, -⟩ := h'.2.2.1 k v' hk
    exact ⟨hs, _, _, _, i1⟩
  · cases b with
    | false =>
      have := ha.2.2
      simp only [Bool.false_eq_true, if_false] at this ⊢
      exact hempty this
    | true =>
      have := ha.2.2
      simp only [if_true] at this ⊢
      have hiff : ∀ x, x ∈ pcs d' ↔ x ∈ pcs d := fun x => ⟨h'.mem_pcs x, h.mem_pcs x⟩
      refine ⟨?_, ?_⟩
      · have ho := this.1
        unfold ObliqueKeys at ho ⊢
        simpa only [hiff] using ho
      · have hall : ∀ k v dt xs ys, (k, v) ∈ d → IsXY v dt xs ys → xs ≠ [] := by
          intro k v dt xs ys hk hxy
          obtain ⟨⟨s, rfl⟩, _⟩ := h.2.2.1 k v hk
          refine this.2 s v dt xs ys ?_ hxy
          obtain ⟨pre, post, e⟩ := List.append_of_mem hk
          refine ⟨pre, post, e, ?_⟩
          have hn := hpc rfl
          rw [e] at hn
          unfold pcs at hn ⊢
          rw [List.filterMap_append, List.filterMap_cons, List.nodup_append] at hn
          simp only [List.nodup_cons] at hn
          exact hn.2.1.1
        intro k v dt xs ys hk hxy
        exact hempty hall (.str k) v dt xs ys (lastFor_mem hk) hxy

theorem init_normalForm {iter : List (RawKey × RawVal K)} {units : Key} {b : Bool} {c : DataContainer K} {w : List Key}
    (h : DataContainer.init iter units b = .ok (c, w)) {k : Key} {pts : List (K × K)} (hk : c.getPc k sRadians = .ok pts) :
    NormalForm pts := by
  obtain ⟨items, h1, -, -, h4⟩ := C01_construction_normal_form h
  rw [getItems_radians] at h1
  cases h1
  rw [getPc_radians] at hk
  exact h4 k pts (Dict.mem_of_get? (Dict.get_ok_iff.1 hk))

theorem lastFor_of_nodup {d : Dict RawKey (RawVal K)} (hn : (pcs d).Nodup) {k : Key} {v : RawVal K} (h : (RawKey.str k, v) ∈ d) :
    LastFor d k v := by
  obtain ⟨pre, post, e⟩ := List.append_of_mem h
  refine ⟨pre, post, e, ?_⟩
  rw [e] at hn
  unfold pcs at hn ⊢
  rw [List.filterMap_append, List.filterMap_cons, List.nodup_append] at hn
  simp only [List.nodup_cons] at hn
  exact hn.2.1.1

theorem pcs_keys (d : Dict RawKey (RawVal K)) :
    pcs d = (Dict.keys d).filterMap (fun k => match k with | .str s => some (pcOf s) | .other _ => none) := by
  unfold pcs Dict.keys
  rw [List.filterMap_map]
  rfl

theorem Spec.SameMeasurement.nodup_pcs {u u' : Key} {d d' : Dict RawKey (RawVal K)} (hd : Dict.WF d) (hd' : Dict.WF d')
    (h : SameMeasurement u u' d d') (hn : (pcs d).Nodup) : (pcs d').Nodup := by
  have hp : (Dict.keys d).Perm (Dict.keys d') := by
    rw [List.perm_ext_iff_of_nodup hd hd']
    intro k
    rw [Dict.mem_keys, Dict.mem_keys]
    constructor
    · rintro ⟨v, hv⟩
      obtain ⟨_, v', hv', _⟩ := h.2.2.1 k v hv
      exact ⟨v', hv'⟩
    · rintro ⟨v', hv'⟩
      exact h.2.2.2 k v' hv'
  rw [pcs_keys] at hn ⊢
  exact (hp.filterMap _).nodup_iff.1 hn

/-- What one container holds, the other holds too. -/
theorem same_one {iter iter' : List (RawKey × RawVal K)} {u u' : Key} {b : Bool} {c c' : DataContainer K} {w w' : List Key}
    (h : SameMeasurement u u' (Dict.ofPairs iter) (Dict.ofPairs iter')) (hpc : b = true → (pcs (Dict.ofPairs iter)).Nodup)
    (hc : DataContainer.init iter u b = .ok (c, w)) (hc' : DataContainer.init iter' u' b = .ok (c', w'))
    {k : Key} {pts : List (K × K)} (hk : c.getPc k sRadians = .ok pts) : c'.getPc k sRadians = .ok pts := by
  have hwf := Dict.WF_ofPairs iter
  have hwf' := Dict.WF_ofPairs iter'
  have hkey : k ∈ c.getKeys := by
    rw [getPc_radians] at hk
    exact Dict.mem_keys_of_mem (Dict.mem_of_get? (Dict.get_ok_iff.1 hk))
  have hnf := init_normalForm hc hk
  cases b with
  | false =>
    obtain ⟨h1, h2⟩ := C02_construction_preserves_points hc
    obtain ⟨-, h2'⟩ := C02_construction_preserves_points hc'
    have hmem : RawKey.str k ∈ Dict.keys (Dict.ofPairs iter) := by
      rw [keys_ofPairs, ← h1]
      exact List.mem_map.2 ⟨k, hkey, rfl⟩
    obtain ⟨v, hv⟩ := Dict.mem_keys.1 hmem
    obtain ⟨-, v', hv', xs, ys, xs', ys', i1, i2, m, hd⟩ := h.2.2.1 _ v hv
    obtain ⟨p, kept, e1, -, e2, -, -, e3⟩ := h2 k v _ xs ys hv i1 (Or.inl rfl)
    obtain ⟨p', kept', e1', -, e2', -, -, e3'⟩ := h2' k v' _ xs' ys' hv' i2 (Or.inl rfl)
    rw [e1] at hk
    cases hk
    rw [e3 hd] at e2
    rw [e3' (distinct_other m hd)] at e2'
    rw [e1', same_stored hnf (init_normalForm hc' e1') e2 e2' m hd]
  | true =>
    have hn := hpc rfl
    have hn' := h.nodup_pcs hwf hwf' hn
    have hin : ∀ k v dt xs ys, (k, v) ∈ Dict.ofPairs iter → IsXY v dt xs ys →
        (dt = .float ∨ u = sDegrees) ∧ DistinctAngles ((xs.zip ys).map (fun p => (rad u p.1, p.2))) := by
      intro k v dt xs ys hkv hxy
      obtain ⟨-, v', hv', xs₁, ys₁, xs', ys', i1, i2, m, hd⟩ := h.2.2.1 _ v hkv
      obtain ⟨rfl, rfl, rfl⟩ := isXY_unique i1 hxy
      exact ⟨Or.inl rfl, hd⟩
    have hs := h.symm hwf hwf'
    have hin' : ∀ k v dt xs ys, (k, v) ∈ Dict.ofPairs iter' → IsXY v dt xs ys →
        (dt = .float ∨ u' = sDegrees) ∧ DistinctAngles ((xs.zip ys).map (fun p => (rad u' p.1, p.2))) := by
      intro k v dt xs ys hkv hxy
      obtain ⟨-, v', hv', xs₁, ys₁, xs', ys', i1, i2, m, hd⟩ := hs.2.2.1 _ v hkv
      obtain ⟨rfl, rfl, rfl⟩ := isXY_unique i1 hxy
      exact ⟨Or.inl rfl, hd⟩
    obtain ⟨a1, a2, a3⟩ := C13_normal_to_oblique hc hin
    obtain ⟨b1, b2, b3⟩ := C13_normal_to_oblique hc' hin'
    have given : ∀ X ∈ pcs (Dict.ofPairs iter), ∃ p, c.getPc X sRadians = .ok p ∧ c'.getPc X sRadians = .ok p ∧
        (p.map Prod.fst).Nodup := by
      intro X hX
      unfold pcs at hX
      obtain ⟨⟨k₁, v⟩, hm, e⟩ := List.mem_filterMap.1 hX
      obtain ⟨⟨s, rfl⟩, v', hv', xs, ys, xs', ys', i1, i2, m, hd⟩ := h.2.2.1 _ v hm
      simp only [Option.some.injEq] at e
      subst e
      obtain ⟨p, e1, e2⟩ := a2 s v _ xs ys (lastFor_of_nodup hn hm) i1
      obtain ⟨p', e1', e2'⟩ := b2 s v' _ xs' ys' (lastFor_of_nodup hn' hv') i2
      refine ⟨p, e1, ?_, ?_⟩
      · rw [e1', same_stored (init_normalForm hc e1) (init_normalForm hc' e1') e2 e2' m hd]
      · apply distinct_matched (f := fun p : K × K => rad u p.1) (e2.mono (fun _ _ h => h.1))
        simpa [DistinctAngles, List.pairwise_map] using hd
    have hX : k ∈ [kPP, kPS, kSP, kSS] := a1.mem_iff.1 hkey
    by_cases hp : k ∈ pcs (Dict.ofPairs iter)
    · obtain ⟨p, e1, e2, -⟩ := given k hp
      rw [e1] at hk
      cases hk
      exact e2
    · obtain ⟨q1, p, r, q2, q3, q4⟩ := a3 k hX hp
      obtain ⟨q1', p', r', q2', q3', q4'⟩ := b3 k hX (fun hc => hp (hs.mem_pcs k hc))
      obtain ⟨t, e1, e2, e3⟩ := given (partner k) q1
      rw [e1] at q3
      rw [e2] at q3'
      have q5 := Except.ok.inj q3
      have q6 := Except.ok.inj q3'
      subst q5 q6
      rw [q2] at hk
      cases hk
      rw [q2']
      congr 1
      symm
      apply normalForm_unique hnf (init_normalForm hc' q2')
      · refine Matched.trans (fun a b c hab hbc => ?_) q4.symm' q4'
        exact ⟨hbc.1.trans hab.1.symm, by rw [hbc.2, hab.2]⟩
      · have hpt : (t.map Prod.fst).Nodup := e3
        apply distinct_matched (f := fun p : K × K => p.1 + HasPi.pi / 2) (q4.mono (fun _ _ h => h.1))
        have hnt := init_normalForm hc e1
        rw [List.Nodup, List.pairwise_map] at hpt
        have h1 : t.Pairwise (fun p q => InTurn p.1 ∧ InTurn q.1) :=
          List.pairwise_of_forall_mem_list (fun a ha b hb => ⟨hnt.2.1 a ha, hnt.2.1 b hb⟩)
        refine (h1.and hpt).imp ?_
        rintro x y ⟨⟨hx, hy⟩, hne⟩ he
        apply hne
        apply hx.eq_of_angleEq hy
        have := he.add_right (-(HasPi.pi / 2))
        simpa using this

theorem getPc_of_get {c c' : DataContainer K} (h : ∀ k, Dict.get c.data k = Dict.get c'.data k) (k u : Key) :
    c.getPc k u = c'.getPc k u := by
  have hd : Dict.get c.dataDegrees k = Dict.get c'.dataDegrees k := by
    have hk := h k
    have e : ∀ c : DataContainer K, Dict.get c.dataDegrees k =
        match Dict.get c.data k with
        | .ok v => .ok (v.map (fun p => (rad2deg p.1, p.2)))
        | .error e => .error e := by
      intro c
      unfold DataContainer.dataDegrees Dict.get
      rw [Dict.get?_mapVals]
      cases Dict.get? c.data k <;> rfl
    rw [e, e, hk]
  unfold DataContainer.getPc
  cases checkAngleUnits (lower u) with
  | error e => rfl
  | ok _ =>
    simp only [ok_bind, h k, hd]

theorem perm_of_get {α : Type} {d d' : Dict Key α} (hd : Dict.WF d) (hd' : Dict.WF d') (h : ∀ k, Dict.get d k = Dict.get d' k) :
    d.Perm d' := by
  rw [List.perm_ext_iff_of_nodup (List.Nodup.of_map _ hd) (List.Nodup.of_map _ hd')]
  rintro ⟨k, v⟩
  rw [← Dict.get?_eq_some_iff hd, ← Dict.get?_eq_some_iff hd', ← Dict.get_ok_iff, ← Dict.get_ok_iff, h]

theorem get_of_perm {α : Type} {d d' : Dict Key α} (hd : Dict.WF d) (h : d.Perm d') (k : Key) : Dict.get d k = Dict.get d' k := by
  have hd' : Dict.WF d' := by
    unfold Dict.WF Dict.keys
    exact (h.map Prod.fst).nodup_iff.1 hd
  cases e : Dict.get d k with
  | ok v =>
    rw [Dict.get_ok_iff, Dict.get?_eq_some_iff hd, h.mem_iff, ← Dict.get?_eq_some_iff hd', ← Dict.get_ok_iff] at e
    exact e.symm
  | error x =>
    cases e' : Dict.get d' k with
    | ok v =>
      rw [Dict.get_ok_iff, Dict.get?_eq_some_iff hd', ← h.mem_iff, ← Dict.get?_eq_some_iff hd, ← Dict.get_ok_iff] at e'
      rw [e] at e'
      cases e'
    | error y =>
      rw [Dict.get_error_iff] at e e'
      rw [e.2, e'.2]

/-- **C125.** If two iterables hold the same points, in any order of the rows and of the combinations, with angles in the same
or in different units and up to full turns, and no direction occurs twice in a combination, then `DataContainer` accepts both or
none, and the two containers answer all questions alike, element by element. -/
theorem C125_container {iter iter' : List (RawKey × RawVal K)} {u u' : Key} {b : Bool}
    (h : SameMeasurement u u' (Dict.ofPairs iter) (Dict.ofPairs iter')) (hpc : b = true → (pcs (Dict.ofPairs iter)).Nodup) :
    ((∃ c w, DataContainer.init iter u b = .ok (c, w)) ↔ ∃ c' w', DataContainer.init iter' u' b = .ok (c', w')) ∧
    ∀ c w c' w', DataContainer.init iter u b = .ok (c, w) → DataContainer.init iter' u' b = .ok (c', w') →
      SameContainer c c' := by
  have hwf := Dict.WF_ofPairs iter
  have hwf' := Dict.WF_ofPairs iter'
  have hs := h.symm hwf hwf'
  have hpc' : b = true → (pcs (Dict.ofPairs iter')).Nodup := fun hb => h.nodup_pcs hwf hwf' (hpc hb)
  refine ⟨?_, ?_⟩
  · rw [(C04_acceptance iter u b).1, (C04_acceptance iter' u' b).1]
    exact ⟨h.acceptable hwf hwf' hpc, hs.acceptable hwf' hwf hpc'⟩
  · intro c w c' w' hc hc'
    have hget : ∀ k, Dict.get c.data k = Dict.get c'.data k := by
      intro k
      cases e : Dict.get c.data k with
      | ok pts =>
        have := same_one h hpc hc hc' (k := k) (pts := pts) (by rw [getPc_radians]; exact e)
        rw [getPc_radians] at this
        exact this.symm
      | error x =>
        cases e' : Dict.get c'.data k with
        | ok pts =>
          have := same_one hs hpc' hc' hc (k := k) (pts := pts) (by rw [getPc_radians]; exact e')
          rw [getPc_radians, e] at this
          cases this
        | error y =>
          rw [Dict.get_error_iff] at e e'
          rw [e.2, e'.2]
    have hw1 := (reachable_normalForm ⟨_, _, _, _, _, [], hc, rfl⟩).1
    have hw2 := (reachable_normalForm ⟨_, _, _, _, _, [], hc', rfl⟩).1
    obtain ⟨-, d₁, d₂, -, -, -, e1, -⟩ := init_ok hc
    obtain ⟨-, d₃, d₄, -, -, -, e2, -⟩ := init_ok hc'
    refine ⟨(perm_of_get hw1 hw2 hget).map Prod.fst, getPc_of_get hget, ?_, ?_, ?_⟩
    · rw [e1, e2]; rfl
    · rw [e1, e2]; rfl
    · intro u
      rw [e1, e2]; rfl

/-! ### Operations -/

/-- The same entries in another order, and the same records. -/
def PermC (c c' : DataContainer K) : Prop :=
  c.data.Perm c'.data ∧ c.scale = c'.scale ∧ c.offset = c'.offset ∧ c.phaseShift = c'.phaseShift

theorem getPhaseShift_radians (c : DataContainer K) : c.getPhaseShift sRadians = .ok c.phaseShift := rfl

theorem permC_of_same {c c' : DataContainer K} (hc : Dict.WF c.data) (hc' : Dict.WF c'.data) (h : SameContainer c c') : PermC c c' := by
  obtain ⟨-, h2, h3, h4, h5⟩ := h
  refine ⟨perm_of_get hc hc' (fun k => ?_), h3, h4, ?_⟩
  · have := h2 k sRadians
    rwa [getPc_radians, getPc_radians] at this
  · exact Except.ok.inj (h5 sRadians)

theorem same_of_permC {c c' : DataContainer K} (hc : Dict.WF c.data) (h : PermC c c') : SameContainer c c' := by
  obtain ⟨h1, h2, h3, h4⟩ := h
  refine ⟨h1.map Prod.fst, getPc_of_get (get_of_perm hc h1), h2, h3, fun u => ?_⟩
  unfold DataContainer.getPhaseShift
  rw [h4]

theorem PermC.mapVals {d d' : Dict Key (List (K × K))} (h : d.Perm d') (f : List (K × K) → List (K × K)) :
    (d.mapVals f).Perm (d'.mapVals f) := h.map _

theorem extremum_unique {better : K → K → Prop} (htri : ∀ x y, better x y ∨ x = y ∨ better y x)
    {d d' : List (Key × List (K × K))} (hp : d.Perm d') {k k' : Key} {m m' : K} (ht : ∀ x y, better x y → ¬ better y x)
    (h : FirstExtremum better d k m) (h' : FirstExtremum better d' k' m') : m = m' := by
  have key : ∀ {d : List (Key × List (K × K))} {k : Key} {m : K}, FirstExtremum better d k m →
      (∃ it ∈ d, ∃ p ∈ it.2, p.2 = m) ∧ ∀ it ∈ d, ∀ p ∈ it.2, ¬ better p.2 m := by
    rintro d k m ⟨pre, pts, post, rfl, ⟨p, hp, e⟩, h2, h3, h4⟩
    refine ⟨⟨(k, pts), by simp, p, hp, e⟩, ?_⟩
    intro it hit q hq
    simp only [List.mem_append, List.mem_cons] at hit
    rcases hit with hit | rfl | hit
    · exact ht _ _ (h3 it hit q hq)
    · exact h2 q hq
    · exact h4 it hit q hq
  obtain ⟨⟨it, h1, p, h2, e⟩, h3⟩ := key h
  obtain ⟨⟨it', h1', p', h2', e'⟩, h3'⟩ := key h'
  have a := h3 it' (hp.mem_iff.2 h1') p' h2'
  have b := h3' it (hp.mem_iff.1 h1) p h2
  rw [e'] at a
  rw [e] at b
  rcases htri m m' with h | h | h
  · exact absurd h b
  · exact h
  · exact absurd h a

theorem minval_same {c c' : DataContainer K} (h : PermC c c') (hne : ∀ it ∈ c.data, it.2 ≠ []) :
    (c.getMinval = .ok none ∧ c'.getMinval = .ok none) ∨
    ∃ k k' m, c.getMinval = .ok (some (k, m)) ∧ c'.getMinval = .ok (some (k', m)) := by
  have hne' : ∀ it ∈ c'.data, it.2 ≠ [] := fun it hit => hne it (h.1.mem_iff.2 hit)
  rcases getMinval_spec hne with ⟨e, h1⟩ | ⟨k, m, h1, h2⟩ <;> rcases getMinval_spec hne' with ⟨e', h1'⟩ | ⟨k', m', h1', h2'⟩
  · exact Or.inl ⟨h1, h1'⟩
  · have : c'.data = [] := by rw [← List.nil_perm, ← e]; exact h.1
    obtain ⟨pre, pts, post, e2, -⟩ := h2'
    rw [this] at e2
    simp at e2
  · have : c.data = [] := by rw [← List.perm_nil, ← e']; exact h.1
    obtain ⟨pre, pts, post, e2, -⟩ := h2
    rw [this] at e2
    simp at e2
  · obtain rfl := extremum_unique (fun x y => lt_trichotomy x y) h.1 (fun x y => fun a b => lt_asymm a b) h2 h2'
    exact Or.inr ⟨k, k', m, h1, h1'⟩

theorem maxval_same {c c' : DataContainer K} (h : PermC c c') (hne : ∀ it ∈ c.data, it.2 ≠ []) :
    (c.getMaxval = .ok none ∧ c'.getMaxval = .ok none) ∨
    ∃ k k' m, c.getMaxval = .ok (some (k, m)) ∧ c'.getMaxval = .ok (some (k', m)) := by
  have hne' : ∀ it ∈ c'.data, it.2 ≠ [] := fun it hit => hne it (h.1.mem_iff.2 hit)
  rcases getMaxval_spec hne with ⟨e, h1⟩ | ⟨k, m, h1, h2⟩ <;> rcases getMaxval_spec hne' with ⟨e', h1'⟩ | ⟨k', m', h1', h2'⟩
  · exact Or.inl ⟨h1, h1'⟩
  · have : c'.data = [] := by rw [← List.nil_perm, ← e]; exact h.1
    obtain ⟨pre, pts, post, e2, -⟩ := h2'
    rw [this] at e2
    simp at e2
  · have : c.data = [] := by rw [← List.perm_nil, ← e']; exact h.1
    obtain ⟨pre, pts, post, e2, -⟩ := h2
    rw [this] at e2
    simp at e2
  · obtain rfl := extremum_unique (better := fun x y => x > y) (fun x y => by rcases lt_trichotomy x y with h | h | h <;> simp [h])
      h.1 (fun x y => fun a b => lt_asymm a b) h2 h2'
    exact Or.inr ⟨k, k', m, h1, h1'⟩

theorem filterLoop_harmless {f : List K → Except Err (List K)} (hf : ∀ ys, ∃ zs, f ys = .ok zs ∧ zs.length = ys.length)
    : ∃ g : List K → List K, ∀ d : Dict Key (List (K × K)),
      DataContainer.filterLoop f d = (d.mapVals (fun v => (v.map Prod.fst).zip (g (v.map Prod.snd))), none) := by
  choose g h1 h2 using hf
  refine ⟨g, fun d => ?_⟩
  induction d with
  | nil => rfl
  | cons it d ih =>
    obtain ⟨k, v⟩ := it
    simp only [DataContainer.filterLoop, h1, h2, List.length_map, if_true, ih]
    rfl

theorem scale_same {c c' : DataContainer K} (h : PermC c c') (s : K) :
    (∃ d d', c.scaleData s = .ok d ∧ c'.scaleData s = .ok d' ∧ PermC d d') ∨
      ∃ e, c.scaleData s = .error e ∧ c'.scaleData s = .error e := by
  obtain ⟨h1, h2, h3, h4⟩ := h
  unfold DataContainer.scaleData
  by_cases hs : s < 0
  · simp only [hs, if_true]
    exact Or.inr ⟨_, rfl, rfl⟩
  · simp only [hs, if_false]
    exact Or.inl ⟨_, _, rfl, rfl, h1.map _, by simp [h2], h3, h4⟩

theorem step_same {c c' : DataContainer K} (h : PermC c c') (hne : ∀ it ∈ c.data, it.2 ≠ []) {op : DataContainer.Op K}
    (hop : Harmless op) :
    PermC (DataContainer.step c op).1 (DataContainer.step c' op).1 ∧
      (DataContainer.step c op).2 = (DataContainer.step c' op).2 := by
  have h0 := h
  obtain ⟨h1, h2, h3, h4⟩ := h
  cases op with
  | scale s =>
    rw [step_scale, step_scale]
    rcases scale_same h0 s with ⟨d, d', e, e', hp⟩ | ⟨x, e, e'⟩ <;> simp only [e, e']
    · exact ⟨hp, trivial⟩
    · exact ⟨h0, trivial⟩
  | subtractMin =>
    rw [step_subtractMin, step_subtractMin]
    unfold DataContainer.subtractMin
    rcases minval_same h0 hne with ⟨e, e'⟩ | ⟨k, k', m, e, e'⟩
    · simp only [e, e', ok_bind]
      exact ⟨⟨h1, h2, rfl, h4⟩, rfl⟩
    · simp only [e, e', ok_bind]
      exact ⟨⟨h1.map _, h2, congrArg (Option.map (fun o => o - m)) h3, h4⟩, rfl⟩
  | normalize t =>
    rw [step_normalize, step_normalize]
    unfold DataContainer.normalizeData
    rcases maxval_same h0 hne with ⟨e, e'⟩ | ⟨k, k', m, e, e'⟩
    · simp only [e, e', ok_bind]
      rcases scale_same h0 0 with ⟨d, d', e, e', hp⟩ | ⟨x, e, e'⟩ <;> simp only [e, e']
      · exact ⟨hp, trivial⟩
      · exact ⟨h0, trivial⟩
    · simp only [e, e', ok_bind]
      by_cases hm : m = 0
      · simp only [hm, if_true]
        by_cases ht : t < 0 <;> simp only [ht, if_true, if_false] <;> exact ⟨h0, trivial⟩
      · simp only [hm, if_false]
        rcases scale_same h0 (t / m) with ⟨d, d', e, e', hp⟩ | ⟨x, e, e'⟩ <;> simp only [e, e']
        · exact ⟨hp, trivial⟩
        · exact ⟨h0, trivial⟩
  | phaseShift a u =>
    rw [step_phaseShift, step_phaseShift]
    unfold DataContainer.phaseShiftData
    cases DataContainer.angleOf a u with
    | error e => exact ⟨h0, rfl⟩
    | ok r => exact ⟨⟨h1.map _, h2, h3, congrArg (· + r) h4⟩, rfl⟩
  | filter f =>
    obtain ⟨g, hg⟩ := filterLoop_harmless hop
    rw [step_filter, step_filter, hg, hg]
    exact ⟨⟨h1.map _, h2, h3, h4⟩, rfl⟩

/-- **C125, operations.**  Containers that answer all questions alike still do so after the same sequence of method calls, and
every call raises the same exception or none.  (The function given to `filter` accepts all arrays and keeps their length.) -/
theorem C125_operations {c c' : DataContainer K} (hc : c.Reachable) (hc' : c'.Reachable) (h : SameContainer c c')
    (ops : List (DataContainer.Op K)) (hops : ∀ op ∈ ops, Harmless op) :
    SameContainer (DataContainer.run c ops) (DataContainer.run c' ops) ∧
      ∀ op, Harmless op → (DataContainer.step (DataContainer.run c ops) op).2 = (DataContainer.step (DataContainer.run c' ops) op).2 := by
  induction ops generalizing c c' with
  | nil =>
    refine ⟨h, fun op hop => ?_⟩
    exact (step_same (permC_of_same (reachable_normalForm hc).1 (reachable_normalForm hc').1 h) (reachable_ne_nil hc) hop).2
  | cons op ops ih =>
    have hp := permC_of_same (reachable_normalForm hc).1 (reachable_normalForm hc').1 h
    have hs := (step_same hp (reachable_ne_nil hc) (hops op (by simp))).1
    have hr := reachable_step hc op
    exact ih hr (reachable_step hc' op) (same_of_permC (reachable_normalForm hr).1 hs)
      (fun o ho => hops o (List.mem_cons_of_mem _ ho))

/-! ### Fourier data and fits -/

/-- **C125, Fourier data.**  The Fourier components of such containers are the same. -/
theorem C125_fourier {dat dat' : DataContainer ℝ} (hc : dat.Reachable) (hc' : dat'.Reachable) (h : SameContainer dat dat')
    {interp : Interp} {M : ℕ} {f : FDataContainer} (hf : datToFdat interp dat M = .ok f) :
    ∃ f', datToFdat interp dat' M = .ok f' ∧ SameFourier f f' := by
  have hw := (reachable_normalForm hc).1
  have hw' := (reachable_normalForm hc').1
  have hp := (permC_of_same hw hw' h).1
  let g : List (ℝ × ℝ) → ℤ → ℂ := fun pts m => match fourierSum interp pts m with | .ok z => z | .error _ => 0
  have hsum : ∀ it ∈ dat.data, ∀ m ∈ freqs M, fourierSum interp it.2 m = .ok (g it.2 m) := by
    intro it hit m hm
    obtain ⟨z, hz⟩ := datToFdat_ok_all hw hf it hit m hm
    simp only [g, hz]
  have e1 := datToFdat_ok hw hsum
  have e2 := datToFdat_ok hw' (fun it hit m hm => hsum it (hp.mem_iff.2 hit) m hm)
  rw [e1] at hf
  cases hf
  refine ⟨_, e2, ?_, rfl, ?_⟩
  · exact (hp.map _).map _
  · intro k
    exact get_of_perm (d := Dict.mapVals (fun pts => (freqs M).map (g pts)) dat.data) (WF_mapVals.2 hw) (hp.map _) k

section
variable (S : Sympy) (C : Compiler)

theorem energyTerm_same {fform : FFormContainer} {f f' : FDataContainer} (h : SameFourier f f') (mp : Dict Sym Sym) (k : Key) (m : ℤ) :
    energyTerm S fform f mp k m = energyTerm S fform f' mp k m := by
  unfold energyTerm
  rw [h.2.2 k]

theorem energyExpr_same {fform : FFormContainer} {f f' : FDataContainer} (h : SameFourier f f') (l : Option (List Sym)) :
    energyExpr S fform f l = energyExpr S fform f' l := by
  unfold energyExpr
  simp only [energyTerm_same S h]

theorem energyExprList_same {fform : FFormContainer} {f f' : FDataContainer} (h : SameFourier f f') (l : Option (List Sym)) :
    energyExprList S fform f l = energyExprList S fform f' l := by
  unfold energyExprList
  simp only [energyTerm_same S h]

/-- **C125, cost functions.**  Cost functions of the same Fourier data are the same, with and without chunks, with and without a
file, and so are their gradients. -/
theorem C125_cost {fform : FFormContainer} {f f' : FDataContainer} (h : SameFourier f f') (d : Disk) (arguments : Option (List Sym))
    (symbols : List Sym) (chunk : Bool) (save gradSave : Option Key) :
    genCostFunc S C d fform f arguments chunk save = genCostFunc S C d fform f' arguments chunk save ∧
      energyAndDenergy S C d fform f symbols chunk save gradSave = energyAndDenergy S C d fform f' symbols chunk save gradSave := by
  have h1 := energyExpr_same S (fform := fform) h
  have h2 := energyExprList_same S (fform := fform) h
  have h3 : ∀ a c s, genCostFunc S C d fform f a c s = genCostFunc S C d fform f' a c s := by
    intro a c s
    unfold genCostFunc
    simp only [h1, h2]
  refine ⟨h3 _ _ _, ?_⟩
  unfold energyAndDenergy
  simp only [h1, h3]

/-- **C125, fits.**  Every fitting routine does the same with the same Fourier data: the same result or exception, the same files
and the same changes of its arguments. -/
theorem C125_fits {fform : FFormContainer} {f f' : FDataContainer} (h : SameFourier f f') :
    (∀ opt guess bounds chunk save load, leastSquaresFit S C opt fform f guess bounds chunk save load =
      leastSquaresFit S C opt fform f' guess bounds chunk save load) ∧
    (∀ opt guess niter method args stepsize chunk save load,
      basinhoppingFit S C opt fform f guess niter method args stepsize chunk save load =
        basinhoppingFit S C opt fform f' guess niter method args stepsize chunk save load) ∧
    (∀ opt guess bounds niter method args stepsize chunk save load,
      basinhoppingFitWithBounds S C opt fform f guess bounds niter method args stepsize chunk save load =
        basinhoppingFitWithBounds S C opt fform f' guess bounds niter method args stepsize chunk save load) ∧
    (∀ opt guess niter method args stepsize chunk save gradSave load gradLoad,
      basinhoppingFitJac S C opt fform f guess niter method args stepsize chunk save gradSave load gradLoad =
        basinhoppingFitJac S C opt fform f' guess niter method args stepsize chunk save gradSave load gradLoad) ∧
    (∀ opt guess bounds niter method args stepsize chunk save gradSave load gradLoad,
      basinhoppingFitJacWithBounds S C opt fform f guess bounds niter method args stepsize chunk save gradSave load gradLoad =
        basinhoppingFitJacWithBounds S C opt fform f' guess bounds niter method args stepsize chunk save gradSave load gradLoad) ∧
    ∀ opt guess bounds options chunk save load, dualAnnealingFit S C opt fform f guess bounds options chunk save load =
      dualAnnealingFit S C opt fform f' guess bounds options chunk save load := by
  have h1 : ∀ symbols chunk save load, fitCost S C fform f symbols chunk save load = fitCost S C fform f' symbols chunk save load := by
    intro symbols chunk save load
    unfold fitCost
    simp only [fun d => (C125_cost S C (fform := fform) h d (some symbols) symbols chunk save none).1]
  have h2 : ∀ symbols chunk save gradSave load gradLoad, fitCostGrad S C fform f symbols chunk save gradSave load gradLoad =
      fitCostGrad S C fform f' symbols chunk save gradSave load gradLoad := by
    intro symbols chunk save gradSave load gradLoad
    unfold fitCostGrad
    simp only [fun d => (C125_cost S C (fform := fform) h d none symbols chunk save gradSave).2]
  refine ⟨?_, ?_, ?_, ?_, ?_, ?_⟩
  · intros; unfold leastSquaresFit; simp only [h1]
  · intros; unfold basinhoppingFit; simp only [h1]
  · intros; unfold basinhoppingFitWithBounds; simp only [h1]
  · intros; unfold basinhoppingFitJac; simp only [h2]
  · intros; unfold basinhoppingFitJacWithBounds; simp only [h2]
  · intros; unfold dualAnnealingFit; simp only [h1]

end

/-! ### Files -/

theorem mapM_perm {α β : Type} {f : α → Except Err β} {l l' : List α} (h : l.Perm l') {r : List β} (hr : l.mapM f = .ok r) :
    ∃ r', l'.mapM f = .ok r' ∧ r.Perm r' := by
  induction h generalizing r with
  | nil => exact ⟨r, hr, .refl _⟩
  | cons a _ ih =>
    rw [List.mapM_cons] at hr
    obtain ⟨b, h1, hr⟩ := bind_ok hr
    obtain ⟨t, h2, hr⟩ := bind_ok hr
    cases hr
    obtain ⟨t', h3, h4⟩ := ih h2
    exact ⟨b :: t', by rw [List.mapM_cons, h1, h3]; rfl, h4.cons b⟩
  | swap a b l =>
    rw [List.mapM_cons] at hr
    obtain ⟨x, h1, hr⟩ := bind_ok hr
    rw [List.mapM_cons] at hr
    obtain ⟨y', h2, hr⟩ := bind_ok hr
    obtain ⟨y, h3, h2⟩ := bind_ok h2
    obtain ⟨t, h4, h2⟩ := bind_ok h2
    cases h2
    cases hr
    exact ⟨y :: x :: t, by rw [List.mapM_cons, List.mapM_cons, h1, h3, h4]; rfl, .swap _ _ _⟩
  | trans _ _ ih1 ih2 =>
    obtain ⟨r1, h1, p1⟩ := ih1 hr
    obtain ⟨r2, h2, p2⟩ := ih2 h1
    exact ⟨r2, h2, p1.trans p2⟩

theorem Spec.Shuffled.symm {float : Key → Option ℝ} {units : Key} {csv csv' : CsvFiles} {names : Dict Key Key}
    (h : Shuffled float units csv csv' names) : Shuffled float units csv' csv names := by
  intro k f hk
  obtain ⟨rows, rows', h1, h2, h3, h4⟩ := h k f hk
  refine ⟨rows', rows, h2, h1, h3.symm, ?_⟩
  intro pts' hp
  obtain ⟨pts, h5, h6⟩ := mapM_perm h3.symm hp
  have := h4 pts h5
  unfold DistinctAngles at this ⊢
  exact (h6.symm.map _).pairwise this (fun h e => h e.symm)

theorem readCsv_same {float : Key → Option ℝ} {units : Key} {csv csv' : CsvFiles} {names : Dict Key Key}
    (h : Shuffled float units csv csv' names) {k f : Key} (hk : (k, f) ∈ names) {v : RawVal ℝ} (hv : readCsv float csv f = .ok v) :
    ∃ v', readCsv float csv' f = .ok v' ∧ SameArray units units v v' := by
  obtain ⟨rows, rows', h1, h2, h3, h4⟩ := h k f hk
  unfold readCsv at hv ⊢
  rw [h1] at hv
  rw [h2]
  obtain ⟨pts, h5, hv⟩ := bind_ok hv
  cases hv
  obtain ⟨pts', h6, h7⟩ := mapM_perm h3 h5
  refine ⟨.arr2 .float [pts'.map Prod.fst, pts'.map Prod.snd], by simp only [h6]; rfl, pts.map Prod.fst, pts.map Prod.snd,
    pts'.map Prod.fst, pts'.map Prod.snd, ⟨[], rfl, by simp, by decide⟩, ⟨[], rfl, by simp, by decide⟩, ?_, ?_⟩
  · have e : ∀ l : List (ℝ × ℝ), (l.map Prod.fst).zip (l.map Prod.snd) = l := fun l => by rw [List.zip_map']; simp
    rw [e, e]
    exact ⟨pts, List.forall₂_same.2 (fun p _ => ⟨⟨0, by simp⟩, rfl⟩), h7.symm⟩
  · have e : ∀ l : List (ℝ × ℝ), (l.map Prod.fst).zip (l.map Prod.snd) = l := fun l => by rw [List.zip_map']; simp
    rw [e]
    exact h4 pts h5

theorem readAll_same {float : Key → Option ℝ} {units : Key} {csv csv' : CsvFiles} {names : Dict Key Key}
    (h : Shuffled float units csv csv' names) {d : Dict Key (RawVal ℝ)} (hd : Dict.mapValsM (readCsv float csv) names = .ok d) :
    ∃ d', Dict.mapValsM (readCsv float csv') names = .ok d' ∧
      List.Forall₂ (fun p q => p.1 = q.1 ∧ SameArray units units p.2 q.2) d d' := by
  induction names generalizing d with
  | nil => cases hd; exact ⟨[], rfl, .nil⟩
  | cons p names ih =>
    obtain ⟨k, f⟩ := p
    have h' : Shuffled float units csv csv' names := fun k' f' hk => h k' f' (List.mem_cons_of_mem _ hk)
    simp only [Dict.mapValsM] at hd ⊢
    obtain ⟨v, h1, hd⟩ := bind_ok hd
    obtain ⟨t, h2, hd⟩ := bind_ok hd
    cases hd
    obtain ⟨v', h3, h4⟩ := readCsv_same h (List.mem_cons_self) h1
    obtain ⟨t', h5, h6⟩ := ih h' h2
    exact ⟨(k, v') :: t', by rw [h3, h5]; rfl, .cons ⟨rfl, h4⟩ h6⟩

theorem keys_of_aligned {α β : Type} {d : Dict Key α} {d' : Dict Key β} (h : List.Forall₂ (fun p q => p.1 = q.1) d d') :
    Dict.keys d = Dict.keys d' := by
  unfold Dict.keys
  induction h with
  | nil => rfl
  | cons h _ ih => simp only [List.map_cons, ih, h]

/-- **C125, files.**  Putting the rows of the files into another order changes nothing that a loaded container answers, and without
`normal_to_oblique` the container is literally the same. -/
theorem C125_files {float : Key → Option ℝ} {units : Key} {csv csv' : CsvFiles} {names : Dict Key Key} (hwf : Dict.WF names)
    (hs : Shuffled float units csv csv' names) :
    (∀ b, (b = true → ((Dict.keys names).map pcOf).Nodup) → ∀ c, loadData float csv names units b = .ok c →
      ∃ c', loadData float csv' names units b = .ok c' ∧ SameContainer c c') ∧
    ∀ c, loadData float csv names units false = .ok c ↔ loadData float csv' names units false = .ok c := by
  have key : ∀ csv csv', Shuffled float units csv csv' names → ∀ b, (b = true → ((Dict.keys names).map pcOf).Nodup) →
      ∀ c, loadData float csv names units b = .ok c →
      ∃ c', loadData float csv' names units b = .ok c' ∧ SameContainer c c' ∧ (b = false → c' = c) := by
    intro csv csv' hs b hb c hc
    unfold loadData at hc ⊢
    obtain ⟨d, h1, hc⟩ := bind_ok hc
    obtain ⟨⟨c0, w⟩, h2, hc⟩ := bind_ok hc
    cases hc
    obtain ⟨d', h3, h4⟩ := readAll_same hs h1
    have hu := (init_ok h2).1
    have hk : Dict.keys d = Dict.keys names := by
      exact (keys_of_aligned ((Dict.mapValsM_ok h1).imp (fun _ _ h => h.1))).symm
    have hk' : Dict.keys d' = Dict.keys names := by
      rw [← hk]
      exact (keys_of_aligned (h4.imp (fun _ _ h => h.1))).symm
    have hnd : ∀ d : Dict Key (RawVal ℝ), Dict.keys d = Dict.keys names →
        ((d.map (fun kv => ((.str kv.1 : RawKey), kv.2))).map Prod.fst).Nodup := by
      intro d hd
      rw [List.map_map]
      have : (Dict.keys d).Nodup := by rw [hd]; exact hwf
      exact (List.Nodup.map (f := RawKey.str) (fun a b h => RawKey.str.inj h) this |> fun h => by
        simpa [Dict.keys, Function.comp_def] using h)
    have e := Dict.ofPairs_of_nodup (hnd d hk)
    have e' := Dict.ofPairs_of_nodup (hnd d' hk')
    have hsame : SameMeasurement units units (Dict.ofPairs (d.map (fun kv => ((.str kv.1 : RawKey), kv.2))))
        (Dict.ofPairs (d'.map (fun kv => ((.str kv.1 : RawKey), kv.2)))) := by
      rw [e, e']
      refine ⟨hu, hu, ?_, ?_⟩
      · intro k v hkv
        obtain ⟨kv, hm, he⟩ := List.mem_map.1 hkv
        cases he
        obtain ⟨q, hq, h5, h6⟩ := forall₂_mem_left h4 hm
        exact ⟨⟨_, rfl⟩, q.2, List.mem_map.2 ⟨q, hq, by rw [h5]⟩, h6⟩
      · intro k v hkv
        obtain ⟨kv, hm, he⟩ := List.mem_map.1 hkv
        cases he
        obtain ⟨q, hq, h5, h6⟩ := forall₂_mem_right h4 hm
        exact ⟨q.2, List.mem_map.2 ⟨q, hq, by rw [h5]⟩⟩
    have hpc : b = true → (pcs (Dict.ofPairs (d.map (fun kv => ((.str kv.1 : RawKey), kv.2))))).Nodup := by
      intro h
      rw [e]
      have := hb h
      rw [← hk] at this
      unfold pcs
      rw [List.filterMap_map]
      simpa [Dict.keys, Function.comp_def] using this
    obtain ⟨hacc, hcon⟩ := C125_container hsame hpc
    obtain ⟨c', w', h5⟩ := hacc.1 ⟨_, _, h2⟩
    refine ⟨c', by rw [h3, ok_bind, h5]; rfl, hcon _ _ _ _ h2 h5, ?_⟩
    rintro rfl
    have k1 := (C02_construction_preserves_points h2).1
    have k2 := (C02_construction_preserves_points h5).1
    have k3 : c'.getKeys = c.getKeys := by
      refine List.map_injective_iff.2 (fun a b h => RawKey.str.inj h) (?_ : List.map RawKey.str _ = List.map RawKey.str _)
      rw [k1, k2]
      congr 1
      rw [List.map_map, List.map_map]
      have : ∀ d : Dict Key (RawVal ℝ), List.map (Prod.fst ∘ fun kv : Key × RawVal ℝ => ((.str kv.1 : RawKey), kv.2)) d
          = (Dict.keys d).map RawKey.str := by intro d; simp [Dict.keys, Function.comp_def]
      rw [this, this, hk, hk']
    have h6 := hcon _ _ _ _ h2 h5
    obtain ⟨-, dd, dd', -, -, -, f1, -⟩ := init_ok h2
    obtain ⟨-, ee, ee', -, -, -, f2, -⟩ := init_ok h5
    have hdata : c'.data = c.data := by
      refine dict_ext k3 (by obtain ⟨_, _, _, h, _⟩ := C01_construction_normal_form h5; exact h) ?_
      intro k v hv
      have := h6.2.1 k sRadians
      rw [getPc_radians, getPc_radians] at this
      rw [this]
      exact hv
    rw [f1] at hdata ⊢
    rw [f2] at hdata ⊢
    simp only at hdata
    rw [hdata]
  refine ⟨fun b hb c hc => ?_, fun c => ⟨fun h => ?_, fun h => ?_⟩⟩
  · obtain ⟨c', h1, h2, -⟩ := key csv csv' hs b hb c hc
    exact ⟨c', h1, h2⟩
  · obtain ⟨c', h1, -, h2⟩ := key csv csv' hs false (by simp) c h
    rw [h2 rfl] at h1
    exact h1
  · obtain ⟨c', h1, -, h2⟩ := key csv' csv hs.symm false (by simp) c h
    rw [h2 rfl] at h1
    exact h1

/-- The same for data with dark files, with and without subtraction of the minimum, together with the Fourier data. -/
theorem C125_loading {float : Key → Option ℝ} {units : Key} {csv csv' : CsvFiles} {names : Dict Key Key} (hwf : Dict.WF names)
    (hs : Shuffled float units csv csv' names) {dark : Option (Dict Key Key × Key)}
    (hdark : ∀ x ∈ dark, Dict.WF x.1 ∧ Shuffled float x.2 csv csv' x.1) (interp : Interp) (M : ℕ) (minSubtract : Bool) (scale : ℝ)
    (r : DataContainer ℝ × FDataContainer) :
    loadDataAndFourierTransform float csv interp names units dark M minSubtract scale false = .ok r ↔
      loadDataAndFourierTransform float csv' interp names units dark M minSubtract scale false = .ok r := by
  have key : ∀ csv csv', Shuffled float units csv csv' names → (∀ x ∈ dark, Dict.WF x.1 ∧ Shuffled float x.2 csv csv' x.1) →
      loadDataAndFourierTransform float csv interp names units dark M minSubtract scale false = .ok r →
      loadDataAndFourierTransform float csv' interp names units dark M minSubtract scale false = .ok r := by
    intro csv csv' hs hdark h
    unfold loadDataAndFourierTransform at h ⊢
    obtain ⟨dat, h1, h⟩ := bind_ok h
    have : loadMaybeDark float csv' names units false dark = .ok dat := by
      cases dark with
      | none => exact ((C125_files hwf hs).2 dat).1 h1
      | some x =>
        obtain ⟨dn, du⟩ := x
        simp only [loadMaybeDark, loadDataAndDarkSubtract] at h1 ⊢
        split at h1
        · cases h1
        · next hk =>
          rw [if_neg hk]
          obtain ⟨d1, e1, h1⟩ := bind_ok h1
          obtain ⟨d2, e2, h1⟩ := bind_ok h1
          have hd := hdark (dn, du) rfl
          rw [((C125_files hwf hs).2 d1).1 e1, ok_bind, ((C125_files hd.1 hd.2).2 d2).1 e2, ok_bind]
          exact h1
    rw [this, ok_bind]
    exact h
  exact ⟨key csv csv' hs hdark, key csv' csv hs.symm (fun x hx => ⟨(hdark x hx).1, (hdark x hx).2.symm⟩)⟩

/-- **C125, scripts.**  The fitting scripts get the same data, fit and curve from files whose rows are in another order. -/
theorem C125_scripts (S : Sympy) (C : Compiler) (R : Repr) {float : Key → Option ℝ} {units : Key} {csv csv' : CsvFiles}
    {names : Dict Key Key} (hwf : Dict.WF names) (hs : Shuffled float units csv csv' names) (files : Files) (interp : Interp)
    (rnd : FDataContainer → FDataContainer) (opt : Optimizer LSCall) (d : Disk) (fformName : Key) (pcs : List Key)
    (r : DataContainer ℝ × OptResult × DataContainer ℝ × List Key) :
    (fitExample S C R float csv files interp rnd opt d names units fformName = .ok r ↔
      fitExample S C R float csv' files interp rnd opt d names units fformName = .ok r) ∧
    (fitPartialExample S C R float csv files interp rnd opt d names units fformName pcs = .ok r ↔
      fitPartialExample S C R float csv' files interp rnd opt d names units fformName pcs = .ok r) := by
  have key : ∀ csv csv', Shuffled float units csv csv' names →
      (fitExample S C R float csv files interp rnd opt d names units fformName = .ok r →
        fitExample S C R float csv' files interp rnd opt d names units fformName = .ok r) ∧
      (fitPartialExample S C R float csv files interp rnd opt d names units fformName pcs = .ok r →
        fitPartialExample S C R float csv' files interp rnd opt d names units fformName pcs = .ok r) := by
    intro csv csv' hs
    constructor
    · intro h
      unfold fitExample at h ⊢
      obtain ⟨x, h1, h⟩ := bind_ok h
      rw [(C125_loading hwf hs (dark := none) (by simp) interp 16 false 1 x).1 h1, ok_bind]
      exact h
    · intro h
      unfold fitPartialExample at h ⊢
      obtain ⟨x, h1, h⟩ := bind_ok h
      rw [(C125_loading hwf hs (dark := none) (by simp) interp 16 false 1 x).1 h1, ok_bind]
      exact h
  exact ⟨⟨(key csv csv' hs).1, (key csv' csv hs.symm).1⟩, ⟨(key csv csv' hs).2, (key csv' csv hs.symm).2⟩⟩

/-- The hypotheses can be met: two points in radians, and the same in degrees, in the other order and a turn further. -/
example : SameMeasurement (K := ℝ) sRadians sDegrees
    [(.str kPP, .arr2 .float [[0, Real.pi / 2], [1, 2]]), (.str kPS, .arr2 .float [[1], [3]])]
    [(.str kPS, .arr2 .float [[180 / Real.pi], [3]]), (.str kPP, .arr2 .float [[450, 0], [2, 1]])] := by
  have hpi : (HasPi.pi : ℝ) = Real.pi := rfl
  have hp := Real.pi_ne_zero
  have hu : (sRadians : Key) ≠ sDegrees := by decide
  have r1 : ∀ x : ℝ, rad sRadians x = x := fun x => by unfold rad; rw [if_neg hu]
  have r2 : ∀ x : ℝ, rad sDegrees x = x * (Real.pi / 180) := fun x => by unfold rad; rw [if_pos rfl]; rfl
  have a1 : SameArray (K := ℝ) sRadians sDegrees (.arr2 .float [[0, Real.pi / 2], [1, 2]]) (.arr2 .float [[450, 0], [2, 1]]) := by
    refine ⟨_, _, _, _, ⟨[], rfl, rfl, by decide⟩, ⟨[], rfl, rfl, by decide⟩, ⟨[(0, 1), (450, 2)], ?_, .swap _ _ _⟩, ?_⟩
    · refine .cons ⟨⟨0, ?_⟩, rfl⟩ (.cons ⟨⟨-1, ?_⟩, rfl⟩ .nil)
      · rw [r1, r2]; simp
      · rw [r1, r2, hpi]; push_cast; ring
    · simp only [DistinctAngles, List.zip_cons_cons, List.zip_nil_right, List.map_cons, List.map_nil, r1, List.pairwise_cons,
        List.mem_singleton, forall_eq, List.not_mem_nil, false_imp_iff, implies_true, List.Pairwise.nil, and_true, and_self]
      rintro ⟨n, hn⟩
      rw [hpi] at hn
      have h1 : (4 * n + 1 : ℝ) * Real.pi = 0 := by linarith
      rcases mul_eq_zero.1 h1 with h | h
      · have : (4 * n + 1 : ℤ) = 0 := by exact_mod_cast h
        omega
      · exact hp h
  have a2 : SameArray (K := ℝ) sRadians sDegrees (.arr2 .float [[1], [3]]) (.arr2 .float [[180 / Real.pi], [3]]) := by
    refine ⟨_, _, _, _, ⟨[], rfl, rfl, by decide⟩, ⟨[], rfl, rfl, by decide⟩, ⟨[(180 / Real.pi, 3)], ?_, .refl _⟩, ?_⟩
    · refine .cons ⟨⟨0, ?_⟩, rfl⟩ .nil
      rw [r1, r2]; field_simp; simp
    · exact List.pairwise_singleton _ _
  refine ⟨.inl rfl, .inr rfl, ?_, ?_⟩
  · intro k v hkv
    simp only [List.mem_cons, Prod.mk.injEq, List.not_mem_nil, or_false] at hkv
    rcases hkv with ⟨rfl, rfl⟩ | ⟨rfl, rfl⟩
    · exact ⟨⟨_, rfl⟩, _, List.mem_cons_of_mem _ List.mem_cons_self, a1⟩
    · exact ⟨⟨_, rfl⟩, _, List.mem_cons_self, a2⟩
  · intro k v hkv
    simp only [List.mem_cons, Prod.mk.injEq, List.not_mem_nil, or_false] at hkv
    rcases hkv with ⟨rfl, rfl⟩ | ⟨rfl, rfl⟩
    · exact ⟨_, List.mem_cons_of_mem _ List.mem_cons_self⟩
    · exact ⟨_, List.mem_cons_self⟩

/-- Two files with the rows of a measurement in different orders. -/
example : Shuffled (fun s => some (s.length : ℝ)) sRadians (fun _ => some [[['1'], ['1']], [['1', '2'], ['1']]])
    (fun _ => some [[['1', '2'], ['1']], [['1'], ['1']]]) [(kPP, kPP)] := by
  intro k f _
  refine ⟨_, _, rfl, rfl, .swap _ _ _, ?_⟩
  intro pts hpts
  have : pts = [(1, 1), (2, 1)] := by
    have := Except.ok.inj hpts
    rw [← this]
    simp
  subst this
  have hu : (sRadians : Key) ≠ sDegrees := by decide
  have r1 : ∀ x : ℝ, rad sRadians x = x := fun x => by unfold rad; rw [if_neg hu]
  simp only [DistinctAngles, List.map_cons, List.map_nil, r1, List.pairwise_cons,
    List.mem_singleton, forall_eq, List.not_mem_nil, false_imp_iff, implies_true, List.Pairwise.nil, and_true, and_self]
  rintro ⟨n, hn⟩
  have hpi : (HasPi.pi : ℝ) = Real.pi := rfl
  rw [hpi] at hn
  have h3 := Real.pi_gt_three
  rcases lt_trichotomy n 0 with h | h | h
  · have : (n : ℝ) ≤ -1 := by exact_mod_cast (by omega : n ≤ -1)
    nlinarith
  · subst h; norm_num at hn
  · have : (1 : ℝ) ≤ n := by exact_mod_cast h
    nlinarith

end Shgpy
