import Verif.Spec.Tensor
import Verif.Proofs.FormConvert
import Mathlib.Algebra.BigOperators.Intervals
import Mathlib.Algebra.BigOperators.Ring.Finset
import Mathlib.Data.List.FinRange
import Mathlib.Data.List.Nodup

/-!
# Lemmas on the tensor algebra
-/

namespace Shgpy
open Spec

set_option linter.unusedSectionVars false
set_option linter.unusedSimpArgs false

theorem ringOps_sum {R : Type} [CommSemiring R] (n : ℕ) (f : ℕ → R) :
    (ringOps R).sum n f = ∑ i ∈ Finset.range n, f i := by
  unfold Ops.sum
  induction n with
  | zero => simp [ringOps]
  | succ n ih =>
    rw [List.range_succ, List.foldl_append, ih, Finset.sum_range_succ]
    rfl

section Loop
variable {ι : Type} [DecidableEq ι]

theorem insertIdx_map_erase {p : ι} {L : List ι} (hL : L.Nodup) (hp : p ∈ L) (f : ι → ℕ) (i : ℕ) :
    ((L.erase p).map f).insertIdx (L.idxOf p) i = L.map (Function.update f p i) := by
  induction L with
  | nil => simp at hp
  | cons a L ih =>
    rw [List.nodup_cons] at hL
    by_cases h : a = p
    · subst h
      simp only [List.erase_cons_head, List.idxOf_cons_self, List.insertIdx_zero, List.map_cons, Function.update_self]
      congr 1
      refine List.map_congr_left (fun b hb => ?_)
      rw [Function.update_of_ne]
      rintro rfl
      exact hL.1 hb
    · have hp' : p ∈ L := by simpa [Ne.symm h] using hp
      rw [List.erase_cons_tail (by simpa using h), List.idxOf_cons_ne _ (fun e => h e)]
      simp only [List.map_cons, List.insertIdx_succ_cons]
      rw [ih hL.2 hp', Function.update_of_ne h]

theorem idxOf_erase_of_lt {p q : ι} {L : List ι} (hL : L.Nodup) (hp : p ∈ L) (h : L.idxOf p < L.idxOf q) :
    (L.erase q).idxOf p = L.idxOf p := by
  induction L with
  | nil => simp at hp
  | cons a L ih =>
    rw [List.nodup_cons] at hL
    have hqa : a ≠ q := by
      rintro rfl
      simp at h
    rw [List.erase_cons_tail (by simpa using hqa)]
    by_cases hap : a = p
    · subst hap; simp
    · have hp' : p ∈ L := by simpa [Ne.symm hap] using hp
      rw [List.idxOf_cons_ne _ hap, List.idxOf_cons_ne _ hap]
      rw [List.idxOf_cons_ne _ hap, List.idxOf_cons_ne _ hqa] at h
      rw [ih hL.2 hp' (by omega)]

theorem idxOf_lt_or {p q : ι} {L : List ι} (hp : p ∈ L) (hpq : p ≠ q) :
    L.idxOf p < L.idxOf q ∨ L.idxOf q < L.idxOf p := by
  rcases lt_trichotomy (L.idxOf p) (L.idxOf q) with h | h | h
  · exact Or.inl h
  · exact absurd ((List.idxOf_inj hp).1 h) hpq
  · exact Or.inr h

theorem erase_map_eraseIdx {γ : Type} {p : ι} {L : List ι} (hp : p ∈ L) (g : ι → γ) :
    (L.map g).eraseIdx (L.idxOf p) = (L.erase p).map g := by
  induction L with
  | nil => simp at hp
  | cons a L ih =>
    by_cases h : a = p
    · subst h; simp
    · have hp' : p ∈ L := by simpa [Ne.symm h] using hp
      rw [List.erase_cons_tail (by simpa using h), List.idxOf_cons_ne _ (fun e => h e)]
      simp [ih hp']

theorem erase2_labels {γ : Type} {p q : ι} {L : List ι} (hL : L.Nodup) (hp : p ∈ L) (hq : q ∈ L) (hpq : p ≠ q)
    (g : ι → γ) :
    Nd.erase2 (L.idxOf p) (L.idxOf q) (L.map g) = ((L.erase p).erase q).map g := by
  unfold Nd.erase2
  rcases idxOf_lt_or hp hpq with h | h
  · rw [if_pos h.le, erase_map_eraseIdx hq, ← idxOf_erase_of_lt hL hp h,
      erase_map_eraseIdx ((List.mem_erase_of_ne hpq).2 hp), List.erase_comm]
  · rw [if_neg (by omega), erase_map_eraseIdx hp, ← idxOf_erase_of_lt hL hq h,
      erase_map_eraseIdx ((List.mem_erase_of_ne hpq.symm).2 hq)]

theorem insert2_labels {p q : ι} {L : List ι} (hL : L.Nodup) (hp : p ∈ L) (hq : q ∈ L) (hpq : p ≠ q)
    (f : ι → ℕ) (i : ℕ) :
    Nd.insert2 (L.idxOf p) (L.idxOf q) i (((L.erase p).erase q).map f) =
      L.map (Function.update (Function.update f p i) q i) := by
  unfold Nd.insert2
  rcases idxOf_lt_or hp hpq with h | h
  · rw [if_pos h.le, ← idxOf_erase_of_lt hL hp h, List.erase_comm,
      insertIdx_map_erase (hL.erase q) ((List.mem_erase_of_ne hpq).2 hp), insertIdx_map_erase hL hq]
  · rw [if_neg (by omega), ← idxOf_erase_of_lt hL hq h,
      insertIdx_map_erase (hL.erase p) ((List.mem_erase_of_ne hpq.symm).2 hq), insertIdx_map_erase hL hp,
      Function.update_comm hpq]

/-- The nested sums of the loop. -/
def sumPairs {R : Type} [CommSemiring R] (dim : ι → ℕ) : List (ι × ι) → (ι → ℕ) → ((ι → ℕ) → R) → R
  | [], f, F => F f
  | (p, q) :: r, f, F =>
      sumPairs dim r f (fun g => ∑ i ∈ Finset.range (min (dim p) (dim q)),
        F (Function.update (Function.update g p i) q i))

theorem listIndex_mem {L : List ι} {x : ι} (h : x ∈ L) : listIndex L x = .ok (L.idxOf x) := if_pos h
theorem listRemove_mem {L : List ι} {x : ι} (h : x ∈ L) : listRemove L x = .ok (L.erase x) := if_pos h

theorem contractLoop_ok {R : Type} [CommSemiring R] (dim : ι → ℕ) (pairs : List (ι × ι)) :
    ∀ (ans : Nd R) (L : List ι), L.Nodup → ans.shape = L.map dim →
      (pairs.flatMap (fun pq => [pq.1, pq.2])).Nodup → (∀ pq ∈ pairs, pq.1 ∈ L ∧ pq.2 ∈ L) →
      ∃ res, contractLoop (ringOps R) (pairs.map (fun pq => [pq.1, pq.2])) ans L = .ok res ∧
        res.shape = (L.filter (fun a => decide (∀ pq ∈ pairs, a ≠ pq.1 ∧ a ≠ pq.2))).map dim ∧
        ∀ f, res.get ((L.filter (fun a => decide (∀ pq ∈ pairs, a ≠ pq.1 ∧ a ≠ pq.2))).map f) =
          sumPairs dim pairs f (fun g => ans.get (L.map g)) := by
  induction pairs with
  | nil =>
    intro ans L hL hs _ _
    have : (L.filter (fun _ => true)) = L := List.filter_eq_self.2 (by simp)
    refine ⟨ans, rfl, ?_, fun f => ?_⟩
    · simpa using hs
    · simp [sumPairs]
  | cons pq pairs ih =>
    obtain ⟨p, q⟩ := pq
    intro ans L hL hs hnd hmem
    simp only [List.flatMap_cons, List.cons_append, List.nil_append, List.nodup_cons, List.mem_cons, not_or] at hnd
    obtain ⟨⟨hpq, hp'⟩, hq', hnd'⟩ := hnd
    have hpL : p ∈ L := (hmem (p, q) (by simp)).1
    have hqL : q ∈ L := (hmem (p, q) (by simp)).2
    have hqL' : q ∈ L.erase p := (List.mem_erase_of_ne (Ne.symm hpq)).2 hqL
    have hlen : ans.rank = L.length := by unfold Nd.rank; rw [hs]; simp
    have hip : L.idxOf p < L.length := List.idxOf_lt_length_of_mem hpL
    have hiq : L.idxOf q < L.length := List.idxOf_lt_length_of_mem hqL
    have hne : L.idxOf p ≠ L.idxOf q := fun h => hpq ((List.idxOf_inj hpL).1 h)
    have hdp : ans.shape.getD (L.idxOf p) 0 = dim p := by
      rw [hs]; simp [List.getD, List.getElem?_map, List.getElem?_eq_getElem hip]
    have hdq : ans.shape.getD (L.idxOf q) 0 = dim q := by
      rw [hs]; simp [List.getD, List.getElem?_map, List.getElem?_eq_getElem hiq]
    have htr := (show Nd.trace (ringOps R) ans (L.idxOf p) (L.idxOf q) = .ok _ from
      if_pos ⟨by omega, by omega, hne⟩)
    rw [hdp, hdq, hs, erase2_labels hL hpL hqL hpq] at htr
    set ans' : Nd R := ⟨((L.erase p).erase q).map dim, fun idx => (ringOps R).sum (min (dim p) (dim q))
      (fun i => ans.get (Nd.insert2 (L.idxOf p) (L.idxOf q) i idx))⟩ with hans'
    obtain ⟨res, hres, hshape, hval⟩ := ih ans' ((L.erase p).erase q) ((hL.erase p).erase q) rfl hnd' (by
      intro pq hpq'
      have h := hmem pq (by simp [hpq'])
      have e1 : ∀ x, (x = pq.1 ∨ x = pq.2) → x ∈ pairs.flatMap (fun pq => [pq.1, pq.2]) := by
        intro x hx
        rw [List.mem_flatMap]
        exact ⟨pq, hpq', by simpa using hx⟩
      have k1 : pq.1 ≠ p := fun e => hp' (e ▸ e1 pq.1 (Or.inl rfl))
      have k2 : pq.2 ≠ p := fun e => hp' (e ▸ e1 pq.2 (Or.inr rfl))
      have k3 : pq.1 ≠ q := fun e => hq' (e ▸ e1 pq.1 (Or.inl rfl))
      have k4 : pq.2 ≠ q := fun e => hq' (e ▸ e1 pq.2 (Or.inr rfl))
      exact ⟨(List.mem_erase_of_ne k3).2 ((List.mem_erase_of_ne k1).2 h.1),
        (List.mem_erase_of_ne k4).2 ((List.mem_erase_of_ne k2).2 h.2)⟩)
    have hfil : (((L.erase p).erase q).filter (fun a => decide (∀ pq ∈ pairs, a ≠ pq.1 ∧ a ≠ pq.2))) =
        L.filter (fun a => decide (∀ pq ∈ (p, q) :: pairs, a ≠ pq.1 ∧ a ≠ pq.2)) := by
      rw [(hL.erase p).erase_eq_filter, hL.erase_eq_filter, List.filter_filter, List.filter_filter]
      refine List.filter_congr (fun a _ => ?_)
      simp only [List.mem_cons, forall_eq_or_imp, ne_eq]
      by_cases h1 : a = p
      · simp [h1]
      · by_cases h2 : a = q
        · simp [h2]
        · have k1 : (a != p) = true := by simpa using h1
          have k2 : (a != q) = true := by simpa using h2
          simp [h1, h2, k1, k2]
    rw [hfil] at hshape hval
    refine ⟨res, ?_, hshape, fun f => ?_⟩
    · rw [List.map_cons, contractLoop]
      simp only [List.mapM_cons, List.mapM_nil, listIndex_mem hpL, listIndex_mem hqL, ok_bind, pure_bind]
      have g0 : pyGet [L.idxOf p, L.idxOf q] 0 = .ok (L.idxOf p) := rfl
      have g1 : pyGet [L.idxOf p, L.idxOf q] 1 = .ok (L.idxOf q) := rfl
      rw [g0, ok_bind, g1, ok_bind, htr, ok_bind]
      simp only [List.foldlM_cons, List.foldlM_nil, listRemove_mem hpL, listRemove_mem hqL', ok_bind]
      exact hres
    · rw [hval f, sumPairs]
      congr 1
      funext g
      rw [hans']
      simp only
      rw [ringOps_sum]
      refine Finset.sum_congr rfl (fun i _ => ?_)
      rw [insert2_labels hL hpL hqL hpq]

/-- The label values after all pairs have been given their values. -/
def assignPairs : List (ι × ι) → List ℕ → (ι → ℕ) → ι → ℕ
  | [], _, f => f
  | _ :: _, [], f => f
  | (p, q) :: r, i :: v, f => Function.update (Function.update (assignPairs r v f) p i) q i

theorem list_sum_comm {R β : Type} [CommSemiring R] (l : List β) (n : ℕ) (g : β → ℕ → R) :
    (l.map (fun v => ∑ i ∈ Finset.range n, g v i)).sum = ∑ i ∈ Finset.range n, (l.map (fun v => g v i)).sum := by
  induction l with
  | nil => simp
  | cons a l ih => simp [ih, Finset.sum_add_distrib]

theorem sum_tuples_cons {R : Type} [CommSemiring R] (d : ℕ) (ds : List ℕ) (g : List ℕ → R) :
    ((Nd.tuples (d :: ds)).map g).sum =
      ∑ i ∈ Finset.range d, ((Nd.tuples ds).map (fun v => g (i :: v))).sum := by
  rw [Nd.tuples]
  induction d with
  | zero => simp
  | succ d ih =>
    rw [List.range_succ, List.flatMap_append, List.map_append, List.sum_append, ih, Finset.sum_range_succ]
    simp [List.map_map, Function.comp_def]

theorem sumPairs_eq {R : Type} [CommSemiring R] (dim : ι → ℕ) (pairs : List (ι × ι)) (f : ι → ℕ) :
    ∀ F : (ι → ℕ) → R, sumPairs dim pairs f F =
      ((Nd.tuples (pairs.map (fun pq => min (dim pq.1) (dim pq.2)))).map
        (fun v => F (assignPairs pairs v f))).sum := by
  induction pairs with
  | nil => intro F; simp [sumPairs, Nd.tuples, assignPairs]
  | cons pq pairs ih =>
    obtain ⟨p, q⟩ := pq
    intro F
    rw [sumPairs, ih, List.map_cons, sum_tuples_cons, list_sum_comm]
    rfl

theorem assignPairs_apply (pairs : List (ι × ι)) (f : ι → ℕ) (a : ι) :
    ∀ v : List ℕ, v.length = pairs.length → assignPairs pairs v f a =
      if ∃ pq ∈ pairs, a = pq.1 ∨ a = pq.2 then
        v.getD (pairs.findIdx (fun pq => decide (a = pq.1 ∨ a = pq.2))) 0
      else f a := by
  induction pairs with
  | nil => intro v _; simp [assignPairs]
  | cons pq pairs ih =>
    obtain ⟨p, q⟩ := pq
    intro v hv
    cases v with
    | nil => simp at hv
    | cons i v =>
      rw [assignPairs]
      by_cases hq : a = q
      · subst hq
        simp [List.findIdx_cons]
      · rw [Function.update_of_ne hq]
        by_cases hp : a = p
        · subst hp
          simp [List.findIdx_cons]
        · rw [Function.update_of_ne hp, ih v (by simpa using hv)]
          have e : (∃ pq ∈ (p, q) :: pairs, a = pq.1 ∨ a = pq.2) ↔ ∃ pq ∈ pairs, a = pq.1 ∨ a = pq.2 := by
            simp only [List.mem_cons, exists_eq_or_imp, hp, hq, or_self, false_or]
          simp only [e]
          simp [List.findIdx_cons, hp, hq]

theorem sumPairs_comm {R : Type} [CommSemiring R] (dim : ι → ℕ) {l l' : List (ι × ι)} (h : l.Perm l') :
    (l.flatMap (fun pq => [pq.1, pq.2])).Nodup → ∀ (f : ι → ℕ) (F : (ι → ℕ) → R),
      sumPairs dim l f F = sumPairs dim l' f F := by
  induction h with
  | nil => intro _ f F; rfl
  | cons x _ ih =>
    intro hn f F
    obtain ⟨p, q⟩ := x
    simp only [sumPairs]
    apply ih
    simp only [List.flatMap_cons, List.nodup_append] at hn
    exact hn.2.1
  | swap x y l =>
    intro hn f F
    obtain ⟨p, q⟩ := x
    obtain ⟨r, s⟩ := y
    simp only [sumPairs]
    congr 1
    funext g
    rw [Finset.sum_comm]
    refine Finset.sum_congr rfl (fun i _ => Finset.sum_congr rfl (fun j _ => ?_))
    simp only [List.flatMap_cons, List.cons_append, List.nil_append, List.nodup_cons, List.mem_cons, not_or] at hn
    obtain ⟨⟨h1, h2, h3, -⟩, ⟨h4, h5, -⟩, -, -⟩ := hn
    congr 1
    funext a
    simp only [Function.update_apply]
    by_cases e1 : a = p <;> by_cases e2 : a = q <;> by_cases e3 : a = r <;> by_cases e4 : a = s <;>
      simp_all
  | trans h1 _ ih1 ih2 =>
    intro hn f F
    rw [ih1 hn, ih2]
    exact (h1.flatMap_right _).nodup_iff.1 hn

end Loop

theorem mem_tuples {ds v : List ℕ} : v ∈ Nd.tuples ds ↔ Nd.InRange ds v := by
  induction ds generalizing v with
  | nil => simp [Nd.tuples, Nd.InRange]
  | cons d ds ih =>
    simp only [Nd.tuples, List.mem_flatMap, List.mem_range, List.mem_map, Nd.InRange]
    constructor
    · rintro ⟨i, hi, t, ht, rfl⟩
      exact List.Forall₂.cons hi (ih.1 ht)
    · intro h
      cases h with
      | cons h1 h2 => exact ⟨_, h1, _, ih.2 h2, rfl⟩

theorem tuples_nodup (ds : List ℕ) : (Nd.tuples ds).Nodup := by
  induction ds with
  | nil => simp [Nd.tuples]
  | cons d ds ih =>
    rw [Nd.tuples, List.nodup_flatMap]
    refine ⟨fun i _ => ih.map (fun a b h => by simpa using h), ?_⟩
    refine List.nodup_range.imp ?_
    intro i j hij
    simp only [Function.onFun]
    intro x h1 h2
    obtain ⟨a, -, rfl⟩ := List.mem_map.1 h1
    obtain ⟨b, -, h⟩ := List.mem_map.1 h2
    exact hij (by simpa using (List.cons.inj h).1.symm)

theorem length_of_mem_tuples {ds v : List ℕ} (h : v ∈ Nd.tuples ds) : v.length = ds.length :=
  List.Forall₂.length_eq (mem_tuples.1 h)

/-- The axis numbers of a tensor as the integers that label them in `tensor_contract`. -/
def castPair (pq : ℕ × ℕ) : ℤ × ℤ := ((pq.1 : ℤ), (pq.2 : ℤ))

theorem tensorContract_ok' {R : Type} [CommSemiring R] (t : Nd R) (pairs : List (ℕ × ℕ))
    (hd : DisjointPairs t.rank pairs) :
    ∃ res, tensorContract (ringOps R) t (pairs.map (fun pq => [(pq.1 : ℤ), (pq.2 : ℤ)])) = .ok res ∧
      res.shape = (freeAxes t.rank pairs).map (fun a => t.shape.getD a 0) ∧
      ∀ f : ℕ → ℕ, res.get ((freeAxes t.rank pairs).map f) =
        sumPairs (fun a : ℤ => t.shape.getD a.toNat 0) (pairs.map castPair) (fun a : ℤ => f a.toNat)
          (fun g => t.get (((List.range t.rank).map (fun i : ℕ => (i : ℤ))).map g)) := by
  obtain ⟨hn, hr⟩ := hd
  set L : List ℤ := (List.range t.rank).map (fun i : ℕ => (i : ℤ)) with hLdef
  have hcast : Function.Injective (fun i : ℕ => (i : ℤ)) := Nat.cast_injective
  have hL : L.Nodup := List.nodup_range.map hcast
  have hshape : t.shape = L.map (fun a : ℤ => t.shape.getD a.toNat 0) := by
    rw [hLdef, List.map_map]
    apply List.ext_getElem
    · simp [Nd.rank]
    · intro i h1 h2
      simp [List.getD, List.getElem?_eq_getElem h1]
  have hflat : ((pairs.map castPair).flatMap (fun pq => [pq.1, pq.2])) =
      (pairs.flatMap (fun pq => [pq.1, pq.2])).map (fun i : ℕ => (i : ℤ)) := by
    clear hr hn
    induction pairs with
    | nil => rfl
    | cons a l ih => simp [ih, castPair]
  obtain ⟨res, hres, hs, hv⟩ := contractLoop_ok (fun a : ℤ => t.shape.getD a.toNat 0) (pairs.map castPair) t L hL
    hshape (by rw [hflat]; exact hn.map hcast) (by
      intro pq hpq
      obtain ⟨x, hx, rfl⟩ := List.mem_map.1 hpq
      have h := hr x hx
      simp only [castPair, hLdef, List.mem_map, List.mem_range]
      exact ⟨⟨x.1, h.1, rfl⟩, ⟨x.2, h.2, rfl⟩⟩)
  have hfil : L.filter (fun a => decide (∀ pq ∈ pairs.map castPair, a ≠ pq.1 ∧ a ≠ pq.2)) =
      (freeAxes t.rank pairs).map (fun i : ℕ => (i : ℤ)) := by
    rw [hLdef, freeAxes, List.filter_map]
    congr 1
    refine List.filter_congr (fun a _ => ?_)
    refine decide_eq_decide.2 ?_
    constructor
    · intro h pq hpq
      have := h _ (List.mem_map.2 ⟨pq, hpq, rfl⟩)
      simpa [castPair] using this
    · rintro h _ hx
      obtain ⟨pq, hpq, rfl⟩ := List.mem_map.1 hx
      simpa [castPair] using h pq hpq
  rw [hfil] at hs hv
  rw [List.map_map] at hs
  refine ⟨res, ?_, ?_, fun f => ?_⟩
  · rw [← hres]
    unfold tensorContract
    rw [List.map_map]
    rfl
  · rw [hs]; rfl
  · have := hv (fun a : ℤ => f a.toNat)
    rw [List.map_map] at this
    exact this

theorem sumPairs_contracted {R : Type} [CommSemiring R] (t : Nd R) (pairs : List (ℕ × ℕ)) (f : ℕ → ℕ) :
    sumPairs (fun a : ℤ => t.shape.getD a.toNat 0) (pairs.map castPair) (fun a : ℤ => f a.toNat)
      (fun g => t.get (((List.range t.rank).map (fun i : ℕ => (i : ℤ))).map g)) = contracted t pairs f := by
  rw [sumPairs_eq, contracted]
  congr 1
  have e : (pairs.map castPair).map (fun pq : ℤ × ℤ => min (t.shape.getD pq.1.toNat 0) (t.shape.getD pq.2.toNat 0)) =
      pairs.map (fun pq => min (t.shape.getD pq.1 0) (t.shape.getD pq.2 0)) := by
    rw [List.map_map]; rfl
  rw [e]
  refine List.map_congr_left (fun v hv => ?_)
  congr 1
  rw [List.map_map]
  refine List.map_congr_left (fun a _ => ?_)
  have hlen : v.length = (pairs.map castPair).length := by
    rw [length_of_mem_tuples hv]; simp
  simp only [Function.comp]
  rw [assignPairs_apply _ _ _ v hlen, axisValue]
  have e1 : (∃ pq ∈ pairs.map castPair, (a : ℤ) = pq.1 ∨ (a : ℤ) = pq.2) ↔ ∃ pq ∈ pairs, a = pq.1 ∨ a = pq.2 := by
    constructor
    · rintro ⟨pq, h, h'⟩
      obtain ⟨x, hx, rfl⟩ := List.mem_map.1 h
      exact ⟨x, hx, by simpa [castPair] using h'⟩
    · rintro ⟨x, hx, h'⟩
      exact ⟨castPair x, List.mem_map.2 ⟨x, hx, rfl⟩, by simpa [castPair] using h'⟩
  have e2 : (pairs.map castPair).findIdx (fun pq => decide ((a : ℤ) = pq.1 ∨ (a : ℤ) = pq.2)) =
      pairs.findIdx (fun pq => decide (a = pq.1 ∨ a = pq.2)) := by
    rw [List.findIdx_map]
    congr 1
    funext x
    simp [castPair]
  simp only [e1, e2, Int.toNat_natCast]

theorem tensorContract_ok {R : Type} [CommSemiring R] (t : Nd R) (pairs : List (ℕ × ℕ))
    (hd : DisjointPairs t.rank pairs) :
    ∃ res, tensorContract (ringOps R) t (pairs.map (fun pq => [(pq.1 : ℤ), (pq.2 : ℤ)])) = .ok res ∧
      res.shape = (freeAxes t.rank pairs).map (fun a => t.shape.getD a 0) ∧
      ∀ f : ℕ → ℕ, res.get ((freeAxes t.rank pairs).map f) = contracted t pairs f := by
  obtain ⟨res, h1, h2, h3⟩ := tensorContract_ok' t pairs hd
  exact ⟨res, h1, h2, fun f => by rw [h3 f, sumPairs_contracted]⟩

theorem contracted_perm {R : Type} [CommSemiring R] (t : Nd R) {l l' : List (ℕ × ℕ)} (h : l.Perm l')
    (hn : (l.flatMap (fun pq => [pq.1, pq.2])).Nodup) (f : ℕ → ℕ) : contracted t l f = contracted t l' f := by
  rw [← sumPairs_contracted, ← sumPairs_contracted]
  refine sumPairs_comm _ (h.map castPair) ?_ _ _
  have hflat : ((l.map castPair).flatMap (fun pq => [pq.1, pq.2])) =
      (l.flatMap (fun pq => [pq.1, pq.2])).map (fun i : ℕ => (i : ℤ)) := by
    clear h hn
    induction l with
    | nil => rfl
    | cons a l ih => simp [ih, castPair]
  rw [hflat]
  exact hn.map Nat.cast_injective

/-- Every index tuple of the right length is the list of values of the given axes. -/
theorem exists_labels {L : List ℕ} (hL : L.Nodup) {idx : List ℕ} (h : idx.length = L.length) :
    ∃ f : ℕ → ℕ, L.map f = idx := by
  refine ⟨fun a => idx.getD (L.idxOf a) 0, ?_⟩
  apply List.ext_getElem
  · simp [h]
  · intro i h1 h2
    simp only [List.length_map] at h1
    simp [hL.idxOf_getElem, List.getElem?_eq_getElem h2]

theorem freeAxes_nodup (r : ℕ) (pairs : List (ℕ × ℕ)) : (freeAxes r pairs).Nodup := List.nodup_range.filter _

end Shgpy
