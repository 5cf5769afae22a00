import Verif.Proofs.Transform

/-!
# Theorems: tensor algebra (C36, C37, C41)
-/

namespace Shgpy
open Spec

set_option linter.unusedSectionVars false
set_option linter.unusedSimpArgs false

variable {R : Type} [CommSemiring R]

/-! ## C36: `tensor_contract` -/

/-- **C36.**  Contracting a tensor of any rank and any dimensions over a list of disjoint in-range pairs of axes returns a
tensor over the remaining axes, in their original order, whose element at the values `f` of the remaining axes is the sum
over all values of the pairs of the elements of the tensor with the two axes of each pair set equal. -/
theorem C36_contract (t : Nd R) (pairs : List (ℕ × ℕ)) (hd : DisjointPairs t.rank pairs) :
    ∃ res, tensorContract (ringOps R) t (pairs.map (fun pq => [(pq.1 : ℤ), (pq.2 : ℤ)])) = .ok res ∧
      res.shape = (freeAxes t.rank pairs).map (fun a => t.shape.getD a 0) ∧
      ∀ f : ℕ → ℕ, res.get ((freeAxes t.rank pairs).map f) = contracted t pairs f :=
  tensorContract_ok t pairs hd

/-- Every index tuple of the result is of the form used in `C36_contract`, so that theorem determines all elements. -/
theorem C36_indices (r : ℕ) (pairs : List (ℕ × ℕ)) (idx : List ℕ) (h : idx.length = (freeAxes r pairs).length) :
    ∃ f : ℕ → ℕ, (freeAxes r pairs).map f = idx :=
  exists_labels (freeAxes_nodup r pairs) h

/-- The tuples summed over in `contracted`: exactly the tuples below the bounds, each once. -/
theorem C36_tuples (ds : List ℕ) : (Nd.tuples ds).Nodup ∧ ∀ v, v ∈ Nd.tuples ds ↔ Nd.InRange ds v :=
  ⟨tuples_nodup ds, fun _ => mem_tuples⟩

/-- **C36, order of the pairs.**  Rearranging the pairs does not change the result. -/
theorem C36_order (t : Nd R) (pairs pairs' : List (ℕ × ℕ)) (hd : DisjointPairs t.rank pairs)
    (hp : pairs.Perm pairs') :
    ∃ res res', tensorContract (ringOps R) t (pairs.map (fun pq => [(pq.1 : ℤ), (pq.2 : ℤ)])) = .ok res ∧
      tensorContract (ringOps R) t (pairs'.map (fun pq => [(pq.1 : ℤ), (pq.2 : ℤ)])) = .ok res' ∧ Nd.Same res res' := by
  have hd' : DisjointPairs t.rank pairs' :=
    ⟨(hp.flatMap_right _).nodup_iff.1 hd.1, fun pq h => hd.2 pq (hp.mem_iff.2 h)⟩
  have hfree : freeAxes t.rank pairs' = freeAxes t.rank pairs := by
    unfold freeAxes
    refine List.filter_congr (fun a _ => decide_eq_decide.2 ?_)
    exact ⟨fun h pq hpq => h pq (hp.mem_iff.1 hpq), fun h pq hpq => h pq (hp.mem_iff.2 hpq)⟩
  obtain ⟨res, h1, h2, h3⟩ := tensorContract_ok t pairs hd
  obtain ⟨res', h1', h2', h3'⟩ := tensorContract_ok t pairs' hd'
  rw [hfree] at h2' h3'
  refine ⟨res, res', h1, h1', h2.trans h2'.symm, fun idx hidx => ?_⟩
  obtain ⟨f, rfl⟩ := exists_labels (freeAxes_nodup t.rank pairs) (idx := idx) (by
    have := hidx.length_eq
    rw [h2] at this
    simpa using this)
  rw [h3, h3', contracted_perm t hp hd.1]

/-- **C36, the two axes of a pair.**  Exchanging the two axes of a pair does not change the result. -/
theorem C36_swap (t : Nd R) (p q : ℕ) (hpq : p ≠ q) (hp : p < t.rank) (hq : q < t.rank) :
    ∃ res res', tensorContract (ringOps R) t [[(p : ℤ), (q : ℤ)]] = .ok res ∧
      tensorContract (ringOps R) t [[(q : ℤ), (p : ℤ)]] = .ok res' ∧ Nd.Same res res' := by
  obtain ⟨res, h1, h2, h3⟩ := tensorContract_ok t [(p, q)] ⟨by simp [hpq], by simp [hp, hq]⟩
  obtain ⟨res', h1', h2', h3'⟩ := tensorContract_ok t [(q, p)] ⟨by simp [hpq.symm], by simp [hp, hq]⟩
  have hfree : freeAxes t.rank [(q, p)] = freeAxes t.rank [(p, q)] := by
    unfold freeAxes
    refine List.filter_congr (fun a _ => decide_eq_decide.2 ?_)
    simp [and_comm]
  rw [hfree] at h2' h3'
  refine ⟨res, res', h1, h1', h2.trans h2'.symm, fun idx hidx => ?_⟩
  obtain ⟨f, rfl⟩ := exists_labels (freeAxes_nodup t.rank [(p, q)]) (idx := idx) (by
    have := hidx.length_eq
    rw [h2] at this
    simpa using this)
  rw [h3, h3', contracted, contracted]
  simp only [List.map_cons, List.map_nil]
  rw [min_comm]
  congr 1
  refine List.map_congr_left (fun v _ => ?_)
  congr 1
  refine List.map_congr_left (fun a _ => ?_)
  by_cases e1 : a = p <;> by_cases e2 : a = q <;> simp [axisValue, List.findIdx_cons, e1, e2]

/-- An axis that is out of range, negative, already contracted or paired with itself raises `ValueError`; a pair with
fewer than two axes raises `IndexError`. -/
theorem C36_errors (t : Nd R) :
    (∀ (a b : ℤ) rest, (a < 0 ∨ (t.rank : ℤ) ≤ a) → tensorContract (ringOps R) t ([a, b] :: rest) = .error .valueError) ∧
    (∀ (a b : ℤ) rest, 0 ≤ a → a < t.rank → (b < 0 ∨ (t.rank : ℤ) ≤ b) →
      tensorContract (ringOps R) t ([a, b] :: rest) = .error .valueError) ∧
    (∀ (a : ℤ) rest, 0 ≤ a → a < t.rank → tensorContract (ringOps R) t ([a, a] :: rest) = .error .valueError) ∧
    (∀ rest, tensorContract (ringOps R) t ([] :: rest) = .error .indexError) ∧
    (∀ (a : ℤ) rest, 0 ≤ a → a < t.rank → tensorContract (ringOps R) t ([a] :: rest) = .error .indexError) := by
  have hmem : ∀ a : ℤ, a ∈ (List.range t.rank).map (fun i : ℕ => (i : ℤ)) ↔ 0 ≤ a ∧ a < t.rank := by
    intro a
    simp only [List.mem_map, List.mem_range]
    constructor
    · rintro ⟨i, hi, rfl⟩; omega
    · rintro ⟨h0, h1⟩; exact ⟨a.toNat, by omega, by omega⟩
  refine ⟨?_, ?_, ?_, ?_, ?_⟩
  · intro a b rest h
    have : a ∉ (List.range t.rank).map (fun i : ℕ => (i : ℤ)) := by rw [hmem]; omega
    unfold tensorContract contractLoop
    simp [List.mapM_cons, listIndex, this, error_bind]
  · intro a b rest h0 h1 h
    have ha : a ∈ (List.range t.rank).map (fun i : ℕ => (i : ℤ)) := (hmem a).2 ⟨h0, h1⟩
    have hb : b ∉ (List.range t.rank).map (fun i : ℕ => (i : ℤ)) := by rw [hmem]; omega
    unfold tensorContract contractLoop
    simp only [List.mapM_cons, listIndex, if_pos ha, if_neg hb, ok_bind, error_bind]
  · intro a rest h0 h1
    have ha : a ∈ (List.range t.rank).map (fun i : ℕ => (i : ℤ)) := (hmem a).2 ⟨h0, h1⟩
    unfold tensorContract contractLoop
    simp only [List.mapM_cons, List.mapM_nil, listIndex, if_pos ha, ok_bind, pure_bind]
    have g : ∀ n : ℕ, pyGet [n, n] 0 = .ok n ∧ pyGet [n, n] 1 = .ok n := fun n => ⟨rfl, rfl⟩
    rw [(g _).1, ok_bind, (g _).2, ok_bind]
    simp [Nd.trace, error_bind]
  · intro rest
    rfl
  · intro a rest h0 h1
    have ha : a ∈ (List.range t.rank).map (fun i : ℕ => (i : ℤ)) := (hmem a).2 ⟨h0, h1⟩
    unfold tensorContract contractLoop
    simp only [List.mapM_cons, List.mapM_nil, listIndex, if_pos ha, ok_bind, pure_bind]
    rfl

/-- A rank-4 example with axes of different lengths: contracting axes 1 and 3 of a tensor of shape `(2, 3, 4, 3)`. -/
example (t : Nd ℤ) (h : t.shape = [2, 3, 4, 3]) : DisjointPairs t.rank [(1, 3)] ∧
    freeAxes t.rank [(1, 3)] = [0, 2] ∧
    ∀ f : ℕ → ℕ, contracted t [(1, 3)] f =
      t.get [f 0, 0, f 2, 0] + t.get [f 0, 1, f 2, 1] + t.get [f 0, 2, f 2, 2] := by
  have hr : t.rank = 4 := by simp [Nd.rank, h]
  refine ⟨⟨by simp, by simp [hr]⟩, by rw [hr]; rfl, fun f => ?_⟩
  rw [contracted, hr, h]
  simp [Nd.tuples, axisValue, List.range_succ, List.findIdx_cons]
  ring

/-! ## C37: `transform` -/

/-- **C37, formula.**  For a tensor of rank `r ≥ 1` with all axes of length `d` and a matrix with `d` columns, `transform`
returns the tensor with elements `sum A_{i1 j1}...A_{ir jr} t_{j1...jr}`. -/
theorem C37_formula {A t : Nd R} {e d r : ℕ} (hr : 0 < r) (hA : IsMatrix e d A) (ht : IsTensor d r t) :
    ∃ res, transform (ringOps R) t A = .ok res ∧ IsTensor e r res ∧
      ∀ idx, idx.length = r → res.get idx = transformed A t idx :=
  transform_ok hr hA ht

/-- A scalar cannot be transformed: `tensor_product` with a single factor raises `IndexError`. -/
theorem C37_rank_zero (A t : Nd R) (ht : t.shape = []) : transform (ringOps R) t A = .error .indexError := by
  unfold transform
  simp only [Nd.rank, ht]
  rfl

/-- **C37, identity.**  Transforming by the identity matrix changes nothing. -/
theorem C37_identity {t : Nd R} {d r : ℕ} (hr : 0 < r) (ht : IsTensor d r t) :
    ∃ res, transform (ringOps R) t (identity d) = .ok res ∧ Nd.Same res t := by
  obtain ⟨res, h1, h2, h3⟩ := transform_ok (A := identity d) hr (rfl : IsMatrix d d (identity d)) ht
  refine ⟨res, h1, h2.trans ht.symm, fun idx hidx => ?_⟩
  rw [show res.shape = _ from h2] at hidx
  have hl : idx.length = r := by simpa using hidx.length_eq
  rw [h3 idx hl, transformed_eq_tsum ht idx hl, tsum_identity d idx _ (by rw [hl]; exact hidx)]

/-- **C37, composition.**  Transforming by `A` and then by `B` is transforming by the matrix product `B A`. -/
theorem C37_composition {t A B : Nd R} {f e d r : ℕ} (hr : 0 < r) (ht : IsTensor d r t) (hA : IsMatrix e d A)
    (hB : IsMatrix f e B) :
    ∃ t1 t2 t3, transform (ringOps R) t A = .ok t1 ∧ transform (ringOps R) t1 B = .ok t2 ∧
      transform (ringOps R) t (matMul B A) = .ok t3 ∧ Nd.Same t2 t3 := by
  obtain ⟨t1, h1, s1, v1⟩ := transform_ok hr hA ht
  obtain ⟨t2, h2, s2, v2⟩ := transform_ok hr hB s1
  have hBA : IsMatrix f d (matMul B A) := by
    unfold IsMatrix matMul
    rw [show A.shape = [e, d] from hA, show B.shape = [f, e] from hB]
    rfl
  obtain ⟨t3, h3, s3, v3⟩ := transform_ok hr hBA ht
  refine ⟨t1, t2, t3, h1, h2, h3, s2.trans s3.symm, fun idx hidx => ?_⟩
  rw [show t2.shape = _ from s2] at hidx
  have hl : idx.length = r := by simpa using hidx.length_eq
  rw [v2 idx hl, v3 idx hl, transformed_eq_tsum s1 idx hl, transformed_eq_tsum ht idx hl, ← tsum_comp hA hB]
  refine tsum_congr B e idx (fun J hJ => ?_)
  have hJl : J.length = r := by
    have := hJ.length_eq
    simpa [hl] using this
  rw [v1 J hJl, transformed_eq_tsum ht J hJl]

/-- **C37, linearity.** -/
theorem C37_linear {s t A : Nd R} {e d r : ℕ} (c : R) (hr : 0 < r) (hs : IsTensor d r s) (ht : IsTensor d r t)
    (hA : IsMatrix e d A) :
    ∃ s' t' u v, transform (ringOps R) s A = .ok s' ∧ transform (ringOps R) t A = .ok t' ∧
      transform (ringOps R) (addT s t) A = .ok u ∧ Nd.Same u (addT s' t') ∧
      transform (ringOps R) (smulT c t) A = .ok v ∧ Nd.Same v (smulT c t') := by
  obtain ⟨s', h1, s1, v1⟩ := transform_ok hr hA hs
  obtain ⟨t', h2, s2, v2⟩ := transform_ok hr hA ht
  have ha : IsTensor d r (addT s t) := hs
  have hc : IsTensor d r (smulT c t) := ht
  obtain ⟨u, h3, s3, v3⟩ := transform_ok hr hA ha
  obtain ⟨v, h4, s4, v4⟩ := transform_ok hr hA hc
  refine ⟨s', t', u, v, h1, h2, h3, ⟨s3.trans s1.symm, fun idx hidx => ?_⟩, h4, s4.trans s2.symm, fun idx hidx => ?_⟩
  · rw [show u.shape = _ from s3] at hidx
    have hl : idx.length = r := by simpa using hidx.length_eq
    show _ = s'.get idx + t'.get idx
    rw [v3 idx hl, v1 idx hl, v2 idx hl, transformed_eq_tsum ha idx hl, transformed_eq_tsum hs idx hl,
      transformed_eq_tsum ht idx hl, ← tsum_add]
    rfl
  · rw [show v.shape = _ from s4] at hidx
    have hl : idx.length = r := by simpa using hidx.length_eq
    show _ = c * t'.get idx
    rw [v4 idx hl, v2 idx hl, transformed_eq_tsum hc idx hl, transformed_eq_tsum ht idx hl, ← tsum_smul]
    rfl

/-- `transform` only depends on the elements of the matrix. -/
theorem C37_congr {t A A' : Nd R} {e d r : ℕ} (hr : 0 < r) (ht : IsTensor d r t) (hA : IsMatrix e d A)
    (hAA : Nd.Same A A') :
    ∃ t1 t2, transform (ringOps R) t A = .ok t1 ∧ transform (ringOps R) t A' = .ok t2 ∧ Nd.Same t1 t2 := by
  obtain ⟨t1, h1, s1, v1⟩ := transform_ok hr hA ht
  obtain ⟨t2, h2, s2, v2⟩ := transform_ok (A := A') hr (e := e) (d := d) (hAA.1.symm.trans hA) ht
  refine ⟨t1, t2, h1, h2, s1.trans s2.symm, fun idx hidx => ?_⟩
  rw [show t1.shape = _ from s1] at hidx
  have hl : idx.length = r := by simpa using hidx.length_eq
  rw [v1 idx hl, v2 idx hl, transformed_eq_tsum ht idx hl, transformed_eq_tsum ht idx hl]
  have key : ∀ (I : List ℕ) (F : List ℕ → R), Nd.InRange (List.replicate I.length e) I →
      tsum A d I F = tsum A' d I F := by
    intro I
    induction I with
    | nil => intro F _; rfl
    | cons i I ih =>
      intro F h
      have h' : Nd.InRange (e :: List.replicate I.length e) (i :: I) := h
      have hi : i < e := (List.forall₂_cons.1 h').1
      have hI := (List.forall₂_cons.1 h').2
      simp only [tsum]
      refine Finset.sum_congr rfl (fun j hj => ?_)
      rw [ih _ hI, hAA.2 [i, j] (by
        rw [show A.shape = [e, d] from hA]
        exact .cons hi (.cons (Finset.mem_range.1 hj) .nil))]
  exact key idx _ (by rw [hl]; exact hidx)

/-- **C37, inverse.**  An orthogonal matrix (`Aᵀ A = 1`) is undone by its transpose. -/
theorem C37_orthogonal {t A : Nd R} {d r : ℕ} (hr : 0 < r) (ht : IsTensor d r t) (hA : IsMatrix d d A)
    (horth : Nd.Same (matMul (transpose A) A) (identity d)) :
    ∃ t1 t2, transform (ringOps R) t A = .ok t1 ∧ transform (ringOps R) t1 (transpose A) = .ok t2 ∧ Nd.Same t2 t := by
  have hT : IsMatrix d d (transpose A) := by
    unfold IsMatrix transpose
    rw [show A.shape = [d, d] from hA]
    rfl
  have hTA : IsMatrix d d (matMul (transpose A) A) := horth.1
  obtain ⟨t1, t2, t3, h1, h2, h3, h23⟩ := C37_composition hr ht hA hT
  obtain ⟨t3', t4, h3', h4, h34⟩ := C37_congr hr ht hTA horth
  obtain ⟨t4', h4', h45⟩ := C37_identity hr ht
  have e3 : t3' = t3 := Except.ok.inj (h3'.symm.trans h3)
  have e4 : t4' = t4 := Except.ok.inj (h4'.symm.trans h4)
  subst e3
  subst e4
  refine ⟨t1, t2, h1, h2, h23.1.trans (h34.1.trans h45.1), fun idx hidx => ?_⟩
  rw [h23.2 idx hidx]
  have k1 : Nd.InRange t3'.shape idx := h23.1 ▸ hidx
  rw [h34.2 idx k1]
  exact h45.2 idx (h34.1 ▸ k1)

/-- The quarter turn about the third axis, an orthogonal matrix that is not the identity, acting on rank 3. -/
example : ∃ (A : Nd ℤ) (t : Nd ℤ), IsMatrix 3 3 A ∧ IsTensor 3 3 t ∧
    Nd.Same (matMul (transpose A) A) (identity 3) ∧ transformed A t [0, 0, 0] ≠ t.get [0, 0, 0] := by
  refine ⟨⟨[3, 3], fun i => if i = [0, 1] then -1 else if i = [1, 0] then 1 else if i = [2, 2] then 1 else 0⟩,
    ⟨[3, 3, 3], fun i => if i = [0, 0, 0] then 1 else 0⟩, rfl, rfl, ⟨rfl, fun idx hidx => ?_⟩, by decide +kernel⟩
  have : ∀ idx ∈ Nd.tuples [3, 3], (matMul (transpose (⟨[3, 3], fun i => if i = [0, 1] then -1 else
      if i = [1, 0] then 1 else if i = [2, 2] then 1 else 0⟩ : Nd ℤ)) ⟨[3, 3], fun i => if i = [0, 1] then -1 else
      if i = [1, 0] then 1 else if i = [2, 2] then 1 else 0⟩).get idx = (identity 3 : Nd ℤ).get idx := by
    decide +kernel
  exact this idx (mem_tuples.2 hidx)

/-! ## C41: `union` -/

/-- **C41.**  The union has exactly the elements of the lists, each once, in the order of their first occurrence in the
concatenation: an element stands before another one iff some occurrence of it precedes all occurrences of the other. -/
theorem C41_union {α : Type} [DecidableEq α] (arrays : List (List α)) :
    (union arrays).Nodup ∧ (∀ x, x ∈ union arrays ↔ ∃ l ∈ arrays, x ∈ l) ∧
    ∀ x y, x ∈ union arrays → y ∈ union arrays →
      ((union arrays).idxOf x < (union arrays).idxOf y ↔ arrays.flatten.idxOf x < arrays.flatten.idxOf y) := by
  have hflat : union arrays = arrays.flatten.foldl (fun ans x => if x ∈ ans then ans else ans ++ [x]) [] := by
    have h : ∀ (g : List α → α → List α) (ls : List (List α)) (acc : List α),
        ls.foldl (fun ans y => y.foldl g ans) acc = ls.flatten.foldl g acc := by
      intro g ls
      induction ls with
      | nil => intro acc; rfl
      | cons l ls ih => intro acc; rw [List.foldl_cons, ih, List.flatten_cons, List.foldl_append]
    exact h _ _ _
  have key : ∀ l : List α,
      (l.foldl (fun ans x => if x ∈ ans then ans else ans ++ [x]) []).Nodup ∧
      (∀ x, x ∈ l.foldl (fun ans x => if x ∈ ans then ans else ans ++ [x]) [] ↔ x ∈ l) ∧
      ∀ x y, x ∈ l → y ∈ l →
        ((l.foldl (fun ans x => if x ∈ ans then ans else ans ++ [x]) []).idxOf x <
          (l.foldl (fun ans x => if x ∈ ans then ans else ans ++ [x]) []).idxOf y ↔ l.idxOf x < l.idxOf y) := by
    intro l
    induction l using List.reverseRecOn with
    | nil => simp
    | append_singleton l a ih =>
      obtain ⟨ih1, ih2, ih3⟩ := ih
      rw [List.foldl_append, List.foldl_cons, List.foldl_nil]
      set u := l.foldl (fun ans x => if x ∈ ans then ans else ans ++ [x]) [] with hu
      by_cases ha : a ∈ u
      · rw [if_pos ha]
        have hal : a ∈ l := (ih2 a).1 ha
        refine ⟨ih1, fun x => ?_, fun x y hx hy => ?_⟩
        · rw [ih2]; simp only [List.mem_append, List.mem_singleton]
          exact ⟨Or.inl, fun h => h.elim id (fun h => h ▸ hal)⟩
        · have hx' : x ∈ l := by
            rcases List.mem_append.1 hx with h | h
            · exact h
            · rw [List.mem_singleton.1 h]; exact hal
          have hy' : y ∈ l := by
            rcases List.mem_append.1 hy with h | h
            · exact h
            · rw [List.mem_singleton.1 h]; exact hal
          rw [ih3 x y hx' hy', List.idxOf_append_of_mem hx', List.idxOf_append_of_mem hy']
      · rw [if_neg ha]
        have hal : a ∉ l := fun h => ha ((ih2 a).2 h)
        refine ⟨?_, fun x => ?_, fun x y hx hy => ?_⟩
        · rw [List.nodup_append]
          exact ⟨ih1, by simp, by
            intro b hb c hc
            rw [List.mem_singleton.1 hc]
            rintro rfl
            exact ha hb⟩
        · simp [ih2]
        · have hiu : ∀ z, z ∈ l → (u ++ [a]).idxOf z = u.idxOf z ∧ (l ++ [a]).idxOf z = l.idxOf z ∧
              u.idxOf z < u.length ∧ l.idxOf z < l.length := fun z hz =>
            ⟨List.idxOf_append_of_mem ((ih2 z).2 hz), List.idxOf_append_of_mem hz,
              List.idxOf_lt_length_of_mem ((ih2 z).2 hz), List.idxOf_lt_length_of_mem hz⟩
          have hia : (u ++ [a]).idxOf a = u.length ∧ (l ++ [a]).idxOf a = l.length := by
            rw [List.idxOf_append_of_notMem ha, List.idxOf_append_of_notMem hal]
            simp
          rcases List.mem_append.1 hx with hx | hx <;> rcases List.mem_append.1 hy with hy | hy
          · rw [(hiu x hx).1, (hiu y hy).1, (hiu x hx).2.1, (hiu y hy).2.1, ih3 x y hx hy]
          · rw [List.mem_singleton.1 hy, (hiu x hx).1, (hiu x hx).2.1, hia.1, hia.2]
            exact ⟨fun _ => (hiu x hx).2.2.2, fun _ => (hiu x hx).2.2.1⟩
          · rw [List.mem_singleton.1 hx, (hiu y hy).1, (hiu y hy).2.1, hia.1, hia.2]
            have h1 := (hiu y hy).2.2.1
            have h2 := (hiu y hy).2.2.2
            omega
          · rw [List.mem_singleton.1 hx, List.mem_singleton.1 hy]
            simp
  rw [hflat]
  obtain ⟨k1, k2, k3⟩ := key arrays.flatten
  refine ⟨k1, fun x => ?_, fun x y hx hy => k3 x y ((k2 x).1 hx) ((k2 y).1 hy)⟩
  rw [k2]
  exact List.mem_flatten

/-- `union([3, 1, 3], [2, 1], [4])`. -/
example : union [[3, 1, 3], [2, 1], [4]] = [3, 1, 2, 4] := by decide

end Shgpy
