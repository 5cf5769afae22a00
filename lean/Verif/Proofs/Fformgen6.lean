import Verif.Proofs.Fformgen5

/-!
# Lemmas: `fformgen` with `M ≠ 16`

The inner convolutions always use `M = 16`.  An array of length `2M+1` holds the frequency `0` at the index `M`, where
the convolution expects it at the index `16`.
-/

namespace Shgpy
open Spec
open scoped ComplexConjugate

set_option linter.unusedSectionVars false
set_option linter.unusedSimpArgs false

variable (S : Sympy)

/-- If `f` can fail only with the error `e`, and does so somewhere, then so does the loop. -/
theorem mapM_error_only {α β : Type} {f : α → Except Err β} {e : Err} : ∀ {l : List α},
    (∀ a ∈ l, ∀ e', f a = .error e' → e' = e) → (∃ a ∈ l, f a = .error e) → l.mapM f = .error e
  | [], _, h => by simp at h
  | a :: l, h1, h2 => by
    rw [List.mapM_cons]
    cases hf : f a with
    | error e' => rw [error_bind, h1 a (by simp) e' hf]
    | ok b =>
      rw [ok_bind, mapM_error_only (fun a ha => h1 a (by simp [ha])) ?_, error_bind]
      obtain ⟨a', ha, he⟩ := h2
      rcases List.mem_cons.1 ha with rfl | ha
      · rw [hf] at he; cases he
      · exact ⟨a', ha, he⟩

/-- `A` has `N` entries of shape `sh`, and the entries after the index `hi` are zero. -/
structure Upto (A : FTensor) (N : ℕ) (sh : List ℕ) (hi : ℤ) : Prop where
  len : A.length = N
  shape : ∀ t ∈ A, t.shape = sh
  zero : ∀ (i : ℕ) t, A[i]? = some t → hi < i → ∀ σ idx, idx.length = sh.length → (t.get idx).eval σ = 0

theorem pyGet_cases {α : Type} {l : List α} {i : ℤ} {v : α} (h : pyGet l i = .ok v) :
    ∃ k : ℕ, l[k]? = some v ∧ i ≤ k ∧ (0 ≤ i → (k : ℤ) = i) := by
  unfold pyGet at h
  split at h
  · split at h
    · rename_i h0 _ hk
      cases h
      exact ⟨i.toNat, hk, by omega, by omega⟩
    · cases h
  · split at h
    · split at h
      · rename_i h0 h1 _ hk
        cases h
        exact ⟨_, hk, by omega, by omega⟩
      · cases h
    · cases h

theorem Upto.get0 {A : FTensor} {N : ℕ} {sh : List ℕ} {hi : ℤ} (h : Upto A N sh hi) (hN : 0 < N) :
    ∃ a, pyGet A 0 = .ok a ∧ a.shape = sh := by
  have h0 := h.len
  have hl : 0 < A.length := by omega
  exact ⟨A[0], pyGet_natCast hl, h.shape _ (List.getElem_mem hl)⟩

theorem upto_convolve {A B : FTensor} {N N' : ℕ} {sh sh' : List ℕ} {a b : ℤ} (hA : Upto A N sh a) (hB : Upto B N' sh' b)
    (hN : 0 < N) (hN' : 0 < N') : ∃ C, convolveFtensors S A B = .ok C ∧ Upto C 33 (sh ++ sh') (a + b - 16) := by
  obtain ⟨ta, ea, sa⟩ := hA.get0 hN
  obtain ⟨tb, eb, sb⟩ := hB.get0 hN'
  obtain ⟨g, h1, h2, h3⟩ := convolveFtensors_ok S ea eb 16
  refine ⟨_, h1, by simp [length_freqs], ?_, ?_⟩
  · intro t ht
    obtain ⟨n, _, rfl⟩ := List.mem_map.1 ht
    rw [h2, sa, sb]
  · intro i t ht hi σ idx hidx
    rw [List.getElem?_map] at ht
    have hi' : i < 2 * 16 + 1 := by
      by_contra hc
      rw [List.getElem?_eq_none (by rw [length_freqs]; omega)] at ht
      cases ht
    rw [getElem?_freqs hi'] at ht
    simp only [Option.map_some, Option.some.injEq] at ht
    subst ht
    rw [h3]
    refine List.sum_eq_zero (fun x hx => ?_)
    obtain ⟨m, hm, rfl⟩ := List.mem_map.1 hx
    rw [mem_freqs] at hm
    unfold convTerm
    split
    · rename_i u v hu hv
      obtain ⟨j, hj, _, hj'⟩ := pyGet_cases hu
      obtain ⟨k, hk, hk', _⟩ := pyGet_cases hv
      unfold n2i at hj' hk'
      have su := hA.shape u (List.mem_of_getElem? hj)
      have ru : u.rank = sh.length := by unfold Nd.rank; rw [su]
      rw [List.length_append] at hidx
      by_cases hc : a < j
      · rw [hA.zero j u hj hc σ _ (by rw [List.length_take, ru, hidx]; omega), zero_mul]
      · rw [hB.zero k v hk (by omega) σ _ (by rw [List.length_drop, ru, hidx]; omega), mul_zero]
    · rfl

theorem upto_map {A : FTensor} {N : ℕ} {sh sh' : List ℕ} {a : ℤ} {M : ℕ} {f : Nd Expr → Except Err (Nd Expr)}
    (hA : Upto A N sh a) (hM : 2 * M + 1 ≤ N)
    (hf : ∀ t : Nd Expr, t.shape = sh → ∃ t', f t = .ok t' ∧ t'.shape = sh' ∧
      ∀ σ, (∀ idx : List ℕ, idx.length = sh.length → (t.get idx).eval σ = 0) →
        ∀ idx : List ℕ, idx.length = sh'.length → (t'.get idx).eval σ = 0) :
    ∃ C, mapFreqs M f A = .ok C ∧ Upto C (2 * M + 1) sh' a := by
  have key : ∀ m : ℤ, ∃ t' : Nd Expr, m ∈ freqs M → (pyGet A (n2i m M) >>= f) = .ok t' ∧ t'.shape = sh' ∧
      (a < m + M → ∀ σ idx, idx.length = sh'.length → (t'.get idx).eval σ = 0) := by
    intro m
    by_cases hm : m ∈ freqs M
    · have hm' := mem_freqs.1 hm
      have hl := hA.len
      have e := pyGet_nonneg (l := A) (i := n2i m M) (by unfold n2i; omega) (by unfold n2i; omega)
      obtain ⟨t', h1, h2, h3⟩ := hf _ (hA.shape _ (List.getElem_mem (n := (n2i m M).toNat) (by unfold n2i; omega)))
      refine ⟨t', fun _ => ⟨by rw [e, ok_bind, h1], h2, fun hlt σ => ?_⟩⟩
      refine h3 σ (fun idx hidx => ?_)
      exact hA.zero _ _ (List.getElem?_eq_getElem (by unfold n2i; omega)) (by unfold n2i; omega) σ idx hidx
    · exact ⟨zerosNd [], fun h => absurd h hm⟩
  choose g hg using key
  refine ⟨(freqs M).map g, mapM_ok' (fun m hm => (hg m hm).1), by simp [length_freqs], ?_, ?_⟩
  · intro t ht
    obtain ⟨m, hm, rfl⟩ := List.mem_map.1 ht
    exact (hg m hm).2.1
  · intro i t ht hi σ idx hidx
    rw [List.getElem?_map] at ht
    have hi' : i < 2 * M + 1 := by
      by_contra hc
      rw [List.getElem?_eq_none (by rw [length_freqs]; omega)] at ht
      cases ht
    rw [getElem?_freqs hi'] at ht
    simp only [Option.map_some, Option.some.injEq] at ht
    subst ht
    exact (hg _ (by rw [mem_freqs]; omega)).2.2 (by omega) σ idx hidx

theorem contractFun_zero {sh : List ℕ} {pairs : List (ℕ × ℕ)} {F : List ℕ → ℂ} {idx : List ℕ}
    (h : ∀ j, j.length = sh.length → F j = 0) : contractFun sh pairs F idx = 0 := by
  unfold contractFun
  refine List.sum_eq_zero (fun x hx => ?_)
  obtain ⟨v, _, rfl⟩ := List.mem_map.1 hx
  exact h _ (by simp)

theorem upto_contract {A : FTensor} {N : ℕ} {sh sh' : List ℕ} {a : ℤ} {M : ℕ} (hA : Upto A N sh a) (hM : 2 * M + 1 ≤ N)
    {ps : List (List ℤ)} (pairs : List (ℕ × ℕ)) (hps : ps = pairs.map (fun pq => [(pq.1 : ℤ), (pq.2 : ℤ)]))
    (hd : DisjointPairs sh.length pairs) (hsh : sh' = (freeAxes sh.length pairs).map (fun a => sh.getD a 0)) :
    ∃ C, mapFreqs M (fun t => tensorContract (exprOps S) t ps) A = .ok C ∧ Upto C (2 * M + 1) sh' a := by
  refine upto_map hA hM ?_
  rintro t rfl
  obtain ⟨t', h1, h2, h3⟩ := tensorContract_expr S t pairs hd
  refine ⟨t', by rw [hps, h1], h2.trans hsh.symm, fun σ hz idx hidx => ?_⟩
  rw [h3 σ idx (by rw [hidx, hsh, List.length_map]; rfl)]
  exact contractFun_zero hz

theorem upto_contractProduct {A : FTensor} {N : ℕ} {sh shc sh' : List ℕ} {a : ℤ} {M : ℕ} (hA : Upto A N sh a)
    (hM : 2 * M + 1 ≤ N) {chi : Nd Expr} (hchi : chi.shape = shc)
    {ps : List (List ℤ)} (pairs : List (ℕ × ℕ)) (hps : ps = pairs.map (fun pq => [(pq.1 : ℤ), (pq.2 : ℤ)]))
    (hd : DisjointPairs (sh ++ shc).length pairs)
    (hsh : sh' = (freeAxes (sh ++ shc).length pairs).map (fun a => (sh ++ shc).getD a 0)) :
    ∃ C, mapFreqs M (fun t => contractProduct (exprOps S) [t, chi] ps) A = .ok C ∧ Upto C (2 * M + 1) sh' a := by
  subst hchi
  refine upto_map hA hM ?_
  rintro t rfl
  obtain ⟨t', h1, h2, h3⟩ := tensorContract_expr S (Nd.tensordot0 (exprOps S) t chi) pairs hd
  refine ⟨t', ?_, h2.trans hsh.symm, fun σ hz idx hidx => ?_⟩
  · show (tensorProduct (exprOps S) [t, chi] >>= fun p => tensorContract (exprOps S) p ps) = _
    rw [show tensorProduct (exprOps S) [t, chi] = .ok (Nd.tensordot0 (exprOps S) t chi) from rfl, ok_bind, hps, h1]
  · rw [h3 σ idx (by rw [hidx, hsh, List.length_map]; rfl)]
    refine contractFun_zero (fun j hj => ?_)
    have e : ((Nd.tensordot0 (exprOps S) t chi).get j).eval σ = (t.get (j.take t.rank)).eval σ * (chi.get (j.drop t.rank)).eval σ :=
      S.eval_mul σ _ _
    rw [e, hz _ (by
      have : j.length = t.shape.length + chi.shape.length := by rw [hj]; exact List.length_append
      rw [List.length_take, this]
      unfold Nd.rank
      omega), zero_mul]

theorem upto_pointwise {A : FTensor} {N : ℕ} {sh : List ℕ} {a : ℤ} (hA : Upto A N sh a) (f : Nd Expr → Nd Expr)
    (hs : ∀ t, (f t).shape = t.shape)
    (hz : ∀ t : Nd Expr, (∀ σ idx, idx.length = sh.length → (t.get idx).eval σ = 0) →
      ∀ σ idx, idx.length = sh.length → ((f t).get idx).eval σ = 0) : Upto (A.map f) N sh a := by
  refine ⟨by rw [List.length_map, hA.len], ?_, ?_⟩
  · intro t ht
    obtain ⟨u, hu, rfl⟩ := List.mem_map.1 ht
    rw [hs, hA.shape u hu]
  · intro i t ht hi
    rw [List.getElem?_map] at ht
    obtain ⟨u, hu, rfl⟩ := Option.map_eq_some_iff.1 ht
    exact hz u (hA.zero i u hu hi)

theorem upto_scale {A : FTensor} {N : ℕ} {sh : List ℕ} {a : ℤ} (hA : Upto A N sh a) (c : Expr) :
    Upto (scaleFreqs S c A) N sh a := by
  refine upto_pointwise hA _ (fun _ => rfl) (fun t h σ idx hidx => ?_)
  show (S.mul c (t.get idx)).eval σ = 0
  rw [S.eval_mul, h σ idx hidx, mul_zero]

theorem upto_subst {A : FTensor} {N : ℕ} {sh : List ℕ} {a : ℤ} (hA : Upto A N sh a) (ps : List (Sym × Expr)) :
    Upto (A.map (substituteIntoArray S ps)) N sh a := by
  refine upto_pointwise hA _ (fun _ => rfl) (fun t h σ idx hidx => ?_)
  show (S.subs ps (t.get idx)).eval σ = 0
  rw [eval_subs', h _ idx hidx]

theorem upto_zeros {A : FTensor} {N : ℕ} {sh : List ℕ} {a : ℤ} (hA : Upto A N sh a) :
    Upto (A.map (fun t => zerosNd t.shape)) N sh a :=
  upto_pointwise hA _ (fun _ => rfl) (fun t h σ idx hidx => by simp [zerosNd, Expr.eval])

theorem upto_of {g : ℤ → Nd Expr} {M : ℕ} {sh : List ℕ} {a : ℤ} (h1 : ∀ n, (g n).shape = sh)
    (h2 : ∀ n, a < n + M → ∀ σ idx, ((g n).get idx).eval σ = 0) : Upto ((freqs M).map g) (2 * M + 1) sh a := by
  refine ⟨by simp [length_freqs], ?_, ?_⟩
  · intro t ht
    obtain ⟨m, hm, rfl⟩ := List.mem_map.1 ht
    exact h1 m
  · intro i t ht hi σ idx _
    rw [List.getElem?_map] at ht
    have hi' : i < 2 * M + 1 := by
      by_contra hc
      rw [List.getElem?_eq_none (by rw [length_freqs]; omega)] at ht
      cases ht
    rw [getElem?_freqs hi'] at ht
    simp only [Option.map_some, Option.some.injEq] at ht
    subst ht
    exact h2 _ (by omega) σ idx

theorem upto_onlyZeroFreq (M : ℕ) (t : Nd Expr) : ∃ A, onlyZeroFreq M t = .ok A ∧ Upto A (2 * M + 1) t.shape M := by
  refine ⟨_, onlyZeroFreq_eq M t, upto_of ?_ ?_⟩
  · intro n
    split_ifs <;> rfl
  · intro n hn σ idx
    rw [if_neg (by omega)]
    simp [zerosNd, Expr.eval]

theorem upto_rR {M : ℕ} (hM : 1 ≤ M) : ∃ A, rRArr M = .ok A ∧ Upto A (2 * M + 1) [3, 3] (M + 1) := by
  refine ⟨_, rRArr_eq hM, upto_of ?_ ?_⟩
  · intro n
    unfold rRComp
    split_ifs <;> rfl
  · intro n hn σ idx
    have h1 : n ≠ 1 := by omega
    have h0 : n ≠ 0 := by omega
    have h2 : n ≠ -1 := by omega
    simp [rRComp, h1, h0, h2, zerosNd, Expr.eval]

theorem upto_stack {A B C : FTensor} {N : ℕ} {sh : List ℕ} {a : ℤ} {M : ℕ} (hA : Upto A N sh a) (hB : Upto B N sh a)
    (hC : Upto C N sh a) (hM : 2 * M + 1 ≤ N) :
    ∃ D, stackFreqs M A B C = .ok D ∧ Upto D (2 * M + 1) (3 :: sh) a := by
  have get : ∀ {X : FTensor}, Upto X N sh a → ∀ m : ℤ, ∃ t : Nd Expr, m ∈ freqs M → pyGet X (n2i m M) = .ok t ∧ t.shape = sh ∧
      (a < m + M → ∀ σ idx, idx.length = sh.length → (t.get idx).eval σ = 0) := by
    intro X hX m
    by_cases hm : m ∈ freqs M
    · have hm' := mem_freqs.1 hm
      have hl := hX.len
      have e := pyGet_nonneg (l := X) (i := n2i m M) (by unfold n2i; omega) (by unfold n2i; omega)
      refine ⟨_, fun _ => ⟨e, hX.shape _ (List.getElem_mem _), fun hlt => ?_⟩⟩
      exact hX.zero _ _ (List.getElem?_eq_getElem (by unfold n2i; omega)) (by unfold n2i; omega)
    · exact ⟨zerosNd [], fun h => absurd h hm⟩
  choose ga ha using get hA
  choose gb hb using get hB
  choose gc hc using get hC
  refine ⟨(freqs M).map (fun m => stack3 (ga m) (gb m) (gc m)), mapM_ok' (fun m hm => ?_), by simp [length_freqs], ?_, ?_⟩
  · rw [(ha m hm).1, ok_bind, (hb m hm).1, ok_bind, (hc m hm).1, ok_bind]
    rfl
  · intro t ht
    obtain ⟨m, hm, rfl⟩ := List.mem_map.1 ht
    show 3 :: (ga m).shape = _
    rw [(ha m hm).2.1]
  · intro i t ht hi σ idx hidx
    rw [List.getElem?_map] at ht
    have hi' : i < 2 * M + 1 := by
      by_contra hc
      rw [List.getElem?_eq_none (by rw [length_freqs]; omega)] at ht
      cases ht
    rw [getElem?_freqs hi'] at ht
    simp only [Option.map_some, Option.some.injEq] at ht
    subst ht
    have hm : (i : ℤ) - M ∈ freqs M := by rw [mem_freqs]; omega
    have hlt : a < (i : ℤ) - M + M := by omega
    have hd : (idx.drop 1).length = sh.length := by
      rw [List.length_drop, hidx, List.length_cons]; omega
    have za := (ha _ hm).2.2 hlt σ _ hd
    have zb := (hb _ hm).2.2 hlt σ _ hd
    have zc := (hc _ hm).2.2 hlt σ _ hd
    unfold stack3
    dsimp only
    rcases idx.getD 0 0 with _ | _ | _ | k
    · exact za
    · exact zb
    · exact zc
    · simpa using za

theorem Upto.weaken {A : FTensor} {N : ℕ} {sh : List ℕ} {a b : ℤ} (h : Upto A N sh a) (hab : a ≤ b) : Upto A N sh b :=
  ⟨h.len, h.shape, fun i t ht hi => h.zero i t ht (by omega)⟩

/-- The four terms, zero after the index `b`. -/
def ZeroTerms (b : ℤ) (l : List FTensor) : Prop :=
  ∃ h7 h9 h9' h10, l = [h7, h9, h9', h10] ∧
      Upto h7 33 [3, 3, 3, 3, 3, 3] b ∧ Upto h9 33 [3, 3, 3, 3, 3, 3, 3] b ∧
      Upto h9' 33 [3, 3, 3, 3, 3, 3, 3] b ∧ Upto h10 33 [3, 3, 3, 3, 3, 3, 3, 3] b

theorem zeroTerms_ok {M : ℕ} (h1M : 1 ≤ M) (hM : M ≤ 15) {b : ℤ} (hb : 12 * (M : ℤ) - 170 ≤ b) {r1 rR rF rkin : FTensor} (hr1 : Upto r1 (2 * M + 1) [3, 3, 3, 3] (2 * M - 15))
    (hR : Upto rR (2 * M + 1) [3, 3] (M + 1)) (hF : Upto rF (2 * M + 1) [3] M) (hk : Upto rkin (2 * M + 1) [3] M) :
    ∃ l, uncontractedTerms S M r1 rR rF rkin = .ok l ∧ ZeroTerms b l := by
  obtain ⟨h1, e1, r1'⟩ := upto_contract S (M := M) (sh' := [3, 3]) hr1 le_rfl (ps := [[1, 2]]) [(1, 2)] rfl
    ⟨by decide, by decide⟩ (by decide)
  obtain ⟨r2, e2, r2'⟩ := upto_convolve S r1' r1' (by omega) (by omega)
  obtain ⟨h2, e3, r3'⟩ := upto_contract S (M := M) (sh' := [3, 3]) r2' (by omega) (ps := [[0, 2]]) [(0, 2)] rfl
    ⟨by decide, by decide⟩ (by decide)
  obtain ⟨r3, e4, r4'⟩ := upto_convolve S hR hF (by omega) (by omega)
  obtain ⟨h3, e5, r5'⟩ := upto_contract S (M := M) (sh' := [3]) r4' (by omega) (ps := [[0, 2]]) [(0, 2)] rfl
    ⟨by decide, by decide⟩ (by decide)
  obtain ⟨h4, e6, r6'⟩ := upto_convolve S r3' r5' (by omega) (by omega)
  obtain ⟨h5, e7, r7'⟩ := upto_convolve S r6' r5' (by omega) (by omega)
  obtain ⟨h6, e8, r8'⟩ := upto_convolve S r7' r5' (by omega) (by omega)
  obtain ⟨h7, e9, r9'⟩ := upto_convolve S r8' r5' (by omega) (by omega)
  have hk' := upto_scale S hk (.mul [.num (-1), .I])
  obtain ⟨r4, e10, r10'⟩ := upto_convolve S hR hk' (by omega) (by omega)
  obtain ⟨h8, e11, r11'⟩ := upto_contract S (M := M) (sh' := [3]) r10' (by omega) (ps := [[0, 2]]) [(0, 2)] rfl
    ⟨by decide, by decide⟩ (by decide)
  obtain ⟨h9, e12, r12'⟩ := upto_convolve S r9' r11' (by omega) (by omega)
  have h8' := upto_scale S r11' (.num (-1))
  obtain ⟨h10, e13, r13'⟩ := upto_convolve S r12' h8' (by omega) (by omega)
  refine ⟨[h7, h9, scaleFreqs S (.num (-1)) h9, h10], ?_, h7, h9, _, h10, rfl, r9'.weaken (by omega), r12'.weaken (by omega),
    (upto_scale S r12' _).weaken (by omega), r13'.weaken (by omega)⟩
  unfold uncontractedTerms
  rw [e1, ok_bind, e2, ok_bind, e3, ok_bind, e4, ok_bind, e5, ok_bind, e6, ok_bind, e7, ok_bind, e8, ok_bind, e9, ok_bind,
    e10, ok_bind, e11, ok_bind, e12, ok_bind, e13, ok_bind]
  rfl

theorem zero_both {M : ℕ} (h1M : 1 ≤ M) (hM : M ≤ 15) {b : ℤ} (hb : 12 * (M : ℤ) - 170 ≤ b) {kout kin : Nd Expr} (hko : kout.shape = [3]) (hki : kin.shape = [3]) :
    ∃ p s, uncontractedBoth S M kout kin = .ok (p, s) ∧ ZeroTerms b p ∧ ZeroTerms b s := by
  obtain ⟨P, e0, hP, _⟩ := projArr_ok S hko
  have hs : ∀ i, (ndRow P i).shape = [3] := by
    intro i
    show P.shape.drop 1 = _
    rw [hP]; rfl
  obtain ⟨rx, ex, Rx⟩ := upto_onlyZeroFreq M (ndRow P 0)
  obtain ⟨ry, ey, Ry⟩ := upto_onlyZeroFreq M (ndRow P 1)
  obtain ⟨rz, ez, Rz⟩ := upto_onlyZeroFreq M (ndRow P 2)
  rw [hs] at Rx Ry Rz
  obtain ⟨rR, eR, RR⟩ := upto_rR h1M
  obtain ⟨rF, eF, RF⟩ := upto_onlyZeroFreq M fieldSymbols
  obtain ⟨rk, ek, Rk⟩ := upto_onlyZeroFreq M kin
  rw [hki] at Rk
  obtain ⟨x1, ex1, Rx1⟩ := upto_convolve S Rx RR (by omega) (by omega)
  obtain ⟨y1, ey1, Ry1⟩ := upto_convolve S Ry RR (by omega) (by omega)
  obtain ⟨z1, ez1, Rz1⟩ := upto_convolve S Rz RR (by omega) (by omega)
  have R0 := upto_zeros Rx1
  obtain ⟨ps, es, Rs⟩ := upto_stack (M := M) R0 Ry1 R0 (by omega)
  obtain ⟨pp, ep, Rp⟩ := upto_stack (M := M) Rx1 R0 Rz1 (by omega)
  obtain ⟨p, tp, zp⟩ := zeroTerms_ok S h1M hM hb (Rp.weaken (b := 2 * M - 15) (by omega)) RR RF Rk
  obtain ⟨s, ts, zs⟩ := zeroTerms_ok S h1M hM hb (Rs.weaken (b := 2 * M - 15) (by omega)) RR RF Rk
  refine ⟨p, s, ?_, zp, zs⟩
  unfold uncontractedBoth
  rw [e0, ok_bind, ex, ok_bind, ey, ok_bind, ez, ok_bind, eR, ok_bind, eF, ok_bind, ex1, ok_bind, ey1, ok_bind, ez1,
    ok_bind, ek, ok_bind]
  dsimp only
  rw [es, ok_bind, ep, ok_bind, tp, ok_bind, ts, ok_bind]
  rfl

/-- With `M > 16` the arrays of the convolution are too short. -/
theorem both_error {M : ℕ} (hM : 16 < M) {kout : Nd Expr} (hko : kout.shape = [3]) (kin : Nd Expr) :
    uncontractedBoth S M kout kin = .error .indexError := by
  obtain ⟨P, e0, hP, _⟩ := projArr_ok S hko
  obtain ⟨rx, ex, Rx⟩ := upto_onlyZeroFreq M (ndRow P 0)
  obtain ⟨ry, ey, Ry⟩ := upto_onlyZeroFreq M (ndRow P 1)
  obtain ⟨rz, ez, Rz⟩ := upto_onlyZeroFreq M (ndRow P 2)
  obtain ⟨rR, eR, RR⟩ := upto_rR (M := M) (by omega)
  obtain ⟨rF, eF, RF⟩ := upto_onlyZeroFreq M fieldSymbols
  obtain ⟨rk, ek, Rk⟩ := upto_onlyZeroFreq M kin
  obtain ⟨x1, ex1, Rx1⟩ := upto_convolve S Rx RR (by omega) (by omega)
  obtain ⟨y1, ey1, Ry1⟩ := upto_convolve S Ry RR (by omega) (by omega)
  obtain ⟨z1, ez1, Rz1⟩ := upto_convolve S Rz RR (by omega) (by omega)
  have hst : stackFreqs M (x1.map (fun t => zerosNd t.shape)) y1 (x1.map (fun t => zerosNd t.shape)) = .error .indexError := by
    refine mapM_error_only ?_ ⟨M, by rw [mem_freqs]; omega, ?_⟩
    · intro m _ e he
      cases ha : pyGet (x1.map (fun t => zerosNd t.shape)) (n2i m M) with
      | error e' => rw [ha, error_bind] at he; cases he; exact pyGet_error' ha
      | ok a =>
        cases hb : pyGet y1 (n2i m M) with
        | error e' => rw [ha, ok_bind, hb, error_bind] at he; cases he; exact pyGet_error' hb
        | ok b =>
          rw [ha, ok_bind, hb, ok_bind, ok_bind] at he
          cases he
    · have : pyGet (x1.map (fun t => zerosNd t.shape)) (n2i M M) = .error .indexError := by
        have hl := Rx1.len
        unfold pyGet n2i
        rw [if_pos (by omega), List.getElem?_eq_none (by rw [List.length_map]; omega)]
      rw [this, error_bind]
  unfold uncontractedBoth
  rw [e0, ok_bind, ex, ok_bind, ey, ok_bind, ez, ok_bind, eR, ok_bind, eF, ok_bind, ex1, ok_bind, ey1, ok_bind, ez1,
    ok_bind, ek, ok_bind]
  dsimp only
  rw [hst, error_bind]

/-! ## The contraction -/

theorem zero_contractTerm {M : ℕ} {h : FTensor} {c1 c2 : Nd Expr} {l1 l2 : List (List ℤ)} {C D : FTensor}
    (h1 : mapFreqs M (fun t => contractProduct (exprOps S) [t, c1] l1) h = .ok C)
    (h2 : mapFreqs M (fun t => contractProduct (exprOps S) [t, c2] l2) C = .ok D) {b : ℤ} (hD : Upto D (2 * M + 1) [] b) :
    ∃ g : ℤ → Expr, contractTerm S M h c1 c2 l1 l2 = .ok ((freqs M).map g) ∧ ∀ n ∈ freqs M, b < n + M → ∀ σ, (g n).eval σ = 0 := by
  refine ⟨fun n => ((D[(n + M).toNat]?).getD (zerosNd [])).get [], ?_, ?_⟩
  · unfold contractTerm
    rw [h1, ok_bind, h2, ok_bind]
    show Except.ok _ = Except.ok _
    congr 1
    apply List.ext_getElem?
    intro i
    rw [List.getElem?_map, List.getElem?_map]
    by_cases hi : i < 2 * M + 1
    · have hl := hD.len
      rw [getElem?_freqs hi, List.getElem?_eq_getElem (l := D) (by omega)]
      simp only [Option.map_some]
      rw [show ((i : ℤ) - M + M).toNat = i by omega, List.getElem?_eq_getElem (l := D) (by omega)]
      rfl
    · have hl := hD.len
      rw [List.getElem?_eq_none (by omega), List.getElem?_eq_none (by rw [length_freqs]; omega)]
      rfl
  · intro n hn hb σ
    rw [mem_freqs] at hn
    have hl := hD.len
    have e := List.getElem?_eq_getElem (l := D) (i := (n + M).toNat) (by omega)
    dsimp only
    rw [e]
    exact hD.zero _ _ e (by omega) σ [] rfl

theorem zero_contractAll {M : ℕ} (hM : M ≤ 15) {b : ℤ} {l : List FTensor} (hl : ZeroTerms b l) {chiD chiQ : Nd Expr}
    (hD : chiD.shape = [3, 3, 3]) (hQ : chiQ.shape = [3, 3, 3, 3]) :
    ∃ g : ℤ → Expr, contractAll S M l chiD chiQ = .ok ((freqs M).map g) ∧ ∀ n ∈ freqs M, b < n + M → ∀ σ, (g n).eval σ = 0 := by
  obtain ⟨h7, h9, h9', h10, rfl, R7, R9, R9', R10⟩ := hl
  have hD' : (conjugateTensor S chiD).shape = [3, 3, 3] := hD
  have hQ' : (conjugateTensor S chiQ).shape = [3, 3, 3, 3] := hQ
  obtain ⟨C1, a1, c1⟩ := upto_contractProduct S (M := M) (sh' := [3, 3, 3]) R7 (by omega) hD
    (ps := [[0, 6], [2, 7], [3, 8]]) [(0, 6), (2, 7), (3, 8)] rfl ⟨by decide, by decide⟩ (by decide)
  obtain ⟨D1, b1, r1⟩ := upto_contractProduct S (M := M) (sh' := []) c1 le_rfl hD'
    (ps := [[0, 3], [1, 4], [2, 5]]) [(0, 3), (1, 4), (2, 5)] rfl ⟨by decide, by decide⟩ (by decide)
  obtain ⟨C2, a2, c2⟩ := upto_contractProduct S (M := M) (sh' := [3, 3, 3, 3]) R9 (by omega) hD
    (ps := [[0, 7], [2, 8], [3, 9]]) [(0, 7), (2, 8), (3, 9)] rfl ⟨by decide, by decide⟩ (by decide)
  obtain ⟨D2, b2, r2⟩ := upto_contractProduct S (M := M) (sh' := []) c2 le_rfl hQ'
    (ps := [[0, 4], [1, 6], [2, 7], [3, 5]]) [(0, 4), (1, 6), (2, 7), (3, 5)] rfl ⟨by decide, by decide⟩ (by decide)
  obtain ⟨C3, a3, c3⟩ := upto_contractProduct S (M := M) (sh' := [3, 3, 3]) R9' (by omega) hQ
    (ps := [[0, 7], [2, 9], [3, 10], [6, 8]]) [(0, 7), (2, 9), (3, 10), (6, 8)] rfl ⟨by decide, by decide⟩ (by decide)
  obtain ⟨D3, b3, r3⟩ := upto_contractProduct S (M := M) (sh' := []) c3 le_rfl hD'
    (ps := [[0, 3], [1, 4], [2, 5]]) [(0, 3), (1, 4), (2, 5)] rfl ⟨by decide, by decide⟩ (by decide)
  obtain ⟨C4, a4, c4⟩ := upto_contractProduct S (M := M) (sh' := [3, 3, 3, 3]) R10 (by omega) hQ
    (ps := [[0, 8], [2, 10], [3, 11], [6, 9]]) [(0, 8), (2, 10), (3, 11), (6, 9)] rfl ⟨by decide, by decide⟩ (by decide)
  obtain ⟨D4, b4, r4⟩ := upto_contractProduct S (M := M) (sh' := []) c4 le_rfl hQ'
    (ps := [[0, 4], [1, 6], [2, 7], [3, 5]]) [(0, 4), (1, 6), (2, 7), (3, 5)] rfl ⟨by decide, by decide⟩ (by decide)
  obtain ⟨g1, e1, z1⟩ := zero_contractTerm S a1 b1 r1
  obtain ⟨g2, e2, z2⟩ := zero_contractTerm S a2 b2 r2
  obtain ⟨g3, e3, z3⟩ := zero_contractTerm S a3 b3 r3
  obtain ⟨g4, e4, z4⟩ := zero_contractTerm S a4 b4 r4
  refine ⟨fun n => S.add (S.add (S.add (S.add (.num 0) (g1 n)) (g2 n)) (g3 n)) (g4 n), ?_, ?_⟩
  · unfold contractAll
    refine foldlM4 (a1 := (freqs M).map (fun n => S.add (.num 0) (g1 n)))
      (a2 := (freqs M).map (fun n => S.add (S.add (.num 0) (g1 n)) (g2 n)))
      (a3 := (freqs M).map (fun n => S.add (S.add (S.add (.num 0) (g1 n)) (g2 n)) (g3 n))) ?_ ?_ ?_ ?_
    · show (contractTerm S M h7 chiD (conjugateTensor S chiD) [[0, 6], [2, 7], [3, 8]] [[0, 3], [1, 4], [2, 5]] >>= _) = _
      rw [e1, ok_bind, replicate_eq_freqs', zipWith_freqs]
      rfl
    · show (contractTerm S M h9 chiD (conjugateTensor S chiQ) [[0, 7], [2, 8], [3, 9]]
        [[0, 4], [1, 6], [2, 7], [3, 5]] >>= _) = _
      rw [e2, ok_bind, zipWith_freqs]
      rfl
    · show (contractTerm S M h9' chiQ (conjugateTensor S chiD) [[0, 7], [2, 9], [3, 10], [6, 8]]
        [[0, 3], [1, 4], [2, 5]] >>= _) = _
      rw [e3, ok_bind, zipWith_freqs]
      rfl
    · show (contractTerm S M h10 chiQ (conjugateTensor S chiQ) [[0, 8], [2, 10], [3, 11], [6, 9]]
        [[0, 4], [1, 6], [2, 7], [3, 5]] >>= _) = _
      rw [e4, ok_bind, zipWith_freqs]
      rfl
  · intro n hn hb σ
    simp [S.eval_add, z1 n hn hb σ, z2 n hn hb σ, z3 n hn hb σ, z4 n hn hb σ, Expr.eval]

/-- The four files hold zeros after the index `b`. -/
def AllZero (b : ℤ) (nfs : NpFiles) (pre : Key) : Prop := ∀ p q, ∃ l, nfs (termsFile pre p q) = some l ∧ ZeroTerms b l

theorem zeroTerms_subst {b : ℤ} {l : List FTensor} (h : ZeroTerms b l) (fx fy fz : Expr) : ZeroTerms b (substTerms S fx fy fz l) := by
  obtain ⟨a, b', c, d, rfl, ha, hb, hc, hd⟩ := h
  exact ⟨_, _, _, _, rfl, upto_subst S ha _, upto_subst S hb _, upto_subst S hc _, upto_subst S hd _⟩

theorem saved_zero {b : ℤ} {lp ls : List FTensor} (hp : ZeroTerms b lp) (hs : ZeroTerms b ls) (nfs : NpFiles) (pre : Key) (c s : Expr) :
    AllZero b (saveUncontracted S nfs pre c s (lp, ls)) pre := by
  have e : ∀ p q p' q', termsFile pre p q = (pre ++ ['_', Pol.lower p', Pol.lower q']) ++ ['.', 'n', 'p', 'y'] ↔
      p = p' ∧ q = q' := by
    intro p q p' q'
    unfold termsFile
    simp only [List.append_assoc, List.append_cancel_left_eq]
    cases p <;> cases q <;> cases p' <;> cases q' <;> simp [Spec.Pol.lower]
  have e1 := fun p q => e p q .P .P
  have e2 := fun p q => e p q .P .S
  have e3 := fun p q => e p q .S .P
  have e4 := fun p q => e p q .S .S
  simp only [Spec.Pol.lower] at e1 e2 e3 e4
  intro p q
  simp only [saveUncontracted, npSave, e1, e2, e3, e4]
  cases p <;> cases q
  · exact ⟨substTerms S c (.num 0) s lp, by simp, zeroTerms_subst S hp _ _ _⟩
  · exact ⟨substTerms S c (.num 0) s ls, by simp, zeroTerms_subst S hs _ _ _⟩
  · exact ⟨substTerms S (.num 0) (.num (-1)) (.num 0) lp, by simp, zeroTerms_subst S hp _ _ _⟩
  · exact ⟨substTerms S (.num 0) (.num (-1)) (.num 0) ls, by simp, zeroTerms_subst S hs _ _ _⟩

theorem zero_contracted {M : ℕ} (hM : M ≤ 15) {b : ℤ} {nfs : NpFiles} {pre : Key} (hs : AllZero b nfs pre) {chiD chiQ : Nd Expr}
    (hD : IsTensor 3 3 chiD) (hQ : IsTensor 3 4 chiQ) (hr : ∀ s, OccursIn chiD s ∨ OccursIn chiQ s → s.isReal = some true) :
    ∃ g : Pol → Pol → ℤ → Expr,
      contractedFform S nfs pre chiD chiQ M = .ok (fourCombos.map (fun pq => (combo pq.1 pq.2, (freqs M).map (g pq.1 pq.2)))) ∧
      ∀ p q, ∀ n ∈ freqs M, b < n + M → ∀ σ, (g p q n).eval σ = 0 := by
  choose l hl1 hl2 using hs
  have hc := fun p q => zero_contractAll S hM (hl2 p q) hD hQ
  choose g hg1 hg2 using hc
  refine ⟨g, ?_, hg2⟩
  unfold contractedFform
  rw [assertRealParams_ok (fun s h => hr s (.inl h)), ok_bind, assertRealParams_ok (fun s h => hr s (.inr h)), ok_bind]
  have hload : lowerPc.mapM (fun pc => do
      let a ← npLoad nfs pre pc.2
      return (pc.1, a)) = .ok (fourCombos.map (fun pq => (combo pq.1 pq.2, l pq.1 pq.2))) := by
    have h : ∀ p q, npLoad nfs pre [p.lower, q.lower] = .ok (l p q) := by
      intro p q
      unfold npLoad
      rw [show pre ++ ['_'] ++ [p.lower, q.lower] ++ ['.', 'n', 'p', 'y'] = termsFile pre p q from rfl, hl1]
    show ((npLoad nfs pre [Pol.lower .P, Pol.lower .P] >>= _) >>= fun _ => (npLoad nfs pre [Pol.lower .P, Pol.lower .S] >>= _) >>=
      fun _ => (npLoad nfs pre [Pol.lower .S, Pol.lower .P] >>= _) >>= fun _ =>
      (npLoad nfs pre [Pol.lower .S, Pol.lower .S] >>= _) >>= _) = _
    rw [h, h, h, h]
    rfl
  rw [hload, ok_bind]
  show ((contractAll S M (l .P .P) chiD chiQ >>= _) >>= fun _ => (contractAll S M (l .P .S) chiD chiQ >>= _) >>=
      fun _ => (contractAll S M (l .S .P) chiD chiQ >>= _) >>= fun _ => (contractAll S M (l .S .S) chiD chiQ >>= _) >>= _) = _
  rw [hg1, hg1, hg1, hg1]
  rfl

end Shgpy
