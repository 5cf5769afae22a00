import Verif.Model.Fformgen
import Verif.Proofs.Formgen2
import Verif.Proofs.Harmonics
import Verif.Proofs.Arr
import Mathlib.Order.Interval.Finset.Basic
import Mathlib.Algebra.BigOperators.Intervals

/-!
# Lemmas: arrays of Fourier components represent functions of the azimuth
-/

namespace Shgpy
open Spec
open scoped ComplexConjugate

set_option linter.unusedSectionVars false
set_option linter.unusedSimpArgs false

/-- The array `A` of 33 tensors of shape `sh` holds the Fourier components of `T`, which vanish beyond `B`. -/
def Rep (A : FTensor) (sh : List ℕ) (B : ℕ) (T : Valuation → ℝ → List ℕ → ℂ) : Prop :=
  ∃ g : ℤ → Nd Expr, A = (freqs 16).map g ∧ (∀ n, (g n).shape = sh) ∧
    (∀ n : ℤ, (B : ℤ) < |n| → ∀ σ idx, idx.length = sh.length → ((g n).get idx).eval σ = 0) ∧
    ∀ σ φ idx, idx.length = sh.length →
      ∑ n ∈ Finset.Icc (-16 : ℤ) 16, ((g n).get idx).eval σ * harmonic n φ = T σ φ idx

theorem mem_freqs16 {n : ℤ} : n ∈ freqs 16 ↔ n ∈ Finset.Icc (-16 : ℤ) 16 := by
  rw [mem_freqs, Finset.mem_Icc]; rfl

theorem mapM_ok' {α β : Type} {f : α → Except Err β} {g : α → β} : ∀ {l : List α}, (∀ a ∈ l, f a = .ok (g a)) →
    l.mapM f = .ok (l.map g)
  | [], _ => rfl
  | a :: l, h => by
    rw [List.mapM_cons, h a (by simp), ok_bind, mapM_ok' (fun b hb => h b (by simp [hb]))]
    rfl

theorem rep_of {g : ℤ → Nd Expr} {sh : List ℕ} {B : ℕ} {T : Valuation → ℝ → List ℕ → ℂ}
    (hs : ∀ n ∈ freqs 16, (g n).shape = sh)
    (hb : ∀ n ∈ freqs 16, (B : ℤ) < |n| → ∀ σ idx, idx.length = sh.length → ((g n).get idx).eval σ = 0)
    (hv : ∀ σ φ idx, idx.length = sh.length →
      ∑ n ∈ Finset.Icc (-16 : ℤ) 16, ((g n).get idx).eval σ * harmonic n φ = T σ φ idx) :
    Rep ((freqs 16).map g) sh B T := by
  refine ⟨fun n => if n ∈ freqs 16 then g n else zerosNd sh, ?_, ?_, ?_, ?_⟩
  · refine List.map_congr_left (fun n hn => ?_)
    rw [if_pos hn]
  · intro n
    dsimp only
    split_ifs with h
    · exact hs n h
    · rfl
  · intro n hn σ idx hidx
    dsimp only
    split_ifs with h
    · exact hb n h hn σ idx hidx
    · simp [zerosNd, Expr.eval]
  · intro σ φ idx hidx
    rw [← hv σ φ idx hidx]
    refine Finset.sum_congr rfl (fun n hn => ?_)
    dsimp only
    rw [if_pos (mem_freqs16.2 hn)]

theorem Rep.congr {A sh B T T'} (h : Rep A sh B T) (hT : ∀ σ φ idx, idx.length = sh.length → T σ φ idx = T' σ φ idx) :
    Rep A sh B T' := by
  obtain ⟨g, h1, h2, h3, h4⟩ := h
  exact ⟨g, h1, h2, h3, fun σ φ idx hidx => by rw [h4 σ φ idx hidx, hT σ φ idx hidx]⟩

/-! ## Convolution -/

/-- The Fourier series of a product. -/
theorem convolution (a b : ℤ → ℂ) {B1 B2 : ℕ} (h : B1 + B2 ≤ 16) (ha : ∀ n : ℤ, (B1 : ℤ) < |n| → a n = 0)
    (hb : ∀ n : ℤ, (B2 : ℤ) < |n| → b n = 0) (φ : ℝ) :
    ∑ n ∈ Finset.Icc (-16 : ℤ) 16, (∑ m ∈ Finset.Icc (-16 : ℤ) 16, a m * b (n - m)) * harmonic n φ =
      (∑ n ∈ Finset.Icc (-16 : ℤ) 16, a n * harmonic n φ) * ∑ n ∈ Finset.Icc (-16 : ℤ) 16, b n * harmonic n φ := by
  simp only [Finset.sum_mul]
  rw [Finset.sum_comm]
  refine Finset.sum_congr rfl (fun m hm => ?_)
  by_cases hm1 : (B1 : ℤ) < |m|
  · simp [ha m hm1]
  have hk : ∑ n ∈ Finset.Icc (-16 : ℤ) 16, b n * harmonic n φ =
      ∑ n ∈ Finset.Icc (-16 : ℤ) 16, b (n - m) * harmonic (n - m) φ := by
    have e1 : ∑ n ∈ Finset.Icc (-16 : ℤ) 16, b n * harmonic n φ =
        ∑ n ∈ Finset.Icc (-(B2 : ℤ)) B2, b n * harmonic n φ := by
      symm
      refine Finset.sum_subset ?_ ?_
      · intro n hn
        rw [Finset.mem_Icc] at hn ⊢
        omega
      · intro n _ hn
        rw [hb n, zero_mul]
        rw [Finset.mem_Icc] at hn
        by_contra hc
        exact hn (abs_le.1 (not_lt.1 hc))
    have e2 : ∑ n ∈ Finset.Icc (-16 : ℤ) 16, b (n - m) * harmonic (n - m) φ =
        ∑ n ∈ Finset.Icc (-(B2 : ℤ) + m) (B2 + m), b (n - m) * harmonic (n - m) φ := by
      symm
      have hmm := abs_le.1 (not_lt.1 hm1)
      refine Finset.sum_subset ?_ ?_
      · intro n hn
        rw [Finset.mem_Icc] at hn ⊢
        omega
      · intro n _ hn
        rw [hb (n - m), zero_mul]
        rw [Finset.mem_Icc] at hn
        by_contra hc
        have := abs_le.1 (not_lt.1 hc)
        exact hn (by omega)
    rw [e1, e2]
    refine Finset.sum_bij (fun n _ => n + m) ?_ ?_ ?_ ?_
    · intro n hn
      rw [Finset.mem_Icc] at hn ⊢
      omega
    · intro n _ n' _ hh
      simpa using hh
    · intro n hn
      rw [Finset.mem_Icc] at hn
      exact ⟨n - m, by rw [Finset.mem_Icc]; omega, by ring⟩
    · intro n _
      rw [add_sub_cancel_right]
  rw [hk, Finset.mul_sum]
  refine Finset.sum_congr rfl (fun n _ => ?_)
  have h1 := congrFun (harmonic_mul m (n - m)) φ
  rw [Pi.mul_apply, show m + (n - m) = n by ring] at h1
  rw [← h1]
  ring

theorem sum_freqs16 (f : ℤ → ℂ) : ((freqs 16).map f).sum = ∑ n ∈ Finset.Icc (-16 : ℤ) 16, f n := by
  rw [← List.sum_toFinset f (freqs_nodup 16)]
  refine Finset.sum_congr ?_ (fun _ _ => rfl)
  ext n
  rw [List.mem_toFinset, mem_freqs16]

section
variable (S : Sympy)

/-- The value added by one pass of the inner loop of the convolution. -/
noncomputable def convTerm (A B : FTensor) (σ : Valuation) (idx : List ℕ) (M : ℕ) (n m : ℤ) : ℂ :=
  match pyGet A (n2i m M), pyGet B (n2i (n - m) M) with
  | .ok a, .ok b => (a.get (idx.take a.rank)).eval σ * (b.get (idx.drop a.rank)).eval σ
  | _, _ => 0

theorem pyGet_error' {α : Type} {l : List α} {i : ℤ} {e : Err} (h : pyGet l i = .error e) : e = .indexError := by
  unfold pyGet at h
  split at h
  · split at h
    · cases h
    · cases h; rfl
  · split at h
    · split at h
      · cases h
      · cases h; rfl
    · cases h; rfl

theorem convolveStep_ok (A B : FTensor) (M : ℕ) (n m : ℤ) (acc : Nd Expr) :
    ∃ t, convolveStep S A B M n acc m = .ok t ∧ t.shape = acc.shape ∧
      ∀ σ idx, (t.get idx).eval σ = (acc.get idx).eval σ + convTerm A B σ idx M n m := by
  unfold convolveStep convTerm
  cases ha : pyGet A (n2i m M) with
  | error e =>
    rw [pyGet_error' ha, error_bind]
    exact ⟨acc, rfl, rfl, fun σ idx => by simp⟩
  | ok a =>
    rw [ok_bind]
    cases hb : pyGet B (n2i (n - m) M) with
    | error e =>
      rw [pyGet_error' hb, error_bind]
      exact ⟨acc, rfl, rfl, fun σ idx => by simp⟩
    | ok b =>
      rw [ok_bind]
      refine ⟨_, rfl, rfl, fun σ idx => ?_⟩
      show (S.add _ _).eval σ = _
      rw [S.eval_add]
      congr 1
      exact S.eval_mul σ _ _

theorem convolveFold_ok (A B : FTensor) (M : ℕ) (n : ℤ) : ∀ (l : List ℤ) (acc : Nd Expr),
    ∃ t, l.foldlM (convolveStep S A B M n) acc = .ok t ∧ t.shape = acc.shape ∧
      ∀ σ idx, (t.get idx).eval σ = (acc.get idx).eval σ + (l.map (convTerm A B σ idx M n)).sum
  | [], acc => ⟨acc, rfl, rfl, fun σ idx => by simp⟩
  | m :: l, acc => by
    obtain ⟨t, h1, h2, h3⟩ := convolveStep_ok S A B M n m acc
    obtain ⟨t', g1, g2, g3⟩ := convolveFold_ok A B M n l t
    refine ⟨t', ?_, g2.trans h2, fun σ idx => ?_⟩
    · rw [List.foldlM_cons, h1, ok_bind, g1]
    · rw [g3, h3, List.map_cons, List.sum_cons]
      ring

/-- The convolution of any two arrays that are not empty. -/
theorem convolveFtensors_ok {A B : FTensor} {a b : Nd Expr} (ha : pyGet A 0 = .ok a) (hb : pyGet B 0 = .ok b) (M : ℕ) :
    ∃ g : ℤ → Nd Expr, convolveFtensors S A B M = .ok ((freqs M).map g) ∧ (∀ n, (g n).shape = a.shape ++ b.shape) ∧
      ∀ n σ idx, ((g n).get idx).eval σ = ((freqs M).map (convTerm A B σ idx M n)).sum := by
  have h := fun n => convolveFold_ok S A B M n (freqs M) (zerosNd (a.shape ++ b.shape))
  choose g h1 h2 h3 using h
  refine ⟨g, ?_, h2, fun n σ idx => ?_⟩
  · unfold convolveFtensors
    rw [ha, ok_bind, hb, ok_bind]
    show ((freqs M).mapM _) = _
    exact mapM_ok' (fun n _ => h1 n)
  · rw [h3]
    simp [zerosNd, Expr.eval]

theorem pyGet_zero_freqs (g : ℤ → Nd Expr) : pyGet ((freqs 16).map g) 0 = .ok (g (-16)) := by
  have h := pyGet_freqs_map g (M := 16) (m := -16) (by rw [mem_freqs]; omega)
  simpa [n2i] using h

theorem pyGet_freqs_cases (g : ℤ → Nd Expr) (k : ℤ) (h1 : -32 ≤ k) : pyGet ((freqs 16).map g) (n2i k 16) =
    if k < -16 then .ok (g (k + 33)) else if k ≤ 16 then .ok (g k) else .error .indexError := by
  split_ifs with h2 h3
  · have hl : (((freqs 16).map g).length : ℤ) = 33 := by simp [length_freqs]
    have := pyGet_freqs_map g (M := 16) (m := k + 33) (by rw [mem_freqs]; constructor <;> push_cast <;> omega)
    unfold pyGet n2i at this ⊢
    rw [if_neg (by omega), if_pos (by rw [hl]; omega), hl]
    rw [if_pos (by push_cast; omega)] at this
    rw [show k + 16 + 33 = k + 33 + ((16 : ℕ) : ℤ) by push_cast; ring]
    exact this
  · exact pyGet_freqs_map g (M := 16) (by rw [mem_freqs]; constructor <;> push_cast <;> omega)
  · unfold pyGet n2i
    rw [if_pos (by omega), List.getElem?_eq_none]
    simp only [List.length_map, length_freqs]
    omega

theorem rep_convolve {A A' : FTensor} {sh sh' : List ℕ} {B B' : ℕ} {T T' : Valuation → ℝ → List ℕ → ℂ}
    (hA : Rep A sh B T) (hA' : Rep A' sh' B' T') (hB : B + B' ≤ 16) :
    ∃ C, convolveFtensors S A A' = .ok C ∧
      Rep C (sh ++ sh') (B + B') (fun σ φ idx => T σ φ (idx.take sh.length) * T' σ φ (idx.drop sh.length)) := by
  obtain ⟨g, rfl, g1, g2, g3⟩ := hA
  obtain ⟨g', rfl, g1', g2', g3'⟩ := hA'
  obtain ⟨c, c1, c2, c3⟩ := convolveFtensors_ok S (pyGet_zero_freqs g) (pyGet_zero_freqs g') 16
  refine ⟨_, c1, ?_⟩
  have hterm : ∀ n ∈ freqs 16, ∀ m ∈ freqs 16, ∀ σ idx, idx.length = (sh ++ sh').length →
      convTerm ((freqs 16).map g) ((freqs 16).map g') σ idx 16 n m =
        ((g m).get (idx.take sh.length)).eval σ * ((g' (n - m)).get (idx.drop sh.length)).eval σ := by
    intro n hn m hm σ idx hidx
    rw [List.length_append] at hidx
    have ht : (idx.take sh.length).length = sh.length := by rw [List.length_take]; omega
    have hd : (idx.drop sh.length).length = sh'.length := by rw [List.length_drop]; omega
    rw [mem_freqs] at hn hm
    push_cast at hn hm
    unfold convTerm
    rw [pyGet_freqs_map g (M := 16) (by rw [mem_freqs]; push_cast; omega),
      show ((16 : ℕ) : ℤ) = 16 from rfl, pyGet_freqs_cases g' (n - m) (by omega)]
    have hr : (g m).rank = sh.length := by unfold Nd.rank; rw [g1]
    by_cases hm1 : (B : ℤ) < |m|
    · rw [g2 m hm1 σ _ ht, zero_mul]
      split
      · rename_i a b h1 h2
        cases h1
        rw [hr, g2 m hm1 σ _ ht, zero_mul]
      · rfl
    have hmm := abs_le.1 (not_lt.1 hm1)
    split_ifs with h1 h2
    · simp only
      rw [hr, g2' (n - m + 33) ?_ σ _ hd, g2' (n - m) ?_ σ _ hd]
      · rw [lt_abs]; omega
      · rw [lt_abs]; omega
    · simp only
      rw [hr]
    · simp only
      rw [g2' (n - m) ?_ σ _ hd, mul_zero]
      rw [lt_abs]; omega
  have hval : ∀ n ∈ freqs 16, ∀ σ idx, idx.length = (sh ++ sh').length → ((c n).get idx).eval σ =
      ∑ m ∈ Finset.Icc (-16 : ℤ) 16,
        ((g m).get (idx.take sh.length)).eval σ * ((g' (n - m)).get (idx.drop sh.length)).eval σ := by
    intro n hn σ idx hidx
    rw [c3, ← sum_freqs16]
    congr 1
    exact List.map_congr_left (fun m hm => hterm n hn m hm σ idx hidx)
  refine rep_of (fun n _ => by rw [c2, g1, g1']) ?_ ?_
  · intro n hn hbn σ idx hidx
    rw [hval n hn σ idx hidx]
    rw [List.length_append] at hidx
    refine Finset.sum_eq_zero (fun m _ => ?_)
    by_cases hm1 : (B : ℤ) < |m|
    · rw [g2 m hm1 σ _ (by rw [List.length_take]; omega), zero_mul]
    · rw [g2' (n - m) ?_ σ _ (by rw [List.length_drop]; omega), mul_zero]
      have hmm := abs_le.1 (not_lt.1 hm1)
      push_cast at hbn
      rw [lt_abs] at hbn ⊢
      omega
  · intro σ φ idx hidx
    have e1 : ∑ n ∈ Finset.Icc (-16 : ℤ) 16, ((c n).get idx).eval σ * harmonic n φ = ∑ n ∈ Finset.Icc (-16 : ℤ) 16,
        (∑ m ∈ Finset.Icc (-16 : ℤ) 16, ((g m).get (idx.take sh.length)).eval σ *
          ((g' (n - m)).get (idx.drop sh.length)).eval σ) * harmonic n φ :=
      Finset.sum_congr rfl (fun n hn => by rw [hval n (mem_freqs16.2 hn) σ idx hidx])
    rw [List.length_append] at hidx
    have ht : (idx.take sh.length).length = sh.length := by rw [List.length_take]; omega
    have hd : (idx.drop sh.length).length = sh'.length := by rw [List.length_drop]; omega
    rw [e1, convolution (fun m => ((g m).get (idx.take sh.length)).eval σ)
      (fun k => ((g' k).get (idx.drop sh.length)).eval σ) hB (fun n hn => g2 n hn σ _ ht) (fun n hn => g2' n hn σ _ hd),
      g3 σ φ _ ht, g3' σ φ _ hd]

/-! ## Linear operations -/

theorem rep_map {A : FTensor} {sh sh' : List ℕ} {B : ℕ} {T T' : Valuation → ℝ → List ℕ → ℂ}
    {f : Nd Expr → Except Err (Nd Expr)} {L : Valuation → (List ℕ → ℂ) → List ℕ → ℂ} (hA : Rep A sh B T)
    (hf : ∀ t, t.shape = sh → ∃ t', f t = .ok t' ∧ t'.shape = sh' ∧
      ∀ σ idx, idx.length = sh'.length → (t'.get idx).eval σ = L σ (fun idx => (t.get idx).eval σ) idx)
    (hL : ∀ σ idx, idx.length = sh'.length → ∀ (s : Finset ℤ) (c : ℤ → List ℕ → ℂ) (h : ℤ → ℂ),
      L σ (fun j => ∑ n ∈ s, c n j * h n) idx = ∑ n ∈ s, L σ (c n) idx * h n)
    (hc : ∀ σ F F' idx, idx.length = sh'.length → (∀ j, j.length = sh.length → F j = F' j) → L σ F idx = L σ F' idx)
    (hT : ∀ σ φ idx, idx.length = sh'.length → L σ (T σ φ) idx = T' σ φ idx) :
    ∃ C, mapFreqs 16 f A = .ok C ∧ Rep C sh' B T' := by
  obtain ⟨g, rfl, g1, g2, g3⟩ := hA
  choose f' h1 h2 h3 using fun n => hf (g n) (g1 n)
  refine ⟨(freqs 16).map f', ?_, rep_of (fun n _ => h2 n) ?_ ?_⟩
  · refine mapM_ok' (fun m hm => ?_)
    rw [pyGet_freqs_map g hm, ok_bind, h1]
  · intro n _ hn σ idx hidx
    rw [h3 n σ idx hidx, hc σ _ (fun _ => 0) idx hidx (fun j hj => g2 n hn σ j hj)]
    have := hL σ idx hidx ∅ (fun _ _ => 0) (fun _ => 0)
    simpa using this
  · intro σ φ idx hidx
    rw [← hT σ φ idx hidx, ← hc σ _ _ idx hidx (fun j hj => g3 σ φ j hj), hL σ idx hidx]
    exact Finset.sum_congr rfl (fun n _ => by rw [h3 n σ idx hidx])

/-- The index function on the free axes. -/
def onAxes (axes idx : List ℕ) (a : ℕ) : ℕ := idx.getD (axes.idxOf a) 0

theorem map_onAxes {axes idx : List ℕ} (hn : axes.Nodup) (hl : idx.length = axes.length) : axes.map (onAxes axes idx) = idx := by
  apply List.ext_getElem (by simp [hl])
  intro i h1 h2
  rw [List.getElem_map, onAxes, List.Nodup.idxOf_getElem hn, List.getD_eq_getElem?_getD, List.getElem?_eq_getElem h2]
  rfl

/-- The contraction of a function of index tuples. -/
noncomputable def contractFun (sh : List ℕ) (pairs : List (ℕ × ℕ)) (F : List ℕ → ℂ) (idx : List ℕ) : ℂ :=
  ((Nd.tuples (pairs.map (fun pq => min (sh.getD pq.1 0) (sh.getD pq.2 0)))).map
    (fun v => F ((List.range sh.length).map (axisValue pairs v (onAxes (freeAxes sh.length pairs) idx))))).sum

theorem tensorContract_expr (t : Nd Expr) (pairs : List (ℕ × ℕ)) (hd : DisjointPairs t.rank pairs) :
    ∃ t', tensorContract (exprOps S) t (pairs.map (fun pq => [(pq.1 : ℤ), (pq.2 : ℤ)])) = .ok t' ∧
      t'.shape = (freeAxes t.rank pairs).map (fun a => t.shape.getD a 0) ∧
      ∀ σ idx, idx.length = (freeAxes t.rank pairs).length →
        (t'.get idx).eval σ = contractFun t.shape pairs (fun idx => (t.get idx).eval σ) idx := by
  have key : ∀ σ, (tensorContract (exprOps S) t (pairs.map (fun pq => [(pq.1 : ℤ), (pq.2 : ℤ)]))).map (evalNd σ) =
      tensorContract (ringOps ℂ) (evalNd σ t) (pairs.map (fun pq => [(pq.1 : ℤ), (pq.2 : ℤ)])) :=
    fun σ => contractLoop_eval S σ _ t _
  cases hr : tensorContract (exprOps S) t (pairs.map (fun pq => [(pq.1 : ℤ), (pq.2 : ℤ)])) with
  | error e =>
    obtain ⟨y, hy, _⟩ := tensorContract_ok (evalNd (fun _ => 0) t) pairs hd
    rw [← key, hr] at hy
    cases hy
  | ok t' =>
    refine ⟨t', rfl, ?_, fun σ idx hidx => ?_⟩
    · obtain ⟨y, hy, h2, _⟩ := tensorContract_ok (evalNd (fun _ => 0) t) pairs hd
      rw [← key, hr] at hy
      cases hy
      exact h2
    · obtain ⟨y, hy, _, h3⟩ := tensorContract_ok (evalNd σ t) pairs hd
      rw [← key, hr] at hy
      cases hy
      have h4 := h3 (onAxes (freeAxes t.rank pairs) idx)
      rw [evalNd_rank, map_onAxes (freeAxes_nodup _ _) hidx] at h4
      exact h4

theorem listSum_finset {ι : Type} (l : List ι) (s : Finset ℤ) (f : ι → ℤ → ℂ) :
    (l.map (fun v => ∑ n ∈ s, f v n)).sum = ∑ n ∈ s, (l.map (fun v => f v n)).sum := by
  induction l with
  | nil => simp
  | cons a l ih => simp [ih, Finset.sum_add_distrib]

theorem contractFun_linear (sh : List ℕ) (pairs : List (ℕ × ℕ)) (idx : List ℕ) (s : Finset ℤ) (c : ℤ → List ℕ → ℂ)
    (h : ℤ → ℂ) : contractFun sh pairs (fun j => ∑ n ∈ s, c n j * h n) idx =
      ∑ n ∈ s, contractFun sh pairs (c n) idx * h n := by
  unfold contractFun
  rw [listSum_finset]
  refine Finset.sum_congr rfl (fun n _ => ?_)
  rw [List.sum_map_mul_right]

theorem contractFun_congr {sh : List ℕ} {pairs : List (ℕ × ℕ)} {F F' : List ℕ → ℂ} {idx : List ℕ}
    (h : ∀ j, j.length = sh.length → F j = F' j) : contractFun sh pairs F idx = contractFun sh pairs F' idx := by
  unfold contractFun
  congr 1
  exact List.map_congr_left (fun v _ => h _ (by simp))

/-- Contraction of every Fourier component. -/
theorem rep_contract {A : FTensor} {sh sh' : List ℕ} {B : ℕ} {T T' : Valuation → ℝ → List ℕ → ℂ} (hA : Rep A sh B T)
    {ps : List (List ℤ)} (pairs : List (ℕ × ℕ)) (hps : ps = pairs.map (fun pq => [(pq.1 : ℤ), (pq.2 : ℤ)]))
    (hd : DisjointPairs sh.length pairs) (hsh : sh' = (freeAxes sh.length pairs).map (fun a => sh.getD a 0))
    (hT : ∀ σ φ idx, idx.length = sh'.length → contractFun sh pairs (T σ φ) idx = T' σ φ idx) :
    ∃ C, mapFreqs 16 (fun t => tensorContract (exprOps S) t ps) A = .ok C ∧ Rep C sh' B T' := by
  refine rep_map (L := fun _ F idx => contractFun sh pairs F idx) hA ?_ ?_ ?_ hT
  · rintro t rfl
    obtain ⟨t', h1, h2, h3⟩ := tensorContract_expr S t pairs hd
    refine ⟨t', by rw [hps, h1], h2.trans hsh.symm, fun σ idx hidx => h3 σ idx ?_⟩
    rw [hidx, hsh, List.length_map]
    rfl
  · intro σ idx _ s c h
    exact contractFun_linear sh pairs idx s c h
  · intro σ F F' idx _ h
    exact contractFun_congr h

/-- Contraction of every Fourier component with a fixed tensor. -/
theorem rep_contractProduct {A : FTensor} {sh shc sh' : List ℕ} {B : ℕ} {T T' : Valuation → ℝ → List ℕ → ℂ}
    (hA : Rep A sh B T) {chi : Nd Expr} (hchi : chi.shape = shc) {ps : List (List ℤ)} (pairs : List (ℕ × ℕ))
    (hps : ps = pairs.map (fun pq => [(pq.1 : ℤ), (pq.2 : ℤ)])) (hd : DisjointPairs (sh ++ shc).length pairs)
    (hsh : sh' = (freeAxes (sh ++ shc).length pairs).map (fun a => (sh ++ shc).getD a 0))
    (hT : ∀ σ φ idx, idx.length = sh'.length → contractFun (sh ++ shc) pairs
      (fun j => T σ φ (j.take sh.length) * (chi.get (j.drop sh.length)).eval σ) idx = T' σ φ idx) :
    ∃ C, mapFreqs 16 (fun t => contractProduct (exprOps S) [t, chi] ps) A = .ok C ∧ Rep C sh' B T' := by
  subst hchi
  refine rep_map (L := fun σ F idx => contractFun (sh ++ chi.shape) pairs
      (fun j => F (j.take sh.length) * (chi.get (j.drop sh.length)).eval σ) idx) hA ?_ ?_ ?_ hT
  · rintro t rfl
    obtain ⟨t', h1, h2, h3⟩ := tensorContract_expr S (Nd.tensordot0 (exprOps S) t chi) pairs hd
    refine ⟨t', ?_, h2.trans hsh.symm, fun σ idx hidx => ?_⟩
    · show (tensorProduct (exprOps S) [t, chi] >>= fun p => tensorContract (exprOps S) p ps) = _
      rw [show tensorProduct (exprOps S) [t, chi] = .ok (Nd.tensordot0 (exprOps S) t chi) from rfl, ok_bind, hps, h1]
    · rw [h3 σ idx (by rw [hidx, hsh, List.length_map]; rfl)]
      refine contractFun_congr (fun j _ => ?_)
      exact S.eval_mul σ _ _
  · intro σ idx _ s c h
    rw [← contractFun_linear]
    refine contractFun_congr (fun j _ => ?_)
    rw [Finset.sum_mul]
    refine Finset.sum_congr rfl (fun n _ => ?_)
    ring
  · intro σ F F' idx _ h
    refine contractFun_congr (fun j hj => ?_)
    rw [h _ (by rw [List.length_take, hj, List.length_append]; omega)]

/-! ## Building blocks -/

theorem freqs16_split (M : ℕ) (g : ℤ → Nd Expr) (n : ℤ) (hn : n ∈ freqs M) (v : Nd Expr) :
    ftSet ((freqs M).map g) (n2i n M) v = .ok ((freqs M).map (fun m => if m = n then v else g m)) := by
  rw [mem_freqs] at hn
  unfold ftSet
  rw [pySet_nonneg (by unfold n2i; omega) (by simp only [List.length_map, length_freqs]; unfold n2i; push_cast; omega)]
  congr 1
  apply List.ext_getElem?
  intro i
  rw [List.getElem?_set]
  simp only [List.getElem?_map, List.length_map, length_freqs]
  by_cases hi : i < 2 * M + 1
  · rw [getElem?_freqs hi]
    simp only [Option.map_some]
    by_cases h : (n2i n M).toNat = i
    · rw [if_pos h, if_pos (by omega), if_pos (by unfold n2i at h; omega)]
    · rw [if_neg h, if_neg (by unfold n2i at h; omega)]
  · rw [List.getElem?_eq_none (by rw [length_freqs]; omega)]
    simp only [Option.map_none]
    split_ifs <;> first | rfl | (exfalso; omega)

theorem replicate_eq_freqs (M : ℕ) (t : Nd Expr) : List.replicate (2 * M + 1) t = (freqs M).map (fun _ => t) := by
  rw [← length_freqs M, List.map_const']

theorem zero_mem_freqs (M : ℕ) : (0 : ℤ) ∈ freqs M := by rw [mem_freqs]; omega

theorem onlyZeroFreq_eq (M : ℕ) (t : Nd Expr) :
    onlyZeroFreq M t = .ok ((freqs M).map (fun m => if m = 0 then t else zerosNd t.shape)) := by
  unfold onlyZeroFreq
  rw [replicate_eq_freqs, freqs16_split _ _ _ (zero_mem_freqs M)]

theorem rep_onlyZeroFreq (t : Nd Expr) :
    ∃ A, onlyZeroFreq 16 t = .ok A ∧ Rep A t.shape 0 (fun σ _ idx => (t.get idx).eval σ) := by
  refine ⟨_, onlyZeroFreq_eq 16 t, rep_of ?_ ?_ ?_⟩
  · intro n _
    split_ifs <;> rfl
  · intro n _ hn σ idx _
    rw [if_neg (by rintro rfl; simp at hn)]
    simp [zerosNd, Expr.eval]
  · intro σ φ idx _
    rw [Finset.sum_eq_single 0]
    · simp [harmonic]
    · intro n _ hn
      rw [if_neg hn]
      simp [zerosNd, Expr.eval]
    · intro h
      exact absurd (by simp) h

theorem rep_scale {A : FTensor} {sh : List ℕ} {B : ℕ} {T : Valuation → ℝ → List ℕ → ℂ} (hA : Rep A sh B T) (c : Expr) :
    Rep (scaleFreqs S c A) sh B (fun σ φ idx => c.eval σ * T σ φ idx) := by
  obtain ⟨g, rfl, g1, g2, g3⟩ := hA
  refine ⟨fun n => ndScale S c (g n), by simp [scaleFreqs], fun n => g1 n, ?_, ?_⟩
  · intro n hn σ idx hidx
    show (S.mul _ _).eval σ = 0
    rw [S.eval_mul, g2 n hn σ idx hidx, mul_zero]
  · intro σ φ idx hidx
    dsimp only
    rw [← g3 σ φ idx hidx, Finset.mul_sum]
    refine Finset.sum_congr rfl (fun n _ => ?_)
    show (S.mul _ _).eval σ * _ = _
    rw [S.eval_mul]
    ring

theorem rep_zeros {A : FTensor} {sh : List ℕ} {B : ℕ} {T : Valuation → ℝ → List ℕ → ℂ} (hA : Rep A sh B T) :
    Rep (A.map (fun t => zerosNd t.shape)) sh B (fun _ _ _ => 0) := by
  obtain ⟨g, rfl, g1, g2, g3⟩ := hA
  refine ⟨fun n => zerosNd (g n).shape, by simp, fun n => g1 n, ?_, ?_⟩
  · intro n _ σ idx _
    simp [zerosNd, Expr.eval]
  · intro σ φ idx _
    simp [zerosNd, Expr.eval]

theorem rep_stack {A A' A'' : FTensor} {sh : List ℕ} {B : ℕ} {T T' T'' : Valuation → ℝ → List ℕ → ℂ}
    (hA : Rep A sh B T) (hA' : Rep A' sh B T') (hA'' : Rep A'' sh B T'') :
    ∃ C, stackFreqs 16 A A' A'' = .ok C ∧
      Rep C (3 :: sh) B (fun σ φ idx => ([T, T', T''].getD (idx.getD 0 0) T) σ φ (idx.drop 1)) := by
  obtain ⟨g, rfl, g1, g2, g3⟩ := hA
  obtain ⟨g', rfl, g1', g2', g3'⟩ := hA'
  obtain ⟨g'', rfl, g1'', g2'', g3''⟩ := hA''
  refine ⟨(freqs 16).map (fun n => stack3 (g n) (g' n) (g'' n)), ?_, rep_of ?_ ?_ ?_⟩
  · refine mapM_ok' (fun m hm => ?_)
    rw [pyGet_freqs_map g hm, ok_bind, pyGet_freqs_map g' hm, ok_bind, pyGet_freqs_map g'' hm, ok_bind]
    rfl
  · intro n _
    simp [stack3, g1]
  · intro n _ hn σ idx hidx
    have hd : (idx.drop 1).length = sh.length := by
      rw [List.length_drop, hidx]; simp
    simp only [stack3]
    rcases idx.getD 0 0 with _ | _ | _ | k
    · exact g2 n hn σ _ hd
    · exact g2' n hn σ _ hd
    · exact g2'' n hn σ _ hd
    · exact g2 n hn σ _ hd
  · intro σ φ idx hidx
    have hd : (idx.drop 1).length = sh.length := by
      rw [List.length_drop, hidx]; simp
    simp only [stack3]
    rcases idx.getD 0 0 with _ | _ | _ | k
    · exact g3 σ φ _ hd
    · exact g3' σ φ _ hd
    · exact g3'' σ φ _ hd
    · exact g3 σ φ _ hd

/-- The valuation after substitutions. -/
noncomputable def substVal (pairs : List (Sym × Expr)) (σ : Valuation) : Valuation :=
  pairs.foldr (fun p σ => assign σ p.1 (p.2.eval σ)) σ

theorem eval_subs' (pairs : List (Sym × Expr)) (σ : Valuation) : ∀ e : Expr,
    (S.subs pairs e).eval σ = e.eval (substVal pairs σ) := by
  induction pairs with
  | nil => intro e; rfl
  | cons p pairs ih =>
    intro e
    show (S.subs pairs (S.norm (Expr.subst p.1 p.2 e))).eval σ = _
    rw [ih, S.eval_norm, Expr.eval_subst]
    rfl

theorem rep_subst {A : FTensor} {sh : List ℕ} {B : ℕ} {T : Valuation → ℝ → List ℕ → ℂ} (hA : Rep A sh B T)
    (pairs : List (Sym × Expr)) :
    Rep (A.map (substituteIntoArray S pairs)) sh B (fun σ φ idx => T (substVal pairs σ) φ idx) := by
  obtain ⟨g, rfl, g1, g2, g3⟩ := hA
  refine ⟨fun n => substituteIntoArray S pairs (g n), by simp, fun n => g1 n, ?_, ?_⟩
  · intro n hn σ idx hidx
    show (S.subs pairs _).eval σ = 0
    rw [eval_subs', g2 n hn _ idx hidx]
  · intro σ φ idx hidx
    dsimp only
    rw [← g3 _ φ idx hidx]
    refine Finset.sum_congr rfl (fun n _ => ?_)
    show (S.subs pairs _).eval σ * _ = _
    rw [eval_subs']

end

end Shgpy
