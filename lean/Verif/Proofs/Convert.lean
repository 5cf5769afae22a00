import Verif.Model.Convert
import Verif.Proofs.FData
import Verif.Proofs.DataArith
import Mathlib.RingTheory.RootsOfUnity.Complex
import Mathlib.Algebra.Field.GeomSum
import Mathlib.Algebra.BigOperators.Field

/-! Lemmas about the conversions between data and Fourier data. -/

set_option linter.unusedSectionVars false
set_option linter.unusedSimpArgs false

namespace Shgpy
open Spec

theorem linspace2pi_eq (N : ℕ) : linspace2pi N = (List.range N).map (gridAngle N) := by
  unfold linspace2pi gridAngle
  apply List.map_congr_left
  intro j _
  ring

theorem length_linspace2pi (N : ℕ) : (linspace2pi N).length = N := by simp [linspace2pi]

theorem gridAngle_lt {N i j : ℕ} (hN : 1 ≤ N) (h : i < j) : gridAngle N i < gridAngle N j := by
  unfold gridAngle
  have hN' : (0 : ℝ) < N := by exact_mod_cast hN
  have hij : (i : ℝ) < j := by exact_mod_cast h
  have := Real.pi_pos
  apply div_lt_div_of_pos_right _ hN'
  nlinarith

theorem gridAngle_inTurn {N j : ℕ} (h : j < N) : InTurn (gridAngle N j) := by
  have hN' : (0 : ℝ) < N := by exact_mod_cast (by omega : 0 < N)
  have hj : (j : ℝ) < N := by exact_mod_cast h
  have hj0 : (0 : ℝ) ≤ j := Nat.cast_nonneg j
  have := Real.pi_pos
  constructor
  · unfold gridAngle; positivity
  · unfold gridAngle
    show 2 * Real.pi * j / N < 2 * Real.pi
    rw [div_lt_iff₀ hN']
    nlinarith

theorem gridAngle_sorted {N : ℕ} (hN : 1 ≤ N) : ((List.range N).map (gridAngle N)).Pairwise (· < ·) := by
  rw [List.pairwise_map]
  exact List.pairwise_lt_range.imp (fun h => gridAngle_lt hN h)

theorem sampled_normalForm {N : ℕ} (hN : 1 ≤ N) (f : ℝ → ℝ) : NormalForm (sampled N f) := by
  refine ⟨?_, ?_, ?_⟩
  · intro h
    have := congrArg List.length h
    simp [sampled] at this
    omega
  · intro p hp
    simp only [sampled, List.mem_map, List.mem_range] at hp
    obtain ⟨j, hj, rfl⟩ := hp
    exact gridAngle_inTurn hj
  · unfold sampled
    rw [List.pairwise_map]
    exact List.pairwise_lt_range.imp (fun h => (gridAngle_lt hN h).le)

theorem sampled_fst (N : ℕ) (f : ℝ → ℝ) : (sampled N f).map Prod.fst = (List.range N).map (gridAngle N) := by
  simp [sampled, Function.comp_def]

theorem sampled_snd (N : ℕ) (f : ℝ → ℝ) : (sampled N f).map Prod.snd = ((List.range N).map (gridAngle N)).map f := by
  simp [sampled, Function.comp_def]

theorem sampled_nodup {N : ℕ} (hN : 1 ≤ N) (f : ℝ → ℝ) : ((sampled N f).map Prod.fst).Nodup := by
  rw [sampled_fst]
  exact (gridAngle_sorted hN).imp (fun h => ne_of_lt h)

/-! ### `fdat_to_dat` -/

theorem zipWith_map_add (xdata : List ℝ) (g h : ℝ → ℂ) :
    List.zipWith (· + ·) (xdata.map g) (xdata.map h) = xdata.map (fun x => g x + h x) := by
  induction xdata with
  | nil => rfl
  | cons a l ih => simp [ih]

theorem foldlM_addHarmonic {M : ℕ} {v : List ℂ} (hv : v.length = 2 * M + 1) (xdata : List ℝ) (ms : List ℤ)
    (hms : ∀ m ∈ ms, m ∈ freqs M) (g : ℝ → ℂ) :
    ms.foldlM (addHarmonic M v xdata) (xdata.map g) =
      .ok (xdata.map (fun x => g x + (ms.map (fun m : ℤ => v.getD (m + (M : ℤ)).toNat 0 * harmonic m x)).sum)) := by
  induction ms generalizing g with
  | nil => simp; rfl
  | cons m ms ih =>
    obtain ⟨z, h1, h2⟩ := pyGet_n2i_ok hv (hms m List.mem_cons_self)
    have : addHarmonic M v xdata (xdata.map g) m =
        .ok (xdata.map (fun x => g x + v.getD (m + (M : ℤ)).toNat 0 * harmonic m x)) := by
      unfold addHarmonic
      rw [h1]
      simp only [bind, Except.bind, pure, Except.pure, zipWith_map_add, harmonic_eq]
      rw [List.getD_eq_getElem?_getD, h2]
      rfl
    rw [List.foldlM_cons, this]
    show List.foldlM _ _ ms = _
    rw [ih (fun m' h => hms m' (List.mem_cons_of_mem _ h))]
    congr 1
    apply List.map_congr_left
    intro x _
    rw [List.map_cons, List.sum_cons, add_assoc]

theorem sum_freqs {α : Type} [AddCommMonoid α] (M : ℕ) (g : ℤ → α) :
    ((freqs M).map g).sum = ∑ i ∈ Finset.range (2 * M + 1), g ((i : ℤ) - M) := by
  unfold freqs
  rw [List.map_map, Finset.sum_range, ← List.sum_ofFn]
  congr 1
  rw [List.ofFn_eq_map, ← List.map_coe_finRange_eq_range, List.map_map]
  rfl

theorem series_eq_sum (v : List ℂ) (M : ℕ) (x : ℝ) :
    ((freqs M).map (fun m : ℤ => v.getD (m + (M : ℤ)).toNat 0 * harmonic m x)).sum = series v M x := by
  rw [sum_freqs]
  unfold series
  apply Finset.sum_congr rfl
  intro i _
  simp

theorem invFourier_ok {M : ℕ} {v : List ℂ} (hv : v.length = 2 * M + 1) (N : ℕ) :
    invFourier M N v = .ok (.arr2 .float [(sampled N (fun x => (series v M x).re)).map Prod.fst,
      (sampled N (fun x => (series v M x).re)).map Prod.snd]) := by
  unfold invFourier
  have h0 : List.replicate N (0 : ℂ) = (linspace2pi N).map (fun _ => 0) := by
    rw [List.map_const', length_linspace2pi]
  simp only [h0, foldlM_addHarmonic hv (linspace2pi N) (freqs M) (fun _ h => h), bind, Except.bind, pure, Except.pure]
  rw [sampled_fst, sampled_snd, ← linspace2pi_eq, List.map_map]
  simp only [series_eq_sum, zero_add]
  rfl

theorem foldlM_set_items {α β : Type} (f : α → Except Err β) (g : α → β) (items : Dict Key α) (pre : Dict Key β)
    (h : (Dict.keys pre ++ Dict.keys items).Nodup) (hf : ∀ it ∈ items, f it.2 = .ok (g it.2)) :
    items.foldlM (fun (it : Dict Key β) kv => do
      let a ← f kv.2
      return Dict.set it kv.1 a) pre = .ok (pre ++ Dict.mapVals g items) := by
  induction items generalizing pre with
  | nil => simp [Dict.mapVals]; rfl
  | cons p items ih =>
    obtain ⟨k, v⟩ := p
    rw [List.foldlM_cons, hf _ List.mem_cons_self]
    have hk : k ∉ Dict.keys pre := by
      intro hk
      rw [List.nodup_append] at h
      exact h.2.2 k hk k (by simp) rfl
    show List.foldlM _ (Dict.set pre k (g v)) items = _
    rw [Dict.set_of_notMem hk, ih]
    · simp [Dict.mapVals]
    · simpa [Dict.keys] using h
    · intro it hit; exact hf it (List.mem_cons_of_mem _ hit)

theorem fdatToDat_ok {c : FDataContainer} (hg : c.Good) {N : ℕ} (hN : 1 ≤ N) :
    fdatToDat c N = .ok (⟨c.fdata.mapVals (fun v => sampled N (fun x => (series v c.M x).re)), 1, 0, some 0, false,
      sRadians⟩, []) := by
  unfold fdatToDat FDataContainer.getItems FDataContainer.getM
  rw [foldlM_set_items (invFourier c.M N) (fun v => .arr2 .float [(sampled N (fun x => (series v c.M x).re)).map Prod.fst,
      (sampled N (fun x => (series v c.M x).re)).map Prod.snd]) c.fdata [] (by simpa [Dict.WF] using hg.wf)
    (fun it hit => invFourier_ok (hg.len it hit) N)]
  simp only [List.nil_append, bind, Except.bind]
  have := init_items (K := ℝ) (items := c.fdata.mapVals (fun v => sampled N (fun x => (series v c.M x).re)))
    (by simpa [Dict.WF] using hg.wf)
    (by
      intro it hit
      obtain ⟨k, v⟩ := it
      obtain ⟨a, _, rfl⟩ := Dict.mem_mapVals.1 hit
      exact sampled_normalForm hN (fun x => (series a c.M x).re))
    (by
      intro it hit
      obtain ⟨k, v⟩ := it
      obtain ⟨a, _, rfl⟩ := Dict.mem_mapVals.1 hit
      exact sampled_nodup hN (fun x => (series a c.M x).re))
  rw [← this]
  congr 1
  simp [Dict.mapVals]

/-! ### `dat_to_fdat` -/

theorem mapM_ok {α β : Type} {f : α → Except Err β} {g : α → β} {l : List α} (h : ∀ a ∈ l, f a = .ok (g a)) :
    l.mapM f = .ok (l.map g) := by
  induction l with
  | nil => rfl
  | cons a l ih =>
    rw [List.mapM_cons, h a List.mem_cons_self, ih (fun b hb => h b (List.mem_cons_of_mem _ hb))]
    rfl

theorem pyGet_natCast {α : Type} {l : List α} {i : ℕ} (h : i < l.length) : pyGet l (i : ℤ) = .ok l[i] := by
  unfold pyGet
  simp [h]

theorem fourierSum_ok {interp : Interp} {N : ℕ} (hN : 2 ≤ N) {g f : ℝ → ℝ} (hi : interp (sampled N g) = .ok f)
    (hf : ∀ j < N, f (gridAngle N j) = g (gridAngle N j)) (m : ℤ) :
    fourierSum interp (sampled N g) m = .ok (dft N g m) := by
  have hlen : (sampled N g).length = N := by simp [sampled]
  have hget : ∀ i (h : i < (linspace2pi N).length), (linspace2pi N)[i] = gridAngle N i := by
    intro i h
    simp [linspace2pi_eq]
  unfold fourierSum
  rw [hi]
  simp only [bind, Except.bind, hlen, pure, Except.pure]
  rw [show (1 : ℤ) = ((1 : ℕ) : ℤ) from rfl, pyGet_natCast (by rw [length_linspace2pi]; omega), hget,
    show (0 : ℤ) = ((0 : ℕ) : ℤ) from rfl, pyGet_natCast (by rw [length_linspace2pi]; omega), hget]
  simp only [length_linspace2pi]
  rw [mapM_ok (g := fun j : ℕ => (1 / (N : ℂ)) * ((g (gridAngle N j) : ℂ) * Complex.exp (-(Complex.I * (m * gridAngle N j)))))]
  · simp only
    congr 1
    unfold dft
    rw [Finset.mul_sum, Finset.sum_range, ← List.sum_ofFn, List.ofFn_eq_map, ← List.map_coe_finRange_eq_range, List.map_map]
    rfl
  · intro j hj
    rw [List.mem_range] at hj
    rw [pyGet_natCast (by simp [length_linspace2pi, hj]), pyGet_natCast (by simp [length_linspace2pi, hj])]
    simp only [List.getElem_map, hget, hf j hj]
    congr 1
    have hN' : (N : ℝ) ≠ 0 := by exact_mod_cast (by omega : N ≠ 0)
    have hNc : (N : ℂ) ≠ 0 := by exact_mod_cast (by omega : N ≠ 0)
    have hstep : 1 / 2 / Real.pi * (gridAngle N 1 - gridAngle N 0) = 1 / (N : ℝ) := by
      unfold gridAngle
      have := Real.pi_ne_zero
      field_simp
      simp
    rw [hstep]
    push_cast
    rw [mul_assoc]
    congr 3
    ring

theorem foldlM_set_keys {β : Type} (f : Key → Except Err β) (g : Key → β) (z : β) (ks : List Key) (pre : Dict Key β)
    (h : (Dict.keys pre ++ ks).Nodup) (hf : ∀ k ∈ ks, f k = .ok (g k)) :
    ks.foldlM (fun (ans : Dict Key β) k => do
      let a ← f k
      return Dict.set ans k a) (pre ++ ks.map (fun k => (k, z))) = .ok (pre ++ ks.map (fun k => (k, g k))) := by
  induction ks generalizing pre with
  | nil => simp; rfl
  | cons k ks ih =>
    rw [List.foldlM_cons, hf _ List.mem_cons_self]
    have hk : k ∉ Dict.keys pre := by
      intro hk
      rw [List.nodup_append] at h
      exact h.2.2 k hk k (by simp) rfl
    show List.foldlM _ (Dict.set (pre ++ (k, z) :: ks.map _) k (g k)) ks = _
    rw [Dict.set_append_of_notMem hk]
    have := ih (pre ++ [(k, g k)]) (by simpa [Dict.keys] using h) (fun k' h' => hf k' (List.mem_cons_of_mem _ h'))
    simpa using this

theorem FDataContainer.init_items {d : Dict Key (List ℂ)} {M : ℕ} (dt : CDType) (hdt : dt = .complex64 ∨ dt = .complex128)
    (hwf : Dict.WF d) (hlen : ∀ it ∈ d, it.2.length = 2 * M + 1) :
    FDataContainer.init (d.map (fun it => (.str it.1, .arr1 dt it.2))) M = .ok ⟨d, M, 1, .num 0⟩ := by
  unfold FDataContainer.init
  have hnd : ((d.map (fun it => ((.str it.1 : RawKey), (.arr1 dt it.2 : RawFVal)))).map Prod.fst).Nodup := by
    rw [List.map_map]
    have : (Prod.fst ∘ fun it : Key × List ℂ => ((.str it.1 : RawKey), (.arr1 dt it.2 : RawFVal))) =
      RawKey.str ∘ Prod.fst := rfl
    rw [this, ← List.map_map]
    exact List.Nodup.map (fun a b h => by cases h; rfl) hwf
  rw [Dict.ofPairs_of_nodup hnd]
  have : checkFIterable M (d.map (fun it => ((.str it.1 : RawKey), (.arr1 dt it.2 : RawFVal)))) = .ok d := by
    clear hwf hnd
    induction d with
    | nil => rfl
    | cons p d ih =>
      obtain ⟨k, v⟩ := p
      have h1 : checkFVal M (.arr1 dt v) = some v :=
        checkFVal_some.2 ⟨dt, rfl, hlen _ List.mem_cons_self, hdt⟩
      simp only [List.map_cons, checkFIterable, h1, ih (fun it hit => hlen it (List.mem_cons_of_mem _ hit))]
  rw [this]
  rfl

theorem datToFdat_ok {interp : Interp} {dat : DataContainer ℝ} (hwf : Dict.WF dat.data) {M : ℕ}
    {g : List (ℝ × ℝ) → ℤ → ℂ}
    (h : ∀ it ∈ dat.data, ∀ m ∈ freqs M, fourierSum interp it.2 m = .ok (g it.2 m)) :
    datToFdat interp dat M = .ok ⟨dat.data.mapVals (fun pts => (freqs M).map (g pts)), M, 1, .num 0⟩ := by
  unfold datToFdat
  have hnd : ((dat.getKeys.map (fun k => (k, List.replicate (2 * M + 1) (0 : ℂ)))).map Prod.fst).Nodup := by
    rw [List.map_map]
    simpa [Function.comp_def, DataContainer.getKeys, Dict.WF] using hwf
  rw [Dict.ofPairs_of_nodup hnd]
  have hkeys : ∀ k ∈ dat.getKeys, (fillFreqs M 0 (2 * M + 1) (fun m => do
      let pts ← dat.getPc k sRadians
      fourierSum interp pts m)) = .ok ((freqs M).map (g ((Dict.get? dat.data k).getD []))) := by
    intro k hk
    obtain ⟨v, hv⟩ := Dict.mem_keys.1 hk
    have hget := (Dict.get?_eq_some_iff hwf).2 hv
    rw [hget]
    apply fillFreqs_ok
    intro m hm
    rw [getPc_radians, Dict.get_ok_iff.2 hget]
    exact h _ hv m hm
  have := foldlM_set_keys _ _ (List.replicate (2 * M + 1) (0 : ℂ)) dat.getKeys [] (by simpa [DataContainer.getKeys, Dict.WF] using hwf) hkeys
  simp only [List.nil_append] at this
  show Except.bind _ _ = _
  rw [this]
  simp only [Except.bind]
  have heq : dat.getKeys.map (fun k => (k, (freqs M).map (g ((Dict.get? dat.data k).getD [])))) =
      dat.data.mapVals (fun pts => (freqs M).map (g pts)) := by
    unfold DataContainer.getKeys Dict.keys Dict.mapVals
    rw [List.map_map]
    apply List.map_congr_left
    rintro ⟨k, v⟩ hkv
    simp [(Dict.get?_eq_some_iff hwf).2 hkv]
  rw [heq]
  exact FDataContainer.init_items .complex64 (Or.inl rfl) (by simpa [Dict.WF] using hwf) (by
    rintro ⟨k, v⟩ hit
    obtain ⟨a, _, rfl⟩ := Dict.mem_mapVals.1 hit
    simp [length_freqs])

/-! ### Discrete orthogonality -/

theorem harmonic_gridAngle (d : ℤ) (N : ℕ) (j : ℕ) :
    harmonic d (gridAngle N j) = (Complex.exp (2 * Real.pi * Complex.I * (d / N))) ^ j := by
  unfold harmonic gridAngle
  rw [← Complex.exp_nat_mul]
  congr 1
  push_cast
  ring

theorem sum_harmonic (d : ℤ) {N : ℕ} (hN : N ≠ 0) :
    ∑ j ∈ Finset.range N, harmonic d (gridAngle N j) = if (N : ℤ) ∣ d then (N : ℂ) else 0 := by
  simp only [harmonic_gridAngle d N]
  have hNc : (N : ℂ) ≠ 0 := by exact_mod_cast hN
  split
  · rename_i hd
    obtain ⟨q, rfl⟩ := hd
    have : Complex.exp (2 * Real.pi * Complex.I * (((N * q : ℤ) : ℂ) / N)) = 1 := by
      rw [Complex.exp_eq_one_iff]
      refine ⟨q, ?_⟩
      push_cast
      field_simp
    rw [this]
    simp
  · rename_i hd
    have hne : Complex.exp (2 * Real.pi * Complex.I * (d / N)) ≠ 1 := by
      intro h
      rw [Complex.exp_eq_one_iff] at h
      obtain ⟨n, hn⟩ := h
      apply hd
      refine ⟨n, ?_⟩
      have hpi : (2 * Real.pi * Complex.I : ℂ) ≠ 0 := Complex.two_pi_I_ne_zero
      have : (d : ℂ) / N = n := by
        apply mul_left_cancel₀ hpi
        rw [hn]; ring
      rw [div_eq_iff hNc] at this
      have h2 : ((d : ℤ) : ℂ) = ((N * n : ℤ) : ℂ) := by rw [this]; push_cast; ring
      exact_mod_cast h2
    rw [geom_sum_eq hne]
    have : Complex.exp (2 * Real.pi * Complex.I * (d / N)) ^ N = 1 := by
      rw [← Complex.exp_nat_mul, Complex.exp_eq_one_iff]
      refine ⟨d, ?_⟩
      field_simp
    rw [this]
    simp

theorem conj_harmonic (m : ℤ) (x : ℝ) : (starRingEnd ℂ) (harmonic m x) = harmonic (-m) x := by
  unfold harmonic
  rw [← Complex.exp_conj]
  congr 1
  simp

theorem coeff_nat (v : List ℂ) {M i : ℕ} (hi : i < 2 * M + 1) : coeff v M ((i : ℤ) - M) = v.getD i 0 := by
  unfold coeff
  rw [if_pos (by omega)]
  congr 1
  omega

theorem series_eq_coeff (v : List ℂ) (M : ℕ) (x : ℝ) :
    series v M x = ∑ m ∈ Finset.Icc (-(M : ℤ)) M, coeff v M m * harmonic m x := by
  unfold series
  symm
  refine Finset.sum_bij' (fun m _ => (m + M).toNat) (fun i _ => (i : ℤ) - M) ?_ ?_ ?_ ?_ ?_
  · intro m hm; simp only [Finset.mem_Icc] at hm; simp only [Finset.mem_range]; omega
  · intro i hi; simp only [Finset.mem_range] at hi; simp only [Finset.mem_Icc]; omega
  · intro m hm; simp only [Finset.mem_Icc] at hm; omega
  · intro i hi; simp
  · intro m hm
    simp only [Finset.mem_Icc] at hm
    have : (((m + M).toNat : ℕ) : ℤ) - M = m := by omega
    rw [this]
    congr 1
    unfold coeff
    rw [if_pos hm]

theorem sum_Icc_neg {α : Type} [AddCommMonoid α] (M : ℕ) (f : ℤ → α) :
    ∑ m ∈ Finset.Icc (-(M : ℤ)) M, f (-m) = ∑ m ∈ Finset.Icc (-(M : ℤ)) M, f m := by
  refine Finset.sum_bij' (fun m _ => -m) (fun m _ => -m) ?_ ?_ ?_ ?_ ?_ <;>
    simp only [Finset.mem_Icc] <;> intros <;> first | omega | simp

theorem re_series (v : List ℂ) (M : ℕ) (x : ℝ) :
    (((series v M x).re : ℝ) : ℂ) = ∑ m ∈ Finset.Icc (-(M : ℤ)) M, symmetrized v M m * harmonic m x := by
  have h1 : (((series v M x).re : ℝ) : ℂ) = (series v M x + (starRingEnd ℂ) (series v M x)) / 2 := by
    rw [Complex.re_eq_add_conj]
  rw [h1, series_eq_coeff, map_sum]
  have h2 : ∑ m ∈ Finset.Icc (-(M : ℤ)) M, (starRingEnd ℂ) (coeff v M m * harmonic m x) =
      ∑ m ∈ Finset.Icc (-(M : ℤ)) M, (starRingEnd ℂ) (coeff v M (-m)) * harmonic m x := by
    rw [← sum_Icc_neg M (fun m => (starRingEnd ℂ) (coeff v M (-m)) * harmonic m x)]
    apply Finset.sum_congr rfl
    intro m _
    rw [map_mul, conj_harmonic, neg_neg]
  rw [h2, ← Finset.sum_add_distrib, Finset.sum_div]
  apply Finset.sum_congr rfl
  intro m _
  unfold symmetrized
  ring

theorem dft_series (v : List ℂ) (M : ℕ) {N : ℕ} (hN : N ≠ 0) (m : ℤ) :
    dft N (fun x => (series v M x).re) m =
      ∑ m' ∈ Finset.Icc (-(M : ℤ)) M, if (N : ℤ) ∣ m' - m then symmetrized v M m' else 0 := by
  have hNc : (N : ℂ) ≠ 0 := by exact_mod_cast hN
  unfold dft
  simp only [re_series]
  have : ∀ j, (∑ m' ∈ Finset.Icc (-(M : ℤ)) M, symmetrized v M m' * harmonic m' (gridAngle N j)) *
      Complex.exp (-(Complex.I * (m * gridAngle N j))) =
      ∑ m' ∈ Finset.Icc (-(M : ℤ)) M, symmetrized v M m' * harmonic (m' - m) (gridAngle N j) := by
    intro j
    rw [Finset.sum_mul]
    apply Finset.sum_congr rfl
    intro m' _
    unfold harmonic
    rw [mul_assoc, ← Complex.exp_add]
    congr 2
    push_cast
    ring
  simp only [this]
  rw [Finset.sum_comm, Finset.mul_sum]
  apply Finset.sum_congr rfl
  intro m' _
  rw [← Finset.mul_sum, sum_harmonic _ hN]
  split
  · field_simp
  · simp

end Shgpy
