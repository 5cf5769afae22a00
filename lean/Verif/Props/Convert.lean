import Verif.Proofs.Convert
import Verif.Props.FData
import Verif.Props.DataOps

/-!
# Properties C20, C21, C22: between data and Fourier data
-/

set_option linter.unusedSectionVars false
set_option linter.unusedSimpArgs false

namespace Shgpy
open Spec

/-- **C20.** `fdat_to_dat(fdat, N)` has the keys of `fdat`, no duplicate warning, and for every combination exactly the
`N` points `(2πj/N, Re Σ_m c_m e^{i m 2πj/N})`, `j = 0, …, N-1`. -/
theorem C20_inverse_sampling {c : FDataContainer} (hc : c.Reachable) {N : ℕ} (hN : 1 ≤ N) :
    ∃ d, fdatToDat c N = .ok (d, []) ∧ d.getKeys = c.getKeys ∧
      ∀ k v, c.getPc k = .ok v →
        d.getPc k sRadians = .ok (sampled N (fun x => (series v c.getM x).re)) := by
  refine ⟨_, fdatToDat_ok hc.good hN, by simp [DataContainer.getKeys, FDataContainer.getKeys], ?_⟩
  intro k v hv
  rw [getPc_radians, Dict.get_ok_iff, Dict.get?_mapVals, Dict.get_ok_iff.1 hv]
  rfl

/-- **C20.** The sample points are in `[0, 2π)` and strictly increasing. -/
theorem C20_grid {N : ℕ} (f : ℝ → ℝ) :
    (sampled N f).length = N ∧ (∀ p ∈ sampled N f, InTurn p.1) ∧
    (sampled N f).Pairwise (fun p q => p.1 < q.1) := by
  refine ⟨by simp [sampled], ?_, ?_⟩
  · intro p hp
    simp only [sampled, List.mem_map, List.mem_range] at hp
    obtain ⟨j, hj, rfl⟩ := hp
    exact gridAngle_inTurn hj
  · rcases Nat.eq_zero_or_pos N with rfl | h
    · simp [sampled]
    · unfold sampled
      rw [List.pairwise_map]
      exact List.pairwise_lt_range.imp (fun hij => gridAngle_lt h hij)

/-- **C20.** Asking for zero points is rejected with `ValueError` (unless there are no combinations). -/
theorem C20_zero_points {c : FDataContainer} (hc : c.Reachable) (hk : c.getKeys ≠ []) :
    fdatToDat c 0 = .error .valueError := by
  have hg := hc.good
  unfold fdatToDat FDataContainer.getItems FDataContainer.getM
  rw [foldlM_set_items (invFourier c.M 0) (fun _ => .arr2 .float [[], []]) c.fdata []
    (by simpa [Dict.WF] using hg.wf) (fun it hit => by rw [invFourier_ok (hg.len it hit)]; rfl)]
  simp only [List.nil_append, bind, Except.bind]
  obtain ⟨h1, h2⟩ := C04_acceptance (K := ℝ)
    ((c.fdata.mapVals (fun _ => RawVal.arr2 DType.float [[], []])).map (fun kv => (RawKey.str kv.1, kv.2))) sRadians false
  cases hi : DataContainer.init ((c.fdata.mapVals (fun _ => RawVal.arr2 (K := ℝ) DType.float [[], []])).map
      (fun kv => (RawKey.str kv.1, kv.2))) sRadians false with
  | error e => rw [h2 e hi]
  | ok cw =>
    exfalso
    obtain ⟨_, _, h3⟩ := h1.1 ⟨cw.1, cw.2, hi⟩
    simp only [Bool.false_eq_true, if_false] at h3
    cases hd : c.fdata with
    | nil => exact hk (by unfold FDataContainer.getKeys; rw [hd]; rfl)
    | cons it r =>
      have hnd : (((c.fdata.mapVals (fun _ => RawVal.arr2 (K := ℝ) DType.float [[], []])).map
          (fun kv => (RawKey.str kv.1, kv.2))).map Prod.fst).Nodup := by
        have := (hg.wf).map (f := RawKey.str) (fun a b h => by cases h; rfl)
        simpa [Dict.mapVals, Dict.keys, Function.comp_def] using this
      rw [Dict.ofPairs_of_nodup hnd] at h3
      exact h3 (.str it.1) (.arr2 .float [[], []]) .float [] [] (by simp [hd, Dict.mapVals])
        ⟨[], rfl, rfl, by simp⟩ rfl

/-- The interpolant built from `pts` exists and passes through them. -/
def Reproduces (interp : Interp) (pts : List (ℝ × ℝ)) : Prop :=
  ∃ f, interp pts = .ok f ∧ ∀ p ∈ pts, f p.1 = p.2

theorem fourierSum_sampled {interp : Interp} {N : ℕ} (hN : 2 ≤ N) {g : ℝ → ℝ} (hi : Reproduces interp (sampled N g))
    (m : ℤ) : fourierSum interp (sampled N g) m = .ok (dft N g m) := by
  obtain ⟨f, h1, h2⟩ := hi
  refine fourierSum_ok hN h1 ?_ m
  intro j hj
  exact h2 (gridAngle N j, g (gridAngle N j)) (List.mem_map.2 ⟨j, List.mem_range.2 hj, rfl⟩)

/-- **C21.** `dat_to_fdat` of equally spaced data is the discrete Fourier transform
`c_m = (1/N) Σ_j y_j e^{-i m x_j}`. -/
theorem C21_discrete_transform {interp : Interp} {dat : DataContainer ℝ} (hd : dat.Reachable) {N : ℕ} (hN : 2 ≤ N)
    (M : ℕ) (hgrid : ∀ k pts, dat.getPc k sRadians = .ok pts → (∃ y, pts = sampled N y) ∧ Reproduces interp pts) :
    ∃ c, datToFdat interp dat M = .ok c ∧ c.Reachable ∧ c.getKeys = dat.getKeys ∧ c.getM = M ∧
      ∀ k y, dat.getPc k sRadians = .ok (sampled N y) →
        ∃ v, c.getPc k = .ok v ∧ v.length = 2 * M + 1 ∧ ∀ m, -(M : ℤ) ≤ m ∧ m ≤ M → Component v M m (dft N y m) := by
  have hwf := (reachable_normalForm hd).1
  classical
  let g : List (ℝ × ℝ) → ℤ → ℂ := fun pts m =>
    if h : ∃ y, pts = sampled N y then dft N h.choose m else 0
  have hg : ∀ it ∈ dat.data, ∀ m ∈ freqs M, fourierSum interp it.2 m = .ok (g it.2 m) := by
    rintro ⟨k, pts⟩ hit m _
    obtain ⟨hy, hr⟩ := hgrid k pts (get_of_mem hwf hit)
    simp only [g, dif_pos hy]
    have h := hy.choose_spec
    conv_lhs => rw [h]
    exact fourierSum_sampled hN (h ▸ hr) m
  have hok := datToFdat_ok hwf hg
  have hinit := FDataContainer.init_items (d := dat.data.mapVals (fun pts => (freqs M).map (g pts))) (M := M)
    .complex64 (Or.inl rfl) (by simpa [Dict.WF] using hwf) (by
      rintro ⟨k, v⟩ hit
      obtain ⟨a, _, rfl⟩ := Dict.mem_mapVals.1 hit
      simp [length_freqs])
  refine ⟨_, hok, ⟨_, M, _, [], hinit, rfl⟩, by simp [FDataContainer.getKeys, DataContainer.getKeys], rfl, ?_⟩
  · intro k y hk
    have hk' := hk
    rw [getPc_radians, Dict.get_ok_iff] at hk'
    refine ⟨(freqs M).map (g (sampled N y)), ?_, by simp [length_freqs], ?_⟩
    · show Dict.get _ k = _
      rw [Dict.get_ok_iff, Dict.get?_mapVals, hk']
      rfl
    · intro m hm
      refine ⟨hm, ?_⟩
      rw [List.getElem?_map, getElem?_freqs (by omega)]
      have hmm : (((m + M).toNat : ℕ) : ℤ) - M = m := by omega
      rw [hmm, Option.map_some]
      have h1 := hg (k, sampled N y) (Dict.mem_of_get? hk') m (mem_freqs.2 hm)
      have h2 := fourierSum_sampled hN (hgrid k _ hk).2 m
      rw [h1] at h2
      rw [Except.ok.inj h2]

/-- **C21 needs at least two points.** If the array of the first combination has a single point, `dat_to_fdat` raises:
what the interpolation raises, or `IndexError`. -/
theorem C21_single_point {interp : Interp} {dat : DataContainer ℝ} {k : Key} {p : ℝ × ℝ}
    {rest : Dict Key (List (ℝ × ℝ))} (hd : dat.getItems sRadians = .ok ((k, [p]) :: rest)) (M : ℕ) :
    datToFdat interp dat M = .error (match interp [p] with | .ok _ => .indexError | .error e => e) := by
  rw [getItems_radians] at hd
  have hd' := Except.ok.inj hd
  have hsum : ∀ m, fourierSum interp [p] m =
      .error (match interp [p] with | .ok _ => .indexError | .error e => e) := by
    intro m
    unfold fourierSum
    cases interp [p] with
    | error e => rfl
    | ok f =>
      have : pyGet (linspace2pi ([p] : List (ℝ × ℝ)).length) 1 = .error .indexError := by
        simp [pyGet, linspace2pi]
      simp only [bind, Except.bind, this]
  have hfill : (fillFreqs M (0 : ℂ) (2 * M + 1) (fun m => do
      let pts ← dat.getPc k sRadians
      fourierSum interp pts m)) = .error (match interp [p] with | .ok _ => .indexError | .error e => e) := by
    have hk : dat.getPc k sRadians = .ok [p] := by
      rw [getPc_radians, hd', Dict.get_ok_iff]; simp [Dict.get?]
    rw [hk]
    unfold fillFreqs freqs
    rw [List.range_succ_eq_map, List.map_cons, List.foldlM_cons]
    simp only [bind, Except.bind, hsum]
  have hkeys : dat.getKeys = k :: Dict.keys rest := by
    unfold DataContainer.getKeys; rw [hd']; rfl
  unfold datToFdat
  rw [hkeys]
  simp only [List.foldlM_cons, hfill]
  rfl

/-- **C21.** Sampling a Fourier series on `N ≥ 2` points and transforming back with any number of frequencies `M'`
gives at frequency `m` the sum of the symmetrized components at all frequencies congruent to `m` modulo `N`. -/
theorem C21_aliasing {c : FDataContainer} (hc : c.Reachable) {N : ℕ} (hN : 2 ≤ N) {interp : Interp}
    (hi : ∀ k v, c.getPc k = .ok v → Reproduces interp (sampled N (fun x => (series v c.getM x).re))) (M' : ℕ) :
    ∃ d c', fdatToDat c N = .ok (d, []) ∧ datToFdat interp d M' = .ok c' ∧ c'.getKeys = c.getKeys ∧ c'.getM = M' ∧
      ∀ k v, c.getPc k = .ok v → ∃ v', c'.getPc k = .ok v' ∧ v'.length = 2 * M' + 1 ∧
        ∀ m, -(M' : ℤ) ≤ m ∧ m ≤ M' → Component v' M' m
          (∑ m' ∈ (Finset.Icc (-(c.getM : ℤ)) c.getM).filter (fun m' => (N : ℤ) ∣ m' - m), symmetrized v c.getM m') := by
  have hwf := hc.good.wf
  obtain ⟨d, h1, h2, h3⟩ := C20_inverse_sampling hc (by omega : 1 ≤ N)
  have hdr : d.Reachable := by
    have := h1
    unfold fdatToDat at this
    cases hl : c.getItems.foldlM (fun (it : Dict Key (RawVal ℝ)) kv => do
        let a ← invFourier c.getM N kv.2
        return Dict.set it kv.1 a) [] with
    | error e => rw [hl] at this; cases this
    | ok it =>
      rw [hl] at this
      have h0 : DataContainer.init (it.map (fun kv => (.str kv.1, kv.2))) sRadians false = .ok (d, []) := this
      exact ⟨_, _, _, _, _, [], h0, rfl⟩
  have hgrid : ∀ k pts, d.getPc k sRadians = .ok pts → ∃ v, c.getPc k = .ok v ∧
      pts = sampled N (fun x => (series v c.getM x).re) := by
    intro k pts hk
    have hkk : k ∈ c.getKeys := by
      rw [← h2]
      rw [getPc_radians, Dict.get_ok_iff] at hk
      exact Dict.mem_keys_of_mem (Dict.mem_of_get? hk)
    obtain ⟨v, hv⟩ := Dict.mem_keys.1 hkk
    have hv' : c.getPc k = .ok v := get_of_mem hwf hv
    refine ⟨v, hv', ?_⟩
    rw [h3 k v hv'] at hk
    exact (Except.ok.inj hk).symm
  obtain ⟨c', g1, _, g2, g3, g4⟩ := C21_discrete_transform hdr hN M' (interp := interp) (by
    intro k pts hk
    obtain ⟨v, hv, rfl⟩ := hgrid k pts hk
    exact ⟨⟨_, rfl⟩, hi k v hv⟩)
  refine ⟨d, c', h1, g1, g2.trans h2, g3, ?_⟩
  intro k v hv
  obtain ⟨v', e1, e2, e3⟩ := g4 k _ (h3 k v hv)
  refine ⟨v', e1, e2, ?_⟩
  intro m hm
  have := e3 m hm
  rw [dft_series _ _ (by omega)] at this
  rw [Finset.sum_filter]
  exact this

/-- **C21.** With more than `2M` sample points the round trip returns `(c_m + conj c_{-m}) / 2` at every frequency. -/
theorem C21_round_trip {c : FDataContainer} (hc : c.Reachable) {N : ℕ} (hN2 : 2 ≤ N) (hN : 2 * c.getM < N)
    {interp : Interp}
    (hi : ∀ k v, c.getPc k = .ok v → Reproduces interp (sampled N (fun x => (series v c.getM x).re))) :
    ∃ d c', fdatToDat c N = .ok (d, []) ∧ datToFdat interp d c.getM = .ok c' ∧ c'.getKeys = c.getKeys ∧
      ∀ k v, c.getPc k = .ok v → ∃ v', c'.getPc k = .ok v' ∧ v'.length = 2 * c.getM + 1 ∧
        ∀ m z z', Component v c.getM m z → Component v c.getM (-m) z' →
          Component v' c.getM m ((z + (starRingEnd ℂ) z') / 2) := by
  obtain ⟨d, c', h1, h2, h3, _, h5⟩ := C21_aliasing hc hN2 hi c.getM
  refine ⟨d, c', h1, h2, h3, ?_⟩
  intro k v hv
  obtain ⟨v', e1, e2, e3⟩ := h5 k v hv
  refine ⟨v', e1, e2, ?_⟩
  intro m z z' hz hz'
  have := e3 m hz.1
  have hset : (Finset.Icc (-(c.getM : ℤ)) c.getM).filter (fun m' => (N : ℤ) ∣ m' - m) = {m} := by
    ext m'
    simp only [Finset.mem_filter, Finset.mem_Icc, Finset.mem_singleton]
    constructor
    · rintro ⟨⟨ha, hb⟩, hd⟩
      have := hz.1
      have hlt : |m' - m| < (N : ℤ) := by rw [abs_lt]; omega
      have := Int.eq_zero_of_abs_lt_dvd hd hlt
      omega
    · rintro rfl
      exact ⟨hz.1, by simp⟩
  rw [hset, Finset.sum_singleton] at this
  have hc1 : coeff v c.getM m = z := by
    unfold coeff
    rw [if_pos hz.1, List.getD_eq_getElem?_getD, hz.2]; rfl
  have hc2 : coeff v c.getM (-m) = z' := by
    unfold coeff
    rw [if_pos hz'.1, List.getD_eq_getElem?_getD, hz'.2]; rfl
  unfold symmetrized at this
  rw [hc1, hc2] at this
  exact this

/-- **C21.** For real signals (`c_{-m} = conj c_m`) the round trip returns the Fourier data unchanged. -/
theorem C21_real_round_trip {c : FDataContainer} (hc : c.Reachable) {N : ℕ} (hN2 : 2 ≤ N) (hN : 2 * c.getM < N)
    {interp : Interp}
    (hi : ∀ k v, c.getPc k = .ok v → Reproduces interp (sampled N (fun x => (series v c.getM x).re)))
    (hreal : ∀ k v m z z', c.getPc k = .ok v → Component v c.getM m z → Component v c.getM (-m) z' →
      z' = (starRingEnd ℂ) z) :
    ∃ d c', fdatToDat c N = .ok (d, []) ∧ datToFdat interp d c.getM = .ok c' ∧ c'.getKeys = c.getKeys ∧
      ∀ k, c'.getPc k = c.getPc k := by
  obtain ⟨d, c', h1, h2, h3, h4⟩ := C21_round_trip hc hN2 hN hi
  refine ⟨d, c', h1, h2, h3, ?_⟩
  intro k
  cases hv : c.getPc k with
  | error e =>
    have he := Dict.get_error_iff.1 hv
    obtain ⟨hk, rfl⟩ := he
    apply Dict.get_error_iff.2
    refine ⟨?_, rfl⟩
    have : k ∉ c'.getKeys := by rw [h3]; exact hk
    exact this
  | ok v =>
    obtain ⟨v', e1, e2, e3⟩ := h4 k v hv
    rw [e1]
    have hl := hc.good.len (k, v) (Dict.mem_of_get? (Dict.get_ok_iff.1 hv))
    congr 1
    apply List.ext_getElem?
    intro i
    by_cases hi : i < 2 * c.getM + 1
    · have hi' : i < 2 * c.M + 1 := hi
      have hcomp : ∀ m : ℤ, -(c.getM : ℤ) ≤ m ∧ m ≤ c.getM → ∃ z, Component v c.getM m z := by
        intro m hm
        have : (m + c.getM).toNat < v.length := by rw [hl]; show (m + c.getM).toNat < 2 * c.getM + 1; omega
        exact ⟨v[(m + c.getM).toNat], hm, List.getElem?_eq_getElem this⟩
      obtain ⟨z, hz⟩ := hcomp ((i : ℤ) - c.getM) (by omega)
      obtain ⟨z', hz'⟩ := hcomp (-((i : ℤ) - c.getM)) (by omega)
      have := e3 _ z z' hz hz'
      have hzz := hreal k v _ z z' hv hz hz'
      rw [hzz, Complex.conj_conj, ← two_mul, mul_div_cancel_left₀ _ (two_ne_zero' ℂ)] at this
      have hidx : ((i : ℤ) - c.getM + c.getM).toNat = i := by omega
      have ha := this.2
      have hb := hz.2
      rw [hidx] at ha hb
      rw [ha, hb]
    · rw [List.getElem?_eq_none (by omega), List.getElem?_eq_none (by rw [hl]; show 2 * c.getM + 1 ≤ i; omega)]

/-! ### C22 -/

theorem gridAngle_shift {N : ℕ} (hN : 1 ≤ N) (j : ℕ) (s : ℤ) :
    pmod (gridAngle N j + 2 * Real.pi * s / N) = gridAngle N ((((j : ℤ) + s) % N).toNat) := by
  have hN0 : (N : ℤ) ≠ 0 := by omega
  have hNr : (N : ℝ) ≠ 0 := by exact_mod_cast (by omega : N ≠ 0)
  have hlt : (((j : ℤ) + s) % N).toNat < N := by
    have := Int.emod_lt_of_pos ((j : ℤ) + s) (by omega : (0 : ℤ) < N)
    have := Int.emod_nonneg ((j : ℤ) + s) hN0
    omega
  refine (pmod_inTurn _).eq_of_angleEq (gridAngle_inTurn hlt) ((pmod_angleEq _).trans ?_)
  refine ⟨((j : ℤ) + s) / N, ?_⟩
  have h1 := Int.emod_add_mul_ediv ((j : ℤ) + s) N
  have h2 : (((((j : ℤ) + s) % N).toNat : ℕ) : ℝ) = (j : ℝ) + s - N * (((j : ℤ) + s) / N : ℤ) := by
    have h3 : (((((j : ℤ) + s) % N).toNat : ℕ) : ℤ) = (j : ℤ) + s - N * (((j : ℤ) + s) / N) := by
      rw [Int.toNat_of_nonneg (Int.emod_nonneg _ hN0)]; omega
    exact_mod_cast congrArg (Int.cast : ℤ → ℝ) h3
  unfold gridAngle
  rw [h2]
  show _ = _ + _ * (2 * Real.pi)
  field_simp
  ring

theorem shiftPts_sampled {N : ℕ} (hN : 1 ≤ N) (y : ℝ → ℝ) (s : ℤ) :
    shiftPts (2 * Real.pi * s / N) (sampled N y) = sampled N (fun x => y (pmod (x - 2 * Real.pi * s / N))) := by
  set a : ℝ := 2 * Real.pi * s / N with ha
  have hnf := sampled_normalForm hN y
  have hnd := shiftPts_nodup (a := a) hnf (sampled_nodup hN y)
  have hnf' := sampled_normalForm hN (fun x => y (pmod (x - a)))
  refine eq_of_perm_sorted ?_ (sortPts_sorted _) hnf'.2.2 hnd
  rw [List.perm_ext_iff_of_nodup (List.Nodup.of_map _ hnd) (List.Nodup.of_map _ (sampled_nodup hN _))]
  rintro ⟨x, z⟩
  unfold shiftPts
  rw [mem_sortPts]
  have hN0 : (N : ℤ) ≠ 0 := by omega
  have hlt : ∀ t : ℤ, (t % N).toNat < N := by
    intro t
    have := Int.emod_lt_of_pos t (by omega : (0 : ℤ) < N)
    have := Int.emod_nonneg t hN0
    omega
  constructor
  · intro hmem
    obtain ⟨q, hq, he⟩ := List.mem_map.1 hmem
    obtain ⟨j, hj, rfl⟩ := List.mem_map.1 hq
    rw [List.mem_range] at hj
    simp only [Prod.mk.injEq] at he
    obtain ⟨h3, h4⟩ := he
    simp only [sampled, List.mem_map, List.mem_range, Prod.mk.injEq]
    refine ⟨(((j : ℤ) + s) % N).toNat, hlt _, ?_, ?_⟩
    · rw [← h3, ha, gridAngle_shift hN]
    · rw [← gridAngle_shift hN, ← ha, ← h4]
      congr 1
      have : pmod (pmod (gridAngle N j + a) - a) = pmod (gridAngle N j) := by
        rw [sub_eq_add_neg, pmod_add, add_neg_cancel_right]
      rw [this, pmod_of_inTurn (gridAngle_inTurn hj)]
  · intro hmem
    simp only [sampled, List.mem_map, List.mem_range, Prod.mk.injEq] at hmem
    obtain ⟨i, hi, rfl, rfl⟩ := hmem
    have hneg : gridAngle N i - a = gridAngle N i + 2 * Real.pi * ((-s : ℤ) : ℝ) / N := by
      rw [ha]; push_cast; ring
    refine List.mem_map.2 ⟨(gridAngle N ((((i : ℤ) + -s) % N).toNat), y (gridAngle N ((((i : ℤ) + -s) % N).toNat))),
      List.mem_map.2 ⟨_, List.mem_range.2 (hlt _), rfl⟩, ?_⟩
    rw [Prod.mk.injEq]
    constructor
    · simp only
      rw [← gridAngle_shift hN, ← hneg, pmod_add, sub_add_cancel, pmod_of_inTurn (gridAngle_inTurn hi)]
    · simp only
      rw [← gridAngle_shift hN, ← hneg]

theorem dft_eq_list (N : ℕ) (f : ℝ → ℝ) (m : ℤ) :
    dft N f m = (1 / (N : ℂ)) * ((sampled N f).map (fun p => (p.2 : ℂ) * harmonic (-m) p.1)).sum := by
  unfold dft sampled
  rw [Finset.sum_range, ← List.sum_ofFn, List.ofFn_eq_map, ← List.map_coe_finRange_eq_range]
  simp only [List.map_map]
  congr 3
  funext j
  simp only [Function.comp, harmonic]
  congr 2
  push_cast
  ring

theorem harmonic_pmod (m : ℤ) (x : ℝ) : harmonic m (pmod x) = harmonic m x := by
  obtain ⟨n, hn⟩ := pmod_angleEq x
  rw [hn, harmonic_add]
  have : harmonic m (n * (2 * (HasPi.pi : ℝ))) = 1 := by
    unfold harmonic
    rw [Complex.exp_eq_one_iff]
    refine ⟨m * n, ?_⟩
    show Complex.I * (m * ((n * (2 * Real.pi) : ℝ) : ℂ)) = _
    push_cast
    ring
  rw [this, mul_one]

theorem dft_shift {N : ℕ} (hN : 1 ≤ N) (y : ℝ → ℝ) (s : ℤ) (m : ℤ) :
    dft N (fun x => y (pmod (x - 2 * Real.pi * s / N))) m = dft N y m * harmonic m (-(2 * Real.pi * s / N)) := by
  rw [dft_eq_list, dft_eq_list, ← shiftPts_sampled hN]
  set a : ℝ := 2 * Real.pi * s / N
  have hp : ((shiftPts a (sampled N y)).map (fun p => (p.2 : ℂ) * harmonic (-m) p.1)).sum =
      (((sampled N y).map (fun p => (pmod (p.1 + a), p.2))).map (fun p => (p.2 : ℂ) * harmonic (-m) p.1)).sum :=
    ((sortPts_perm _).map _).sum_eq
  rw [hp, List.map_map, mul_assoc, ← List.sum_map_mul_right]
  congr 3
  funext p
  simp only [Function.comp]
  rw [harmonic_pmod, harmonic_add]
  have : harmonic (-m) a = harmonic m (-a) := by
    unfold harmonic; congr 1; push_cast; ring
  rw [this]
  ring

/-- **C22 (with the sign the code has).** For equally spaced data and a shift `a` by whole grid steps, phase shifting
the data by `a` and transforming gives the Fourier data phase shifted by `-a`.  The two routes of the full claim, both by
`a`, disagree: `C22_directions_disagree`. -/
theorem C22_phase_shift_partial {interp : Interp} {dat : DataContainer ℝ} (hd : dat.Reachable) {N : ℕ} (hN : 2 ≤ N)
    (M : ℕ) (s : ℤ)
    (hgrid : ∀ k pts, dat.getPc k sRadians = .ok pts → ∃ y, pts = sampled N y)
    (hi : ∀ y, Reproduces interp (sampled N y)) :
    let a : ℝ := 2 * Real.pi * s / N
    ∃ c₁ c₂, datToFdat interp (DataContainer.step dat (.phaseShift a sRadians)).1 M = .ok c₁ ∧
      datToFdat interp dat M = .ok c₂ ∧
      c₁.getItems = (FDataContainer.step c₂ (.phaseShift (-a) sRadians)).1.getItems := by
  intro a
  have hwf := (reachable_normalForm hd).1
  have hsh : (DataContainer.step dat (.phaseShift a sRadians)).1 =
      { dat with data := dat.data.mapVals (shiftPts a), phaseShift := dat.phaseShift + a } := by
    rw [step_phaseShift, phaseShiftData_of_angleOf (r := a) rfl]
  have hgrid' : ∀ it ∈ dat.data, ∃ y, it.2 = sampled N y := fun it hit => hgrid it.1 it.2 (get_of_mem hwf hit)
  classical
  let g : List (ℝ × ℝ) → ℤ → ℂ := fun pts m =>
    if h : ∃ y, pts = sampled N y then dft N h.choose m else 0
  have hgs : ∀ y m, fourierSum interp (sampled N y) m = .ok (g (sampled N y) m) := by
    intro y m
    have hy : ∃ y', sampled N y = sampled N y' := ⟨y, rfl⟩
    simp only [g, dif_pos hy]
    have h := hy.choose_spec
    conv_lhs => rw [h]
    exact fourierSum_sampled hN (hi _) m
  have hgd : ∀ y m, g (sampled N y) m = dft N y m := by
    intro y m
    have h1 := hgs y m
    rw [fourierSum_sampled hN (hi y) m] at h1
    exact (Except.ok.inj h1).symm
  have h2 := datToFdat_ok (M := M) (interp := interp) hwf (g := g) (by
    intro it hit m _
    obtain ⟨y, hy⟩ := hgrid' it hit
    rw [hy]; exact hgs y m)
  have h1 := datToFdat_ok (M := M) (interp := interp) (dat := (DataContainer.step dat (.phaseShift a sRadians)).1)
    (by rw [hsh]; simpa [Dict.WF] using hwf) (g := g) (by
      rw [hsh]
      rintro ⟨k, pts⟩ hit m _
      obtain ⟨pts₀, hm, rfl⟩ := Dict.mem_mapVals.1 hit
      obtain ⟨y, hy⟩ := hgrid' _ hm
      simp only at hy
      subst hy
      rw [shiftPts_sampled (by omega)]
      exact hgs (fun x => y (pmod (x - 2 * Real.pi * s / N))) m)
  refine ⟨_, _, h1, h2, ?_⟩
  rw [FDataContainer.step_phaseShift (by simpa [Dict.WF] using hwf) (by
    rintro ⟨k, v⟩ hit
    have hit' : (k, v) ∈ dat.data.mapVals (fun pts => (freqs M).map (g pts)) := hit
    obtain ⟨b, _, rfl⟩ := Dict.mem_mapVals.1 hit'
    simp [length_freqs]), if_pos (Or.inl lower_sRadians), hsh]
  unfold FDataContainer.getItems
  simp only [Dict.mapVals_mapVals]
  apply Dict.mapVals_congr
  rintro ⟨k, pts⟩ hit
  obtain ⟨y, hy⟩ := hgrid' _ hit
  simp only at hy
  subst hy
  simp only
  rw [shiftPts_sampled (by omega)]
  unfold mulComp
  apply List.map_congr_left
  intro m hm
  obtain ⟨z, e1, e2⟩ := pyGet_n2i_ok (l := (freqs M).map (g (sampled N y))) (M := M) (by simp [length_freqs]) hm
  rw [pyGet_freqs_map _ hm] at e1
  rw [hgd, dft_shift (by omega), List.getD_eq_getElem?_getD, e2, ← Except.ok.inj e1, hgd]
  rfl

/-- An interpolant that passes through given points with distinct abscissas. -/
noncomputable def lookupInterp : Interp := fun pts => .ok (fun x => ((pts.find? (fun p => p.1 = x)).map Prod.snd).getD 0)

theorem lookupInterp_reproduces {pts : List (ℝ × ℝ)} (h : (pts.map Prod.fst).Nodup) : Reproduces lookupInterp pts := by
  refine ⟨_, rfl, ?_⟩
  intro p hp
  induction pts with
  | nil => cases hp
  | cons q pts ih =>
    rw [List.map_cons, List.nodup_cons] at h
    rcases List.mem_cons.1 hp with rfl | hp
    · simp
    · have : q.1 ≠ p.1 := fun he => h.1 (he ▸ List.mem_map.2 ⟨p, hp, rfl⟩)
      simp only [List.find?_cons, this, decide_false]
      exact ih h.2 hp

/-- One combination sampled on four points: 1 at angle 0, 0 elsewhere. -/
noncomputable def pulse : DataContainer ℝ :=
  ⟨[(kPP, sampled 4 (fun x => if x = 0 then 1 else 0))], 1, 0, some 0, false, sRadians⟩

theorem pulse_reachable : pulse.Reachable :=
  ⟨_, _, _, _, _, [], init_items (K := ℝ) (items := pulse.data) (by simp [Dict.WF, Dict.keys, pulse])
    (by intro it hit; simp only [pulse, List.mem_singleton] at hit; subst hit; exact sampled_normalForm (N := 4) (by omega) (fun x => if x = 0 then 1 else 0))
    (by intro it hit; simp only [pulse, List.mem_singleton] at hit; subst hit; exact sampled_nodup (N := 4) (by omega) (fun x => if x = 0 then 1 else 0)), rfl⟩

/-- **C22 is false as stated.** For a pulse sampled on four points and a shift of a quarter turn the two routes give
different components of frequency 1. -/
theorem C22_directions_disagree : ∃ (interp : Interp) (dat : DataContainer ℝ) (c₁ c₂ : FDataContainer),
    dat.Reachable ∧ (∀ y, Reproduces interp (sampled 4 y)) ∧
    (∀ k pts, dat.getPc k sRadians = .ok pts → ∃ y, pts = sampled 4 y) ∧
    datToFdat interp (DataContainer.step dat (.phaseShift (Real.pi / 2) sRadians)).1 1 = .ok c₁ ∧
    datToFdat interp dat 1 = .ok c₂ ∧
    c₁.getItems ≠ (FDataContainer.step c₂ (.phaseShift (Real.pi / 2) sRadians)).1.getItems := by
  have hrep : ∀ y, Reproduces lookupInterp (sampled 4 y) := fun y => lookupInterp_reproduces (sampled_nodup (by omega) y)
  have hgrid : ∀ k pts, pulse.getPc k sRadians = .ok pts → ∃ y, pts = sampled 4 y := by
    intro k pts hk
    rw [getPc_radians, Dict.get_ok_iff] at hk
    have := Dict.mem_of_get? hk
    simp only [pulse, List.mem_singleton, Prod.mk.injEq] at this
    exact ⟨_, this.2⟩
  obtain ⟨c₁, c₂, h1, h2, h3⟩ := C22_phase_shift_partial pulse_reachable (by omega : 2 ≤ 4) 1 1 hgrid hrep
  have ha : (2 * Real.pi * ((1 : ℤ) : ℝ) / ((4 : ℕ) : ℝ)) = Real.pi / 2 := by push_cast; ring
  rw [ha] at h1 h3
  refine ⟨lookupInterp, pulse, c₁, c₂, pulse_reachable, hrep, hgrid, h1, h2, ?_⟩
  rw [h3]
  obtain ⟨c, e1, e2, e3, e4, e5⟩ := C21_discrete_transform pulse_reachable (by omega : 2 ≤ 4) 1 (fun k pts hk => by
    obtain ⟨y, rfl⟩ := hgrid k pts hk
    exact ⟨⟨y, rfl⟩, hrep y⟩)
  rw [h2] at e1
  cases e1
  obtain ⟨v, f1, f2, f3⟩ := e5 kPP (fun x => if x = 0 then 1 else 0) rfl
  have hgood := e2.good
  intro heq
  rw [FDataContainer.step_phaseShift hgood.wf hgood.len, if_pos (Or.inl lower_sRadians),
    FDataContainer.step_phaseShift hgood.wf hgood.len, if_pos (Or.inl lower_sRadians)] at heq
  obtain ⟨p, hp⟩ := hgood.num
  rw [hp] at heq
  unfold FDataContainer.getItems at heq
  simp only at heq
  have hget := congrArg (fun d => Dict.get? d kPP) heq
  simp only [Dict.get?_mapVals, Dict.get_ok_iff.1 f1, Option.map_some, Option.some.injEq] at hget
  have hel := congrArg (fun l => l[2]?) hget
  have hM : c₂.M = 1 := e4
  simp only [hM] at hel
  rw [getElem?_mulComp (by omega), getElem?_mulComp (by omega)] at hel
  have h12 := (f3 1 (by omega)).2
  have hd1 : dft 4 (fun x => if x = 0 then 1 else 0) 1 = 1 / 4 := by
    unfold dft
    simp [Finset.sum_range_succ, gridAngle, Real.pi_ne_zero]
  rw [hd1] at h12
  have hv2 : v.getD 2 0 = 1 / 4 := by
    rw [List.getD_eq_getElem?_getD]
    have : ((1 : ℤ) + (1 : ℕ)).toNat = 2 := rfl
    rw [this] at h12
    rw [h12]; rfl
  have hang : ∀ t : ℝ, FDataContainer.angle t sRadians = t := fun t => by
    unfold FDataContainer.angle
    rw [if_neg (by decide)]
  rw [hv2] at hel
  simp only [Option.some.injEq] at hel
  have h11 : (((2 : ℕ) : ℤ) - (1 : ℕ)) = 1 := rfl
  rw [h11, hang, hang, ← harmonic_eq, ← harmonic_eq] at hel
  simp at hel
  have := congrArg Complex.im hel
  norm_num at this

/-- The hypotheses of the C20–C22 theorems are met by `pulse` and its transform. -/
example : ∃ c : FDataContainer, c.Reachable ∧ c.getM = 1 ∧ c.getKeys = [kPP] ∧
    ∀ k v, c.getPc k = .ok v → Reproduces lookupInterp (sampled 5 (fun x => (series v c.getM x).re)) := by
  obtain ⟨c, e1, e2, e3, e4, e5⟩ := C21_discrete_transform (interp := lookupInterp) pulse_reachable
    (by omega : 2 ≤ 4) 1 (fun k pts hk => by
      rw [getPc_radians, Dict.get_ok_iff] at hk
      have := Dict.mem_of_get? hk
      simp only [pulse, List.mem_singleton, Prod.mk.injEq] at this
      rw [this.2]
      exact ⟨⟨_, rfl⟩, lookupInterp_reproduces (sampled_nodup (by omega) _)⟩)
  exact ⟨c, e2, e4, e3, fun k v _ => lookupInterp_reproduces (sampled_nodup (by omega) _)⟩

end Shgpy
