import Verif.Proofs.Unequal
import Verif.Props.FitExample

/-!
# Measurements at unequal angles, interpolated linearly: C135
-/

set_option linter.unusedSectionVars false

namespace Shgpy
open Spec

/-! ### The interpolation -/

/-- **C135, the interpolation.**  Linear interpolation passes through the points, and is a sum of the values with weights that depend only
on the angles: what C20–C22, C83, C97, C121 and others suppose of an interpolation holds for it. -/
theorem C135_interpolation :
    (∀ pts : List (ℝ × ℝ), 2 ≤ pts.length → pts.Pairwise (fun p q => p.1 < q.1) → Reproduces linearInterp pts) ∧
    LinearInterp linearInterp := by
  refine ⟨fun pts h2 hp => ⟨_, linearInterp_ok h2 (nodup_of_increasing hp), fun p hpm => ?_⟩, ⟨fun pts qts f hfst hf => ?_, ?_⟩⟩
  · obtain ⟨i, a, b, hi, ha, hb, hl, hr⟩ := interval_spec h2 hp p.1
    rw [hi, Nat.add_sub_cancel, List.getD_eq_getElem?_getD, List.getD_eq_getElem?_getD, ha, hb]
    simp only [Option.getD_some]
    obtain ⟨j, hj, rfl⟩ := List.getElem_of_mem hpm
    obtain ⟨hi1, rfl⟩ := List.getElem?_eq_some_iff.1 ha
    obtain ⟨hi2, rfl⟩ := List.getElem?_eq_some_iff.1 hb
    have hmono := List.pairwise_iff_getElem.1 hp
    have hij : j = i ∨ j = i + 1 := by
      rcases lt_trichotomy j i with h | h | h
      · exfalso
        rcases hl with hl | hl
        · exact absurd hl (not_lt.2 (hmono j i hj hi1 h).le)
        · omega
      · exact .inl h
      · by_cases h' : j = i + 1
        · exact .inr h'
        · exfalso
          rcases hr with hr | hr
          · exact absurd hr (not_le.2 (hmono (i + 1) j hi2 hj (by omega)))
          · omega
    rcases hij with rfl | rfl
    · simp
    · have := hmono i (i + 1) hi1 hi2 (by omega)
      rw [div_mul_cancel₀ _ (by linarith)]
      ring
  · have hlen : pts.length = qts.length := by simpa using congrArg List.length hfst
    have hok : 2 ≤ pts.length ∧ (pts.map Prod.fst).Nodup := by
      unfold linearInterp at hf
      split_ifs at hf with h
      push Not at h
      exact h
    exact ⟨_, linearInterp_ok (hlen ▸ hok.1) (hfst ▸ hok.2)⟩
  · have hcount : ∀ (pts : List (ℝ × ℝ)) (x : ℝ),
        interval pts x = max 1 (min ((pts.map Prod.fst).countP (fun a => decide (a < x))) ((pts.map Prod.fst).length - 1)) := by
      intro pts x
      unfold interval
      rw [List.countP_map, List.length_map]
      rfl
    refine ⟨fun xs x i =>
      let j := max 1 (min (xs.countP (fun a => decide (a < x))) (xs.length - 1))
      (if i = j - 1 then 1 - (x - xs.getD (j - 1) 0) / (xs.getD j 0 - xs.getD (j - 1) 0) else 0) +
        (if i = j then (x - xs.getD (j - 1) 0) / (xs.getD j 0 - xs.getD (j - 1) 0) else 0), fun pts f hf x => ?_⟩
    have hok : 2 ≤ pts.length ∧ (pts.map Prod.fst).Nodup := by
      unfold linearInterp at hf
      split_ifs at hf with h
      push Not at h
      exact h
    rw [linearInterp_ok hok.1 hok.2] at hf
    cases hf
    dsimp only
    rw [← hcount]
    have hj1 : 1 ≤ interval pts x := by unfold interval; omega
    have hj2 : interval pts x < pts.length := by unfold interval; omega
    generalize interval pts x = j at hj1 hj2
    have hx : ∀ i, (pts.map Prod.fst).getD i 0 = (pts.getD i (0, 0)).1 := by
      intro i
      rw [List.getD_eq_getElem?_getD, List.getD_eq_getElem?_getD, List.getElem?_map]
      cases pts[i]? <;> rfl
    rw [hx, hx]
    have hm1 : j - 1 ∈ Finset.range pts.length := Finset.mem_range.2 (by omega)
    have hm2 : j ∈ Finset.range pts.length := Finset.mem_range.2 hj2
    constructor
    · simp only [add_mul, ite_mul, zero_mul, Finset.sum_add_distrib, Finset.sum_ite_eq', hm1, hm2, if_true]
      ring
    · simp only [Finset.sum_add_distrib, Finset.sum_ite_eq', hm1, hm2, if_true]
      ring

/-- The interpolated functions of a container. -/
theorem exists_lines {dat : DataContainer ℝ} {M : ℕ} {c : Key → ℤ → ℂ} {h δ : Key → ℝ}
    (hm : ∀ k pts, dat.getPc k sRadians = .ok pts → (∀ x, (pattern M (c k) x).im = 0) ∧ Covers (h k) pts ∧ MeasuredOn M (c k) (δ k) pts) :
    ∃ f : Key → ℝ → ℝ, ∀ k pts, dat.getPc k sRadians = .ok pts → 2 ≤ pts.length ∧ linearInterp pts = .ok (f k) ∧
      ∀ j < pts.length, ‖(f k (gridAngle pts.length j) : ℂ) - pattern M (c k) (gridAngle pts.length j)‖ ≤
        curvature M (c k) * h k ^ 2 + 3 * δ k := by
  have : ∀ k, ∃ f : ℝ → ℝ, ∀ pts, dat.getPc k sRadians = .ok pts → 2 ≤ pts.length ∧ linearInterp pts = .ok f ∧
      ∀ j < pts.length, ‖(f (gridAngle pts.length j) : ℂ) - pattern M (c k) (gridAngle pts.length j)‖ ≤
        curvature M (c k) * h k ^ 2 + 3 * δ k := by
    intro k
    cases hk : dat.getPc k sRadians with
    | error e => exact ⟨fun _ => 0, fun pts hp => by cases hp⟩
    | ok pts =>
      obtain ⟨h1, h2, h3⟩ := hm k pts hk
      obtain ⟨L, e1, e2⟩ := linearInterp_pattern h1 h2 h3
      refine ⟨L, fun pts' hp => ?_⟩
      cases hp
      exact ⟨h2.two, e1, fun j hj => e2 _ (gridAngle_mem hj).1 (gridAngle_mem hj).2⟩
  exact ⟨fun k => (this k).choose, fun k => (this k).choose_spec⟩

/-! ### Fourier data -/

/-- **C135.**  Let the points of each combination lie on a real pattern, up to the noise `δ`, at more than `2M` angles that increase by at
most `h`, and reach the ends of the turn.  Then `dat_to_fdat(dat, interp_kind='linear', M=M)` succeeds, and the root of the sum of the
squared errors of its components is at most `h² Σ m² |c_m| + 3 δ`. -/
theorem C135_fourier {dat : DataContainer ℝ} (hd : dat.Reachable) {M : ℕ} {c : Key → ℤ → ℂ} {h δ : Key → ℝ}
    (hm : ∀ k pts, dat.getPc k sRadians = .ok pts → 2 * M < pts.length ∧ (∀ x, (pattern M (c k) x).im = 0) ∧ Covers (h k) pts ∧
      MeasuredOn M (c k) (δ k) pts) :
    ∃ fdat, datToFdat linearInterp dat M = .ok fdat ∧ fdat.getKeys = dat.getKeys ∧ fdat.getM = M ∧
      ∀ k ∈ dat.getKeys, ∃ z : ℤ → ℂ, (∀ m : ℤ, -(M : ℤ) ≤ m → m ≤ M → DRepresents fdat k m (z m)) ∧
        √(∑ m ∈ Finset.Icc (-(M : ℤ)) M, ‖z m - c k m‖ ^ 2) ≤ curvature M (c k) * h k ^ 2 + 3 * δ k := by
  obtain ⟨f, hf⟩ := exists_lines (fun k pts hk => (hm k pts hk).2)
  obtain ⟨fdat, h1, _, h2, h3, h4⟩ := C89_transform (interp := linearInterp) hd M (fun k pts hk => ⟨(hf k pts hk).1, (hf k pts hk).2.1⟩)
  refine ⟨fdat, h1, h2, h3, fun k hk => ?_⟩
  obtain ⟨pts, hp⟩ : ∃ pts, dat.getPc k sRadians = .ok pts := by
    simp only [getPc_radians, Dict.get_ok_iff]
    refine Option.ne_none_iff_exists'.1 (fun hn => ?_)
    exact Dict.get?_eq_none.1 hn hk
  refine ⟨fun m => dft pts.length (f k) m, fun m ha hb => h4 k pts hp m ha hb, ?_⟩
  have hN := (hm k pts hp).1
  have hpos : 0 ≤ curvature M (c k) * h k ^ 2 + 3 * δ k :=
    (norm_nonneg _).trans ((hf k pts hp).2.2 0 (by omega))
  have hr := residual pts.length M hN (f k) (c k)
  have he := residual pts.length M hN (f k) (fun m => dft pts.length (f k) m)
  rw [Finset.sum_eq_zero (fun m _ => by simp), zero_add] at he
  have he0 : 0 ≤ gridMean pts.length (fun x => ‖(f k x : ℂ) - pattern M (fun m => dft pts.length (f k) m) x‖ ^ 2) := by
    unfold gridMean; positivity
  have hg : gridMean pts.length (fun x => ‖(f k x : ℂ) - pattern M (c k) x‖ ^ 2) ≤ (curvature M (c k) * h k ^ 2 + 3 * δ k) ^ 2 :=
    gridMean_le (by omega) (fun j hj => pow_le_pow_left₀ (norm_nonneg _) ((hf k pts hp).2.2 j hj) 2)
  refine Real.sqrt_le_iff.2 ⟨hpos, ?_⟩
  have hsym : ∑ m ∈ Finset.Icc (-(M : ℤ)) M, ‖dft pts.length (f k) m - c k m‖ ^ 2 =
      ∑ m ∈ Finset.Icc (-(M : ℤ)) M, ‖c k m - dft pts.length (f k) m‖ ^ 2 :=
    Finset.sum_congr rfl (fun m _ => by rw [norm_sub_rev])
  rw [hsym]
  linarith

/-! ### Equally spaced points, turned by any angle -/

/-- The angles of turned equally spaced points. -/
theorem turned_angles {N : ℕ} (hN : 1 ≤ N) (y : ℝ → ℝ) (a : ℝ) :
    ∃ s, 0 ≤ s ∧ s < 2 * Real.pi / N ∧ (shiftPts a (sampled N y)).map Prod.fst = (List.range N).map (fun j => s + gridAngle N j) := by
  have hN' : (0 : ℝ) < N := by exact_mod_cast hN
  have hpi := Real.pi_pos
  set w := 2 * Real.pi / N with hw
  have hw0 : 0 < w := by positivity
  have hwN : w * N = 2 * Real.pi := by rw [hw]; field_simp
  have hgrid : ∀ j : ℕ, gridAngle N j = w * j := by intro j; unfold gridAngle; rw [hw]; ring
  set q := ⌊a / w⌋ with hq
  have hq1 : (q : ℝ) * w ≤ a := by
    have := Int.floor_le (a / w)
    rwa [le_div_iff₀ hw0] at this
  have hq2 : a < (q + 1) * w := by
    have := Int.lt_floor_add_one (a / w)
    rwa [div_lt_iff₀ hw0] at this
  refine ⟨a - q * w, by linarith, by linarith, ?_⟩
  have hsort : ((List.range N).map (fun j : ℕ => a - q * w + gridAngle N j)).Pairwise (· < ·) := by
    rw [List.pairwise_map]
    refine List.pairwise_lt_range.imp (fun {i j} hij => ?_)
    rw [hgrid, hgrid]
    have : (i : ℝ) < j := by exact_mod_cast hij
    nlinarith
  have hsub : ((List.range N).map (fun j : ℕ => a - q * w + gridAngle N j)) ⊆ (shiftPts a (sampled N y)).map Prod.fst := by
    intro v hv
    obtain ⟨j', hj', rfl⟩ := List.mem_map.1 hv
    rw [List.mem_range] at hj'
    have hNz : (N : ℤ) ≠ 0 := by omega
    have hmod1 := Int.emod_nonneg ((j' : ℤ) - q) hNz
    have hmod2 := Int.emod_lt_of_pos ((j' : ℤ) - q) (by omega : (0 : ℤ) < N)
    obtain ⟨j, hj⟩ := Int.eq_ofNat_of_zero_le hmod1
    have hjN : j < N := by omega
    have hdiv := Int.emod_add_mul_ediv ((j' : ℤ) - q) N
    refine List.mem_map.2 ⟨(pmod (gridAngle N j + a), y (gridAngle N j)), ?_, ?_⟩
    · unfold shiftPts
      rw [mem_sortPts]
      refine List.mem_map.2 ⟨(gridAngle N j, y (gridAngle N j)), ?_, rfl⟩
      unfold sampled
      exact List.mem_map.2 ⟨j, List.mem_range.2 hjN, rfl⟩
    · have hin : InTurn (a - q * w + gridAngle N j') := by
        rw [hgrid]
        have h1 : (j' : ℝ) + 1 ≤ N := by exact_mod_cast hj'
        refine ⟨by nlinarith [(Nat.cast_nonneg j' : (0 : ℝ) ≤ j')], ?_⟩
        show _ < 2 * Real.pi
        nlinarith
      show pmod (gridAngle N j + a) = _
      rw [← pmod_of_inTurn hin]
      refine pmod_eq_of_angleEq ⟨-(((j' : ℤ) - q) / N), ?_⟩
      have hreal : ((j' : ℝ) - q) = j + N * (((j' : ℤ) - q) / N : ℤ) := by
        rw [hj] at hdiv
        exact_mod_cast hdiv.symm
      generalize ((j' : ℤ) - q) / (N : ℤ) = n at hreal ⊢
      rw [hgrid, hgrid]
      show _ = _ + _ * (2 * Real.pi)
      rw [← hwN]
      push_cast
      linear_combination (-w) * hreal
  have hlen : ((shiftPts a (sampled N y)).map Prod.fst).length = ((List.range N).map (fun j : ℕ => a - q * w + gridAngle N j)).length := by
    simp [shiftPts, sampled]
  have hperm := (List.subperm_of_subset (hsort.imp (fun h => h.ne)) hsub).perm_of_length_le hlen.le
  refine (List.Perm.eq_of_pairwise (le := (· ≤ ·)) (fun _ _ _ _ h1 h2 => le_antisymm h1 h2) (hsort.imp (fun h => h.le)) ?_ hperm).symm
  rw [List.pairwise_map]
  exact sortPts_sorted _

theorem turned_covers {N : ℕ} (hN : 2 ≤ N) (y : ℝ → ℝ) (a : ℝ) : Covers (2 * Real.pi / N) (shiftPts a (sampled N y)) := by
  have hN' : (0 : ℝ) < N := by exact_mod_cast (by omega : 0 < N)
  have hpi := Real.pi_pos
  obtain ⟨s, hs0, hs1, hs⟩ := turned_angles (by omega : 1 ≤ N) y a
  have hlen : (shiftPts a (sampled N y)).length = N := by simp [shiftPts, sampled]
  set w := 2 * Real.pi / N with hw
  have hw0 : 0 < w := by positivity
  have hwN : w * N = 2 * Real.pi := by rw [hw]; field_simp
  have hget : ∀ (i : ℕ) (p : ℝ × ℝ), (shiftPts a (sampled N y))[i]? = some p → p.1 = s + w * i := by
    intro i p hp
    have h1 := congrArg (fun l : List ℝ => l[i]?) hs
    have hi : i < N := by
      rw [← hlen]
      exact (List.getElem?_eq_some_iff.1 hp).1
    rw [List.getElem?_map, List.getElem?_map, hp, List.getElem?_range hi] at h1
    have h2 : p.1 = s + gridAngle N i := Option.some.inj h1
    rw [h2, hw]
    unfold gridAngle
    ring
  refine ⟨by omega, fun i p q hp hq => ?_⟩
  rw [hget i p hp, hget (i + 1) q hq]
  push_cast
  refine ⟨by linarith, by linarith, fun h0 => ?_, fun h0 => ?_⟩
  · subst h0
    push_cast
    linarith
  · have : (i : ℝ) + 2 = N := by rw [hlen] at h0; exact_mod_cast h0
    rw [← hwN, ← this]
    linarith

theorem pattern_periodic (M : ℕ) (c : ℤ → ℂ) (x : ℝ) (n : ℤ) : pattern M c (x + n * (2 * Real.pi)) = pattern M c x := by
  unfold pattern harmonic
  refine Finset.sum_congr rfl (fun m _ => ?_)
  have : Complex.I * ((m : ℂ) * ((x + n * (2 * Real.pi) : ℝ) : ℂ)) = Complex.I * (m * (x : ℂ)) + ((m * n : ℤ) : ℂ) * (2 * Real.pi * Complex.I) := by
    push_cast
    ring
  rw [this, Complex.exp_add, Complex.exp_int_mul_two_pi_mul_I, mul_one]

/-- **C135, turned data.**  Let the points of each combination lie on a real pattern, up to the noise `δ`, at `N > 2M` equally spaced angles
beginning with 0.  After `phase_shift_data(a, 'radians')` with any angle `a`, `dat_to_fdat` with linear interpolation gives the components
`c_m e^{-ima}` of the turned pattern with an error of at most `(2π/N)² Σ m² |c_m| + 3 δ`. -/
theorem C135_turned {dat : DataContainer ℝ} (hd : dat.Reachable) {M N : ℕ} (h2 : 2 ≤ N) (hN : 2 * M < N) {c : Key → ℤ → ℂ} {δ : Key → ℝ}
    (hm : ∀ k pts, dat.getPc k sRadians = .ok pts → (∀ x, (pattern M (c k) x).im = 0) ∧ (∃ y, pts = sampled N y) ∧
      MeasuredOn M (c k) (δ k) pts) (a : ℝ) :
    ∃ fdat, datToFdat linearInterp (DataContainer.step dat (.phaseShift a sRadians)).1 M = .ok fdat ∧ fdat.getKeys = dat.getKeys ∧
      fdat.getM = M ∧ ∀ k ∈ dat.getKeys, ∃ z : ℤ → ℂ, (∀ m : ℤ, -(M : ℤ) ≤ m → m ≤ M → DRepresents fdat k m (z m)) ∧
        √(∑ m ∈ Finset.Icc (-(M : ℤ)) M, ‖z m - c k m * harmonic m (-a)‖ ^ 2) ≤
          curvature M (c k) * (2 * Real.pi / N) ^ 2 + 3 * δ k := by
  have hwf := (reachable_normalForm hd).1
  have hsh : (DataContainer.step dat (.phaseShift a sRadians)).1 =
      { dat with data := dat.data.mapVals (shiftPts a), phaseShift := dat.phaseShift + a } := by
    rw [step_phaseShift, phaseShiftData_of_angleOf (r := a) rfl]
  have hd' : (DataContainer.step dat (.phaseShift a sRadians)).1.Reachable := by
    obtain ⟨iter, u, b, c₀, w, ops, h1, rfl⟩ := hd
    refine ⟨iter, u, b, c₀, w, ops ++ [.phaseShift a sRadians], h1, ?_⟩
    unfold DataContainer.run
    rw [List.foldl_append]
    rfl
  have hpat : ∀ k x, pattern M (fun m => c k m * harmonic m (-a)) x = pattern M (c k) (x - a) := by
    intro k x
    rw [sub_eq_add_neg, ← pattern_turned]
    rfl
  have hcurv : ∀ k, curvature M (fun m => c k m * harmonic m (-a)) = curvature M (c k) := by
    intro k
    unfold curvature
    refine Finset.sum_congr rfl (fun m _ => ?_)
    have hn : ‖harmonic m (-a)‖ = 1 := by
      unfold harmonic
      rw [show Complex.I * ((m : ℂ) * ((-a : ℝ) : ℂ)) = ((m * (-a) : ℝ) : ℂ) * Complex.I by push_cast; ring, Complex.norm_exp_ofReal_mul_I]
    rw [norm_mul, hn, mul_one]
  have hkeys : (DataContainer.step dat (.phaseShift a sRadians)).1.getKeys = dat.getKeys := by
    rw [hsh]
    exact Dict.keys_mapVals _ _
  have := C135_fourier hd' (M := M) (c := fun k m => c k m * harmonic m (-a)) (h := fun _ => 2 * Real.pi / N) (δ := δ) (fun k pts hk => ?_)
  · rw [hkeys] at this
    simp only [hcurv] at this
    exact this
  · rw [hsh, getPc_radians, Dict.get_ok_iff] at hk
    change Dict.get? (dat.data.mapVals (shiftPts a)) k = _ at hk
    rw [Dict.get?_mapVals] at hk
    obtain ⟨pts₀, h0, rfl⟩ := Option.map_eq_some_iff.1 hk
    obtain ⟨hr, ⟨y, rfl⟩, hme⟩ := hm k pts₀ (by rw [getPc_radians, Dict.get_ok_iff]; exact h0)
    refine ⟨by simpa [shiftPts, sampled] using hN, fun x => by rw [hpat]; exact hr _, turned_covers h2 y a, fun p hp => ?_⟩
    unfold shiftPts at hp
    obtain ⟨q, hq, rfl⟩ := List.mem_map.1 (mem_sortPts.1 hp)
    obtain ⟨n, hn⟩ : AngleEq (pmod (q.1 + a)) (q.1 + a) := pmod_angleEq _
    have e : pmod (q.1 + a) - a = q.1 + n * (2 * Real.pi) := by
      rw [hn]
      show q.1 + a + n * (2 * Real.pi) - a = _
      ring
    dsimp only
    rw [hpat, e, pattern_periodic]
    exact hme q hq

/-! ### Fits -/

section
variable (S : Sympy) (C : Compiler) {fform : FFormContainer} {F : Key → ℤ → Valuation → ℂ} {dat : DataContainer ℝ} {fdat : FDataContainer}
  {l : List Sym}

/-- **C135, fits.**  Let the points lie on the patterns of a formula for the parameters `r₀`, up to the noise `δ`, at more than `2M` angles
as in `C135_fourier`.  Then the pattern of all parameters `r` that the cost function does not find worse than `r₀` differs from the true
pattern nowhere by more than `2√(2M+1)` times the root of the sum, over the combinations, of the squares of `h² Σ m² |c_m| + 3 δ`. -/
theorem C135_fit (d : Disk) (hd : dat.Reachable) (hc : fform.Reachable S) (hF : FormulaIs fform F)
    (hk : ∀ k ∈ fform.getKeys, k ∈ dat.getKeys) {r₀ : Sym → ℝ} {h δ : Key → ℝ}
    (hm : ∀ k pts, dat.getPc k sRadians = .ok pts → 2 * fform.getM < pts.length ∧
      (∀ x, (pattern fform.getM (fun m => F k m (realVal r₀)) x).im = 0) ∧ Covers (h k) pts ∧
      MeasuredOn fform.getM (fun m => F k m (realVal r₀)) (δ k) pts)
    (hf : datToFdat linearInterp dat fform.getM = .ok fdat) (hq : ∀ k m z, DRepresents fdat k m z → MachineNumber z)
    {arguments : Option (List Sym)} (hl : ArgumentOrder S fform arguments l)
    (chunk : Bool) (hne : chunk = true → fform.getKeys ≠ []) (save : Option Key) :
    ∃ cost d', genCostFunc S C d fform fdat arguments chunk save = .ok (cost, d') ∧
      ∀ r, cost (l.map r) ≤ cost (l.map r₀) → ∀ k ∈ fform.getKeys, ∀ x,
        ‖pattern fform.getM (fun m => F k m (realVal r)) x - pattern fform.getM (fun m => F k m (realVal r₀)) x‖ ≤
          2 * √(2 * fform.getM + 1) * √((fform.getKeys.map (fun k =>
            (curvature fform.getM (fun m => F k m (realVal r₀)) * h k ^ 2 + 3 * δ k) ^ 2)).sum) := by
  obtain ⟨f, hf'⟩ := exists_lines (c := fun k m => F k m (realVal r₀)) (fun k pts hk => (hm k pts hk).2)
  have hpts : ∀ k ∈ fform.getKeys, ∃ pts, dat.getPc k sRadians = .ok pts := by
    intro k hkk
    simp only [getPc_radians, Dict.get_ok_iff]
    exact Option.ne_none_iff_exists'.1 (fun hn => Dict.get?_eq_none.1 hn (hk k hkk))
  have hN : ∃ N : Key → ℕ, ∀ k pts, dat.getPc k sRadians = .ok pts → pts.length = N k := by
    refine ⟨fun k => match dat.getPc k sRadians with | .ok pts => pts.length | .error _ => 0, fun k pts hp => ?_⟩
    dsimp only
    rw [hp]
  obtain ⟨N, hN⟩ := hN
  obtain ⟨cost, d', h1, h2⟩ := C108_cost S C (interp := linearInterp) (f := f) (N := N) d hd hc hF hk
    (fun k pts hp => ⟨(hf' k pts hp).1, (hf' k pts hp).2.1, hN k pts hp⟩)
    (fun k hkk => by
      obtain ⟨pts, hp⟩ := hpts k hkk
      rw [← hN k pts hp]
      exact (hm k pts hp).1) hf hq hl chunk hne save
  refine ⟨cost, d', h1, fun r hr k hkk x => ((h2 r r₀ hr).2 k hkk x).trans ?_⟩
  refine mul_le_mul_of_nonneg_left (Real.sqrt_le_sqrt ?_) (by positivity)
  unfold squares
  refine List.sum_le_sum (fun k hkk => ?_)
  obtain ⟨pts, hp⟩ := hpts k hkk
  rw [← hN k pts hp]
  have := (hm k pts hp).1
  exact gridMean_le (by omega) (fun j hj => pow_le_pow_left₀ (norm_nonneg _) ((hf' k pts hp).2.2 j hj) 2)

end

/-! ### The interpolation is not exact, and concrete cases -/

namespace Unequal

/-- The components of the pattern `cos x`. -/
noncomputable def cosine : ℤ → ℂ := fun m => if m = 0 then 0 else 1 / 2

theorem pattern_one (c : ℤ → ℂ) (x : ℝ) : pattern 1 c x = c (-1) * harmonic (-1) x + c 0 + c 1 * harmonic 1 x := by
  unfold pattern
  have : Finset.Icc (-((1 : ℕ) : ℤ)) (1 : ℕ) = {-1, 0, 1} := by decide
  rw [this, Finset.sum_insert (by decide), Finset.sum_insert (by decide), Finset.sum_singleton]
  have h0 : harmonic 0 x = 1 := by unfold harmonic; simp
  rw [h0]
  ring

theorem pattern_cosine (x : ℝ) : pattern 1 cosine x = (Real.cos x : ℂ) := by
  rw [pattern_one]
  unfold cosine harmonic
  rw [if_neg (by decide), if_pos rfl, if_neg (by decide), Complex.ofReal_cos, Complex.cos]
  push_cast
  rw [show Complex.I * (-1 * (x : ℂ)) = -(x : ℂ) * Complex.I by ring, show Complex.I * (1 * (x : ℂ)) = (x : ℂ) * Complex.I by ring]
  ring

/-- The cosine, measured exactly at the angles 0, 1, 3 and 5. -/
noncomputable def uneven : DataContainer ℝ :=
  ⟨[(kPP, [(0, Real.cos 0), (1, Real.cos 1), (3, Real.cos 3), (5, Real.cos 5)])], 1, 0, some 0, false, sRadians⟩

theorem uneven_reachable : uneven.Reachable := by
  have hpi := Real.pi_gt_three
  refine ⟨_, _, _, _, _, [], init_items (K := ℝ) (items := uneven.data) (by simp [Dict.WF, Dict.keys, uneven]) ?_ ?_, rfl⟩
  · intro it hit
    simp only [uneven, List.mem_singleton] at hit
    subst hit
    refine ⟨by simp, fun p hp => ?_, by simp; norm_num⟩
    simp only [List.mem_cons, List.not_mem_nil, or_false] at hp
    rcases hp with rfl | rfl | rfl | rfl <;> exact ⟨by norm_num, by show _ < 2 * Real.pi; dsimp only; linarith⟩
  · intro it hit
    simp only [uneven, List.mem_singleton] at hit
    subst hit
    simp

/-- The hypotheses of `C135_fourier` are met by four measurements of the cosine at unequal angles. -/
example : ∃ fdat, datToFdat linearInterp uneven 1 = .ok fdat ∧ ∃ z : ℤ → ℂ,
    (∀ m : ℤ, -1 ≤ m → m ≤ 1 → DRepresents fdat kPP m (z m)) ∧
    √(∑ m ∈ Finset.Icc (-1 : ℤ) 1, ‖z m - cosine m‖ ^ 2) ≤ curvature 1 cosine * 2 ^ 2 + 3 * 0 := by
  have hpi := Real.pi_lt_d2
  obtain ⟨fdat, h1, _, _, h2⟩ := C135_fourier uneven_reachable (M := 1) (c := fun _ => cosine) (h := fun _ => 2) (δ := fun _ => 0)
    (fun k pts hk => by
      rw [getPc_radians, Dict.get_ok_iff] at hk
      have := Dict.mem_of_get? hk
      simp only [uneven, List.mem_singleton, Prod.mk.injEq] at this
      obtain ⟨_, rfl⟩ := this
      refine ⟨by simp, fun x => by rw [pattern_cosine, Complex.ofReal_im], ⟨by simp, ?_⟩, ?_⟩
      · intro i p q hp hq
        have hi : i + 1 < 4 := (List.getElem?_eq_some_iff.1 hq).1
        have : i = 0 ∨ i = 1 ∨ i = 2 := by omega
        rcases this with rfl | rfl | rfl
        · cases hp; cases hq; norm_num
        · cases hp; cases hq; norm_num
        · cases hp; cases hq
          refine ⟨by norm_num, by norm_num, by norm_num, fun _ => ?_⟩
          dsimp only
          linarith
      · intro p hp
        simp only [List.mem_cons, List.not_mem_nil, or_false] at hp
        rcases hp with rfl | rfl | rfl | rfl <;> simp [pattern_cosine])
  obtain ⟨z, h3, h4⟩ := h2 kPP (by simp [uneven, DataContainer.getKeys, Dict.keys])
  exact ⟨fdat, h1, z, h3, h4⟩

/-- The cosine, measured exactly at a quarter, a half and three quarters of a turn. -/
noncomputable def quarters : DataContainer ℝ :=
  ⟨[(kPP, [(Real.pi / 2, 0), (Real.pi, -1), (3 * Real.pi / 2, 0)])], 1, 0, some 0, false, sRadians⟩

theorem quarters_reachable : quarters.Reachable := by
  have hpi := Real.pi_pos
  refine ⟨_, _, _, _, _, [], init_items (K := ℝ) (items := quarters.data) (by simp [Dict.WF, Dict.keys, quarters]) ?_ ?_, rfl⟩
  · intro it hit
    simp only [quarters, List.mem_singleton] at hit
    subst hit
    refine ⟨by simp, fun p hp => ?_, ?_⟩
    · simp only [List.mem_cons, List.not_mem_nil, or_false] at hp
      rcases hp with rfl | rfl | rfl <;> exact ⟨by dsimp only; linarith, by show _ < 2 * Real.pi; dsimp only; linarith⟩
    · simp only [List.pairwise_cons, List.mem_cons, List.not_mem_nil, or_false, forall_eq_or_imp, forall_eq]
      refine ⟨⟨?_, ?_⟩, ?_, ?_⟩ <;> first | linarith | simp
  · intro it hit
    simp only [quarters, List.mem_singleton] at hit
    subst hit
    simp only [List.map_cons, List.map_nil, List.nodup_cons, List.mem_cons, List.not_mem_nil, or_false]
    refine ⟨?_, ?_, ?_⟩
    · rintro (h | h) <;> linarith
    · intro h; linarith
    · simp

theorem quarters_measured : Covers (Real.pi / 2) [(Real.pi / 2, (0 : ℝ)), (Real.pi, -1), (3 * Real.pi / 2, 0)] ∧
    MeasuredOn 1 cosine 0 [(Real.pi / 2, 0), (Real.pi, -1), (3 * Real.pi / 2, 0)] := by
  have hpi := Real.pi_pos
  refine ⟨⟨by simp, ?_⟩, ?_⟩
  · intro i p q hp hq
    have hi : i + 1 < 3 := (List.getElem?_eq_some_iff.1 hq).1
    have : i = 0 ∨ i = 1 := by omega
    rcases this with rfl | rfl
    · cases hp; cases hq
      exact ⟨by dsimp only; linarith, by dsimp only; linarith, fun _ => by dsimp only; linarith, by simp⟩
    · cases hp; cases hq
      exact ⟨by dsimp only; linarith, by dsimp only; linarith, by simp, fun _ => by dsimp only; linarith⟩
  · intro p hp
    simp only [List.mem_cons, List.not_mem_nil, or_false] at hp
    rcases hp with rfl | rfl | rfl
    · simp [pattern_cosine]
    · simp [pattern_cosine]
    · have : Real.cos (3 * Real.pi / 2) = 0 := by
        rw [show 3 * Real.pi / 2 = Real.pi / 2 + Real.pi by ring, Real.cos_add_pi, Real.cos_pi_div_two, neg_zero]
      dsimp only
      rw [pattern_cosine, this]
      simp

/-- **C135, the error is there.**  The cosine measured exactly at a quarter, a half and three quarters of a turn gives Fourier data whose
mean is 1/9, not 0. -/
theorem C135_inexact : ∃ (dat : DataContainer ℝ) (fdat : FDataContainer), dat.Reachable ∧
    (∀ k pts, dat.getPc k sRadians = .ok pts → 2 * 1 < pts.length ∧ (∀ x, (pattern 1 cosine x).im = 0) ∧ Covers (Real.pi / 2) pts ∧
      MeasuredOn 1 cosine 0 pts) ∧
    datToFdat linearInterp dat 1 = .ok fdat ∧ DRepresents fdat kPP 0 (1 / 9) ∧ cosine 0 = 0 := by
  have hpi := Real.pi_pos
  have hpts : ∀ k pts, quarters.getPc k sRadians = .ok pts → pts = [(Real.pi / 2, 0), (Real.pi, -1), (3 * Real.pi / 2, 0)] := by
    intro k pts hk
    rw [getPc_radians, Dict.get_ok_iff] at hk
    have := Dict.mem_of_get? hk
    simp only [quarters, List.mem_singleton, Prod.mk.injEq] at this
    exact this.2
  have hcov := quarters_measured.1
  have hok := linearInterp_ok hcov.two (nodup_of_increasing hcov.pairwise)
  obtain ⟨fdat, h1, _, _, _, h2⟩ := C89_transform (interp := linearInterp) quarters_reachable 1 (f := fun _ => _)
    (fun k pts hk => by rw [hpts k pts hk]; exact ⟨by simp, hok⟩)
  refine ⟨quarters, fdat, quarters_reachable, fun k pts hk => ?_, h1, ?_, by simp [cosine]⟩
  · rw [hpts k pts hk]
    exact ⟨by simp, fun x => by rw [pattern_cosine, Complex.ofReal_im], quarters_measured⟩
  have h3 := h2 kPP _ rfl 0 (by decide) (by decide)
  convert h3 using 1
  unfold dft
  simp only [List.length_cons, List.length_nil, Finset.sum_range_succ, Finset.sum_range_zero, zero_add]
  have i0 : interval [(Real.pi / 2, (0 : ℝ)), (Real.pi, -1), (3 * Real.pi / 2, 0)] (gridAngle 3 0) = 1 := by
    have a1 : ¬ Real.pi / 2 < gridAngle 3 0 := by unfold gridAngle; push_cast; linarith
    have a2 : ¬ Real.pi < gridAngle 3 0 := by unfold gridAngle; push_cast; linarith
    have a3 : ¬ 3 * Real.pi / 2 < gridAngle 3 0 := by unfold gridAngle; push_cast; linarith
    simp [interval, a1, a2, a3]
  have i1 : interval [(Real.pi / 2, (0 : ℝ)), (Real.pi, -1), (3 * Real.pi / 2, 0)] (gridAngle 3 1) = 1 := by
    have a1 : Real.pi / 2 < gridAngle 3 1 := by unfold gridAngle; push_cast; linarith
    have a2 : ¬ Real.pi < gridAngle 3 1 := by unfold gridAngle; push_cast; linarith
    have a3 : ¬ 3 * Real.pi / 2 < gridAngle 3 1 := by unfold gridAngle; push_cast; linarith
    simp [interval, a1, a2, a3]
  have i2 : interval [(Real.pi / 2, (0 : ℝ)), (Real.pi, -1), (3 * Real.pi / 2, 0)] (gridAngle 3 2) = 2 := by
    have a1 : Real.pi / 2 < gridAngle 3 2 := by unfold gridAngle; push_cast; linarith
    have a2 : Real.pi < gridAngle 3 2 := by unfold gridAngle; push_cast; linarith
    have a3 : ¬ 3 * Real.pi / 2 < gridAngle 3 2 := by unfold gridAngle; push_cast; linarith
    simp [interval, a1, a2, a3]
  have v0 : (-1 - (0 : ℝ)) / (Real.pi - Real.pi / 2) * (gridAngle 3 0 - Real.pi / 2) + 0 = 1 := by
    unfold gridAngle; field_simp; push_cast; ring
  have v1 : (-1 - (0 : ℝ)) / (Real.pi - Real.pi / 2) * (gridAngle 3 1 - Real.pi / 2) + 0 = -1 / 3 := by
    unfold gridAngle; field_simp; push_cast; ring
  have v2 : (0 - (-1 : ℝ)) / (3 * Real.pi / 2 - Real.pi) * (gridAngle 3 2 - Real.pi) + -1 = -1 / 3 := by
    unfold gridAngle; field_simp; push_cast; ring
  simp only [i0, i1, i2, Nat.sub_self, Nat.add_one_sub_one, List.getD_cons_zero, List.getD_cons_succ, v0, v1, v2]
  push_cast
  simp
  norm_num

/-- The hypotheses of `C135_turned` are met by the cosine, measured exactly at five equally spaced angles, and any angle `a`. -/
example (a : ℝ) : ∃ dat fdat, dat.getKeys = [kPP] ∧
    datToFdat linearInterp (DataContainer.step dat (.phaseShift a sRadians)).1 1 = .ok fdat ∧ ∃ z : ℤ → ℂ,
    (∀ m : ℤ, -1 ≤ m → m ≤ 1 → DRepresents fdat kPP m (z m)) ∧
    √(∑ m ∈ Finset.Icc (-1 : ℤ) 1, ‖z m - cosine m * harmonic m (-a)‖ ^ 2) ≤ curvature 1 cosine * (2 * Real.pi / (5 : ℕ)) ^ 2 + 3 * 0 := by
  have hd : (⟨[(kPP, sampled 5 Real.cos)], 1, 0, some 0, false, sRadians⟩ : DataContainer ℝ).Reachable :=
    ⟨_, _, _, _, _, [], init_items (K := ℝ) (items := [(kPP, sampled 5 Real.cos)]) (by simp [Dict.WF, Dict.keys])
      (by intro it hit; rw [List.mem_singleton] at hit; subst hit; exact sampled_normalForm (N := 5) (by omega) Real.cos)
      (by intro it hit; rw [List.mem_singleton] at hit; subst hit; exact sampled_nodup (N := 5) (by omega) Real.cos), rfl⟩
  obtain ⟨fdat, h1, _, _, h2⟩ := C135_turned hd (M := 1) (N := 5) (by omega) (by omega) (c := fun _ => cosine) (δ := fun _ => 0)
    (fun k pts hk => by
      rw [getPc_radians, Dict.get_ok_iff] at hk
      have := Dict.mem_of_get? hk
      simp only [List.mem_singleton, Prod.mk.injEq] at this
      obtain ⟨_, rfl⟩ := this
      refine ⟨fun x => by rw [pattern_cosine, Complex.ofReal_im], ⟨_, rfl⟩, fun p hp => ?_⟩
      obtain ⟨j, _, rfl⟩ := List.mem_map.1 hp
      simp [pattern_cosine]) a
  obtain ⟨z, h3, h4⟩ := h2 kPP (by simp [DataContainer.getKeys, Dict.keys])
  exact ⟨_, fdat, rfl, h1, z, h3, h4⟩

end Unequal

namespace FitCases
open Unequal

theorem pulse_lines {L : ℝ → ℝ} (h : linearInterp (sampled 4 (fun x => if x = 0 then 1 else 0)) = .ok L) (m : ℤ) :
    dft 4 L m = 1 / 4 := by
  obtain ⟨f, h1, h2⟩ := C135_interpolation.1 (sampled 4 (fun x => if x = 0 then 1 else 0)) (by simp [sampled]) (by
    unfold sampled
    rw [List.pairwise_map]
    refine List.pairwise_lt_range.imp (fun {i j} hij => ?_)
    dsimp only
    unfold gridAngle
    have : (i : ℝ) < j := by exact_mod_cast hij
    have := Real.pi_pos
    rw [div_lt_div_iff_of_pos_right (by norm_num)]
    nlinarith)
  rw [h] at h1
  cases h1
  rw [← dft_pulse m]
  unfold dft
  congr 1
  refine Finset.sum_congr rfl (fun j hj => ?_)
  have := h2 (gridAngle 4 j, if gridAngle 4 j = 0 then 1 else 0) (by
    unfold sampled
    exact List.mem_map.2 ⟨j, List.mem_range.2 (Finset.mem_range.1 hj), rfl⟩)
  dsimp only at this
  rw [this]

/-- The hypotheses of `C135_fit` are met: the pulse, interpolated linearly, lies on the pattern of the formula `b, a, b` with `a = b = 1/4`
up to the noise 1/4. -/
example (d : Disk) : ∃ fdat cost d', datToFdat linearInterp pulse formula.getM = .ok fdat ∧
    genCostFunc Sympy.plain compiler d formula fdat none false none = .ok (cost, d') ∧
    ∀ r, cost ([symA, symB].map r) ≤ cost ([symA, symB].map quarter) → ∀ k ∈ formula.getKeys, ∀ x,
      ‖pattern formula.getM (fun m => F k m (realVal r)) x - pattern formula.getM (fun m => F k m (realVal quarter)) x‖ ≤
        2 * √(2 * formula.getM + 1) * √((formula.getKeys.map (fun k =>
          (curvature formula.getM (fun m => F k m (realVal quarter)) * (2 * Real.pi / (4 : ℕ)) ^ 2 + 3 * (1 / 4)) ^ 2)).sum) := by
  have hpts : ∀ k pts, pulse.getPc k sRadians = .ok pts → k = kPP ∧ pts = sampled 4 (fun x => if x = 0 then 1 else 0) := by
    intro k pts hk
    rw [getPc_radians, Dict.get_ok_iff] at hk
    have := Dict.mem_of_get? hk
    simpa only [pulse, List.mem_singleton, Prod.mk.injEq] using this
  have hcov : Covers (2 * Real.pi / (4 : ℕ)) (sampled 4 (fun x => if x = 0 then 1 else 0)) := by
    have hpi := Real.pi_pos
    refine ⟨by simp [sampled], fun i p q hp hq => ?_⟩
    have hget : ∀ (i : ℕ) (p : ℝ × ℝ), (sampled 4 (fun x => if x = 0 then (1 : ℝ) else 0))[i]? = some p → i < 4 ∧ p.1 = gridAngle 4 i := by
      intro i p hp
      have hi : i < 4 := by simpa [sampled] using (List.getElem?_eq_some_iff.1 hp).1
      unfold sampled at hp
      rw [List.getElem?_map, List.getElem?_range hi] at hp
      cases hp
      exact ⟨hi, rfl⟩
    obtain ⟨_, e1⟩ := hget i p hp
    obtain ⟨hi, e2⟩ := hget (i + 1) q hq
    rw [e1, e2]
    unfold gridAngle
    push_cast
    refine ⟨by linarith, by linarith, fun h0 => ?_, fun h0 => ?_⟩
    · subst h0
      push_cast
      linarith
    · have : i = 2 := by simp [sampled] at h0; omega
      subst this
      push_cast
      linarith
  have hpat : ∀ k x, pattern formula.getM (fun m => F k m (realVal quarter)) x = ((1 / 4 + 1 / 2 * Real.cos x : ℝ) : ℂ) := by
    intro k x
    have e := pattern_cosine x
    rw [pattern_one] at e
    show pattern 1 _ x = _
    rw [pattern_one]
    simp only [cosine, F, realVal, quarter] at e ⊢
    norm_num at e ⊢
    linear_combination (1 / 2) * e
  have hok := linearInterp_ok hcov.two (nodup_of_increasing hcov.pairwise)
  obtain ⟨fdat, h1, h2, h3, h4, h5⟩ := C89_transform (interp := linearInterp) pulse_reachable formula.getM (f := fun _ => _)
    (fun k pts hk => by rw [(hpts k pts hk).2]; exact ⟨by simp [sampled], hok⟩)
  have hq : ∀ k m z, DRepresents fdat k m z → MachineNumber z := by
    rintro k m z ⟨v, e1, e2⟩
    have hk : k ∈ pulse.getKeys := by
      rw [← h3]; exact Dict.mem_keys_of_mem (Dict.mem_of_get? (Dict.get_ok_iff.1 e1))
    have hk' : k = kPP := by simpa [pulse, DataContainer.getKeys, Dict.keys] using hk
    subst hk'
    rw [h4] at e2
    obtain ⟨v', e3, e4⟩ := h5 kPP _ rfl m e2.1.1 e2.1.2
    rw [e1] at e3; cases e3
    rw [h4] at e4
    have := Option.some.inj (e2.2.symm.trans e4.2)
    rw [this]
    have h4' : (sampled 4 (fun x => if x = 0 then (1 : ℝ) else 0)).length = 4 := by simp [sampled]
    rw [h4', pulse_lines hok]
    exact ⟨1 / 4, 0, by push_cast; ring⟩
  obtain ⟨cost, d', e1, e2⟩ := C135_fit Sympy.plain compiler d (r₀ := quarter) (h := fun _ => 2 * Real.pi / (4 : ℕ)) (δ := fun _ => 1 / 4)
    pulse_reachable formula_reachable formulaIs pulse_keys (fun k pts hk => by
      obtain ⟨_, rfl⟩ := hpts k pts hk
      refine ⟨by simp [sampled]; decide, fun x => by rw [hpat, Complex.ofReal_im], hcov, fun p hp => ?_⟩
      rw [hpat]
      obtain ⟨j, hj, rfl⟩ := List.mem_map.1 hp
      dsimp only
      rw [← Complex.ofReal_sub, Complex.norm_real, Real.norm_eq_abs]
      have hpi := Real.pi_pos
      have hj' : j = 0 ∨ j = 1 ∨ j = 2 ∨ j = 3 := by have := List.mem_range.1 hj; omega
      unfold gridAngle
      rcases hj' with rfl | rfl | rfl | rfl
      · rw [if_pos (by simp)]
        simp
        norm_num [abs_le]
      · rw [if_neg (by push_cast; positivity), show 2 * Real.pi * ((1 : ℕ) : ℝ) / (4 : ℕ) = Real.pi / 2 by push_cast; ring, Real.cos_pi_div_two]
        norm_num [abs_le]
      · rw [if_neg (by push_cast; positivity), show 2 * Real.pi * ((2 : ℕ) : ℝ) / (4 : ℕ) = Real.pi by push_cast; ring, Real.cos_pi]
        norm_num [abs_le]
      · rw [if_neg (by push_cast; positivity), show 2 * Real.pi * ((3 : ℕ) : ℝ) / (4 : ℕ) = Real.pi / 2 + Real.pi by push_cast; ring,
          Real.cos_add_pi, Real.cos_pi_div_two]
        norm_num [abs_le]) h1 hq (.inr ⟨rfl, free_symbols⟩) false (by simp) none
  exact ⟨fdat, cost, d', h1, e1, e2⟩

end FitCases

end Shgpy
