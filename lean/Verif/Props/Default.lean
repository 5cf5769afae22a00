import Verif.Spec.Default
import Verif.Proofs.Default
import Verif.Props.Cubic
import Verif.Props.DataDuplicates
import Verif.Props.Simulated

/-!
# Which data `dat_to_fdat` accepts with the default interpolation: C139

And what it gives for data at equally spaced angles: C137 put in the place of the interpolation of C21, C22, C83.
-/

set_option linter.unusedSectionVars false

namespace Shgpy
open Spec

/-! ### C139 -/

/-- **C139, the exact condition.**  With the default interpolation `dat_to_fdat` succeeds if and only if every combination has at least four
points and no two of its points have the same angle; otherwise it raises ValueError. -/
theorem C139_domain {dat : DataContainer ℝ} (hd : dat.Reachable) (M : ℕ) :
    ((∃ c, datToFdat cubicInterp dat M = .ok c) ↔
      ∀ k pts, dat.getPc k sRadians = .ok pts → 4 ≤ pts.length ∧ (pts.map Prod.fst).Nodup) ∧
    ∀ e, datToFdat cubicInterp dat M = .error e → e = .valueError := by
  obtain ⟨hwf, hn⟩ := reachable_normalForm hd
  have hnf : ∀ k pts, dat.getPc k sRadians = .ok pts → NormalForm pts := by
    intro k pts hk
    rw [getPc_radians, Dict.get_ok_iff] at hk
    exact hn _ (Dict.mem_of_get? hk)
  by_cases hall : ∀ k pts, dat.getPc k sRadians = .ok pts → 4 ≤ pts.length ∧ (pts.map Prod.fst).Nodup
  · have hf : ∀ k, ∃ f : ℝ → ℝ, ∀ pts, dat.getPc k sRadians = .ok pts → cubicInterp pts = .ok f := by
      intro k
      cases hk : dat.getPc k sRadians with
      | error e => exact ⟨0, fun pts h => by cases h⟩
      | ok pts =>
        obtain ⟨f, hf⟩ : ∃ f, cubicInterp pts = .ok f :=
          ⟨_, cubicInterp_ok (hall k pts hk).1 ((pairwise_lt_iff (hnf k pts hk)).2 (hall k pts hk).2)⟩
        exact ⟨f, fun pts' h => by cases h; exact hf⟩
    choose f hf using hf
    obtain ⟨c, hc, _⟩ := C89_transform hd M (interp := cubicInterp) (f := f)
      (fun k pts hk => ⟨by have := (hall k pts hk).1; omega, hf k pts hk⟩)
    refine ⟨⟨fun _ => hall, fun _ => ⟨c, hc⟩⟩, fun e he => ?_⟩
    rw [hc] at he
    cases he
  · have he : datToFdat cubicInterp dat M = .error .valueError := by
      apply datToFdat_error
      · intro k pts hk
        by_cases h : 4 ≤ pts.length ∧ pts.Pairwise (fun p q => p.1 < q.1)
        · exact .inr ⟨by omega, _, cubicInterp_ok h.1 h.2⟩
        · exact .inl (cubicInterp_raises h)
      · by_contra hc
        push Not at hc
        apply hall
        intro k pts hk
        by_contra hbad
        apply hc k pts hk
        apply cubicInterp_raises
        rw [pairwise_lt_iff (hnf k pts hk)]
        exact hbad
    refine ⟨⟨fun ⟨c, hc⟩ => ?_, fun h => absurd h hall⟩, fun e h => ?_⟩
    · rw [he] at hc; cases hc
    · rw [he] at h; cases h; rfl

/-- **C139, operations.**  No history of `scale_data`, `subtract_min`, `normalize_data`, `phase_shift_data` and `filter`, failing calls
included, changes whether `dat_to_fdat` succeeds. -/
theorem C139_operations {dat : DataContainer ℝ} (hd : dat.Reachable) (ops : List (DataContainer.Op ℝ)) (M M' : ℕ) :
    (∃ c, datToFdat cubicInterp (DataContainer.run dat ops) M = .ok c) ↔ ∃ c, datToFdat cubicInterp dat M' = .ok c := by
  have hr : ∀ (ops : List (DataContainer.Op ℝ)) {dat : DataContainer ℝ}, dat.Reachable → (DataContainer.run dat ops).Reachable := by
    intro ops
    induction ops with
    | nil => exact fun h => h
    | cons op l ih => exact fun h => ih (reachable_step h op)
  obtain ⟨hwf, hn⟩ := reachable_normalForm hd
  have hwf' := (reachable_normalForm (hr ops hd)).1
  rw [(C139_domain (hr ops hd) M).1, (C139_domain hd M').1]
  have hal := alike_run dat ops
  simp only [getPc_radians, Dict.get_ok_iff]
  constructor
  · intro h k pts hk
    obtain ⟨q, hq, h1, h2, h3⟩ := forall₂_mem_left hal (Dict.mem_of_get? hk)
    have hnf := hn _ (Dict.mem_of_get? hk)
    have := h q.1 q.2 ((Dict.get?_eq_some_iff hwf').2 hq)
    rw [h2, (h3 hnf.2.1).2] at this
    exact this
  · intro h k pts hk
    obtain ⟨p, hp, h1, h2, h3⟩ := forall₂_mem_right hal (Dict.mem_of_get? hk)
    have hnf := hn _ hp
    dsimp only at h2 h3
    rw [h2, (h3 hnf.2.1).2]
    exact h p.1 p.2 ((Dict.get?_eq_some_iff hwf).2 hp)

theorem raw_of_key {iter : List (RawKey × RawVal ℝ)} {units : Key} {c : DataContainer ℝ} {w : List Key}
    (h : DataContainer.init iter units false = .ok (c, w)) {k : Key} {pts : List (ℝ × ℝ)} (hk : c.getPc k sRadians = .ok pts) :
    ∃ v, (RawKey.str k, v) ∈ Dict.ofPairs iter := by
  rw [getPc_radians, Dict.get_ok_iff] at hk
  have h1 : RawKey.str k ∈ c.getKeys.map RawKey.str := List.mem_map.2 ⟨k, Dict.mem_keys_of_mem (Dict.mem_of_get? hk), rfl⟩
  rw [(C02_construction_preserves_points h).1, ← keys_ofPairs] at h1
  exact Dict.mem_keys.1 h1

/-- **C139, raw data.**  In terms of the arrays that `DataContainer` was given: `dat_to_fdat` succeeds if and only if at least four points of
every combination do not repeat a direction, and every point with the direction of an earlier one repeats a direction that was written within
one turn, `0 ≤ θ < 2π`. -/
theorem C139_raw {iter : List (RawKey × RawVal ℝ)} {units : Key} {c : DataContainer ℝ} {w : List Key}
    (h : DataContainer.init iter units false = .ok (c, w)) (hu : Untruncated iter units) (M : ℕ) :
    (∃ F, datToFdat cubicInterp c M = .ok F) ↔
      ∀ k v dt xs ys, (RawKey.str k, v) ∈ Dict.ofPairs iter → IsXY v dt xs ys →
        4 ≤ (survivors units xs ys).length ∧
        ∀ i j x y, i < j → xs[i]? = some x → xs[j]? = some y → AngleEq (rad units x) (rad units y) → Repeats units xs j := by
  have hc : c.Reachable := ⟨iter, units, false, c, w, [], h, rfl⟩
  rw [(C139_domain hc M).1]
  have hdt : ∀ k v dt xs ys, (RawKey.str k, v) ∈ Dict.ofPairs iter → IsXY v dt xs ys → dt = .float ∨ units = sDegrees := by
    intro k v dt xs ys hk hv
    obtain ⟨dt', xs', ys', hv', hd⟩ := hu k v hk
    obtain ⟨r, rfl, _⟩ := hv
    obtain ⟨r', he, _⟩ := hv'
    cases he
    exact hd
  have key : ∀ k v dt xs ys, (RawKey.str k, v) ∈ Dict.ofPairs iter → IsXY v dt xs ys → ∃ pts, c.getPc k sRadians = .ok pts ∧
      pts.length = (survivors units xs ys).length ∧ ((pts.map Prod.fst).Nodup ↔ ∀ i j x y, i < j → xs[i]? = some x → xs[j]? = some y →
        AngleEq (rad units x) (rad units y) → Repeats units xs j) := by
    intro k v dt xs ys hk hv
    obtain ⟨pts, h1, ⟨m, h2, h3⟩, _, h4⟩ := C03_survivors h hk hv (hdt k v dt xs ys hk hv)
    exact ⟨pts, h1, h3.length_eq.trans h2.length_eq.symm, h4⟩
  constructor
  · intro hall k v dt xs ys hk hv
    obtain ⟨pts, h1, h2, h3⟩ := key k v dt xs ys hk hv
    rw [← h2, ← h3]
    exact hall k pts h1
  · intro hall k pts hk
    obtain ⟨v, hv⟩ := raw_of_key h hk
    obtain ⟨dt, xs, ys, hx, _⟩ := hu k v hv
    obtain ⟨pts', h1, h2, h3⟩ := key k v dt xs ys hv hx
    rw [hk] at h1
    cases h1
    rw [h2, h3]
    exact hall k v dt xs ys hv hx

/-- **C139, angles within one turn.**  If every combination is measured at four or more different directions, all written as angles
`0 ≤ θ < 2π`, then `dat_to_fdat` succeeds, after any history of calls. -/
theorem C139_within_turn_partial {iter : List (RawKey × RawVal ℝ)} {units : Key} {c : DataContainer ℝ} {w : List Key}
    (h : DataContainer.init iter units false = .ok (c, w))
    (hraw : ∀ k v, (RawKey.str k, v) ∈ Dict.ofPairs iter → ∃ dt xs ys, IsXY v dt xs ys ∧ (dt = .float ∨ units = sDegrees) ∧
      (∀ x ∈ xs, InTurn (rad units x)) ∧
      ∃ l : List ℝ, l.Sublist xs ∧ 4 ≤ l.length ∧ l.Pairwise (fun x y => ¬ AngleEq (rad units x) (rad units y)))
    (ops : List (DataContainer.Op ℝ)) (M : ℕ) :
    ∃ F, datToFdat cubicInterp (DataContainer.run c ops) M = .ok F := by
  have hc : c.Reachable := ⟨iter, units, false, c, w, [], h, rfl⟩
  rw [C139_operations hc ops M M, (C139_domain hc M).1]
  intro k pts hk
  obtain ⟨v, hv⟩ := raw_of_key h hk
  obtain ⟨dt, xs, ys, hx, hd, hin, l, hl, h4, hdiff⟩ := hraw k v hv
  obtain ⟨pts', h1, h2⟩ := C03_no_duplicate_angles_partial h hv hx hd hin
  rw [hk] at h1
  cases h1
  refine ⟨h4.trans ?_, h2⟩
  obtain ⟨pts', kept, g1, g2, ⟨m, g3, g4⟩, g5, _⟩ := (C02_construction_preserves_points h).2 k v dt xs ys hv hx hd
  rw [hk] at g1
  cases g1
  have hlen : xs.length = ys.length := by obtain ⟨_, _, hl, _⟩ := hx; exact hl
  have hex : ∀ x ∈ l, ∃ p ∈ pts, AngleEq p.1 (rad units x) := by
    intro x hxl
    obtain ⟨i, hi, rfl⟩ := List.getElem_of_mem (hl.subset hxl)
    obtain ⟨q, hq, hq'⟩ := g5 (xs[i], ys[i]'(hlen ▸ hi)) (List.mem_iff_getElem.2 ⟨i, by simpa [← hlen] using hi, by simp⟩)
    obtain ⟨p, hp, hp'⟩ := forall₂_mem_left g3 hq
    exact ⟨p, g4.mem_iff.2 hp, hp'.1.trans hq'.symm⟩
  choose! g hg using hex
  have hnd : (l.map g).Nodup := by
    unfold List.Nodup
    rw [List.pairwise_map]
    refine (List.Pairwise.and_mem.1 hdiff).imp (fun {x y} hxy he => hxy.2.2 ?_)
    have := (hg y hxy.2.1).2
    rw [← he] at this
    exact (hg x hxy.1).2.symm.trans this
  have hsub : l.map g ⊆ pts := by
    intro p hp
    obtain ⟨x, hxl, rfl⟩ := List.mem_map.1 hp
    exact (hg x hxl).1
  simpa using (hnd.subperm hsub).length_le

/-- **C139 is false for angles that are not within one turn.**  If a combination has two points of the same direction, and the first point of
this direction before them is not written within one turn (a scan from -180 to 180 degrees), the container is made and `dat_to_fdat` raises
ValueError, after any history of calls. -/
theorem C139_scan_broken {iter : List (RawKey × RawVal ℝ)} {units : Key} {c : DataContainer ℝ} {w : List Key}
    (h : DataContainer.init iter units false = .ok (c, w)) {k : Key} {v : RawVal ℝ} {dt : DType} {xs ys : List ℝ}
    (hk : (RawKey.str k, v) ∈ Dict.ofPairs iter) (hv : IsXY v dt xs ys) (hdt : dt = .float ∨ units = sDegrees)
    {i j : ℕ} {x y : ℝ} (hij : i < j) (hx : xs[i]? = some x) (hy : xs[j]? = some y) (hxy : AngleEq (rad units x) (rad units y))
    (hout : ∀ i' x', i' < j → xs[i']? = some x' → AngleEq (rad units x') (rad units y) → ¬ InTurn (rad units x'))
    (ops : List (DataContainer.Op ℝ)) (M : ℕ) : datToFdat cubicInterp (DataContainer.run c ops) M = .error .valueError := by
  have hc : c.Reachable := ⟨iter, units, false, c, w, [], h, rfl⟩
  have hc' : (DataContainer.run c ops).Reachable := ⟨iter, units, false, c, w, ops, h, rfl⟩
  have hno : ¬ ∃ F, datToFdat cubicInterp (DataContainer.run c ops) M = .ok F := by
    rw [C139_operations hc ops M M, (C139_domain hc M).1]
    intro hall
    obtain ⟨pts, h1, _, _, h4⟩ := C03_survivors h hk hv hdt
    obtain ⟨i', hi', x', y', hx', hy', hin, hang⟩ := h4.1 (hall k pts h1).2 i j x y hij hx hy hxy
    rw [hy] at hy'
    cases hy'
    exact hout i' x' hi' hx' hang hin
  cases hF : datToFdat cubicInterp (DataContainer.run c ops) M with
  | ok F => exact absurd ⟨F, hF⟩ hno
  | error e => rw [(C139_domain hc' M).2 e hF]

/-! ### Data at equally spaced angles with the default interpolation -/

theorem reproduces_sampled {N : ℕ} (hN : 4 ≤ N) (y : ℝ → ℝ) : Reproduces cubicInterp (sampled N y) := by
  refine C137_interpolation.1 _ (by simpa [sampled] using hN) ?_
  rw [← List.pairwise_map (f := Prod.fst) (R := (· < ·)), sampled_fst]
  exact gridAngle_sorted (by omega)

/-- **C137, equally spaced angles.**  With the default interpolation and at least four equally spaced angles, `dat_to_fdat` is the discrete
Fourier transform of the values. -/
theorem C137_grid {dat : DataContainer ℝ} (hd : dat.Reachable) {N : ℕ} (hN : 4 ≤ N) (M : ℕ)
    (hgrid : ∀ k pts, dat.getPc k sRadians = .ok pts → ∃ y, pts = sampled N y) :
    ∃ c, datToFdat cubicInterp dat M = .ok c ∧ c.Reachable ∧ c.getKeys = dat.getKeys ∧ c.getM = M ∧
      ∀ k y, dat.getPc k sRadians = .ok (sampled N y) →
        ∃ v, c.getPc k = .ok v ∧ v.length = 2 * M + 1 ∧ ∀ m, -(M : ℤ) ≤ m ∧ m ≤ M → Component v M m (dft N y m) := by
  refine C21_discrete_transform hd (by omega) M (fun k pts hk => ?_)
  obtain ⟨y, rfl⟩ := hgrid k pts hk
  exact ⟨⟨y, rfl⟩, reproduces_sampled hN y⟩

/-- **C137, round trip.**  With the default interpolation, Fourier data of a real function that are sampled at more than `2M` angles, at least
four, and transformed back are unchanged. -/
theorem C137_round_trip {c : FDataContainer} (hc : c.Reachable) {N : ℕ} (hN4 : 4 ≤ N) (hN : 2 * c.getM < N)
    (hreal : ∀ k v m z z', c.getPc k = .ok v → Component v c.getM m z → Component v c.getM (-m) z' → z' = (starRingEnd ℂ) z) :
    ∃ d c', fdatToDat c N = .ok (d, []) ∧ datToFdat cubicInterp d c.getM = .ok c' ∧ c'.getKeys = c.getKeys ∧
      ∀ k, c'.getPc k = c.getPc k :=
  C21_real_round_trip hc (by omega) hN (fun _ _ _ => reproduces_sampled hN4 _) hreal

/-- **C137, phase shifts by multiples of the spacing.**  With the default interpolation, turning the data by a multiple of the spacing and
transforming is transforming and turning the Fourier data by the opposite angle. -/
theorem C137_shift {dat : DataContainer ℝ} (hd : dat.Reachable) {N : ℕ} (hN : 4 ≤ N) (M : ℕ) (s : ℤ)
    (hgrid : ∀ k pts, dat.getPc k sRadians = .ok pts → ∃ y, pts = sampled N y) :
    let a : ℝ := 2 * Real.pi * s / N
    ∃ c₁ c₂, datToFdat cubicInterp (DataContainer.step dat (.phaseShift a sRadians)).1 M = .ok c₁ ∧
      datToFdat cubicInterp dat M = .ok c₂ ∧
      c₁.getItems = (FDataContainer.step c₂ (.phaseShift (-a) sRadians)).1.getItems :=
  C22_phase_shift_partial hd (by omega) M s hgrid (fun y => reproduces_sampled hN y)

/-- **C137, simulated data.**  Data simulated with `fform_to_dat(fform, subs, N)` for `N ≥ 33` and transformed with `dat_to_fdat(dat)`, both with
default arguments, are fitted exactly by the parameters of the simulation. -/
theorem C137_simulated (S : Sympy) (C : Compiler) {fform : FFormContainer} {F : Key → ℤ → Valuation → ℂ} {subs : Dict Sym Expr}
    {r : Sym → ℝ} (d : Disk) (hc : fform.Reachable S) (hn : Symbolic fform) (hM : fform.getM = 16) (hF : FormulaIs fform F)
    (hv : Values fform subs r)
    (hq : ∀ k ∈ fform.getKeys, ∀ m : ℤ, -(fform.getM : ℤ) ≤ m → m ≤ fform.getM → MachineNumber (F k m (realVal r)))
    (hreal : ∀ k ∈ fform.getKeys, ∀ m : ℤ, -(fform.getM : ℤ) ≤ m → m ≤ fform.getM →
      F k (-m) (realVal r) = (starRingEnd ℂ) (F k m (realVal r)))
    {N : ℕ} (hN : 33 ≤ N) {arguments : Option (List Sym)} {l : List Sym} (hl : ArgumentOrder S fform arguments l)
    (chunk : Bool) (hne : chunk = true → fform.getKeys ≠ []) (save : Option Key) :
    ∃ dat fdat f d', fformToDat S fform subs N = .ok (dat, []) ∧ datToFdat cubicInterp dat 16 = .ok fdat ∧
      genCostFunc S C d fform fdat arguments chunk save = .ok (f, d') ∧
      f (l.map r) = 0 ∧
      ∀ r', 0 ≤ f (l.map r') ∧
        ∀ subs', Values fform subs' r' → (f (l.map r') = 0 ↔ fformToFdat S fform subs' = fformToFdat S fform subs) := by
  refine C83_sampled S C d hc hn hM hF hv hq hreal hN (fun dat w hdat k pts hk => ?_) hl chunk hne save
  obtain ⟨c, h1, hcr, -⟩ := C29_values S hc hn hM hv.numeric hv.covers
  unfold fformToDat at hdat
  rw [h1] at hdat
  obtain ⟨d', g1, g0, g2⟩ := C20_inverse_sampling hcr (N := N) (by omega)
  have hdat' : fdatToDat c N = .ok (dat, w) := hdat
  rw [g1] at hdat'
  cases hdat'
  have hkk : k ∈ c.getKeys := by
    rw [← g0]
    rw [getPc_radians, Dict.get_ok_iff] at hk
    exact Dict.mem_keys_of_mem (Dict.mem_of_get? hk)
  obtain ⟨v, hv'⟩ := Dict.mem_keys.1 hkk
  have hget : c.getPc k = .ok v := Dict.get_ok_iff.2 ((Dict.get?_eq_some_iff hcr.good.wf).2 hv')
  rw [g2 k v hget] at hk
  cases hk
  exact reproduces_sampled (by omega) _

/-! ### Concrete cases -/

/-- A scan from -180 to 180 degrees meets the hypotheses of `C139_scan_broken`: the container is made without a warning and `dat_to_fdat`
raises. -/
example : ∃ c w, DataContainer.init [(RawKey.str kPP, RawVal.arr2 .float [[-180, -90, 0, 90, 180], [(1 : ℝ), 2, 3, 2, 1]])] sDegrees false =
      .ok (c, w) ∧ kPP ∉ w ∧ ∀ M, datToFdat cubicInterp c M = .error .valueError := by
  set iter : List (RawKey × RawVal ℝ) := [(RawKey.str kPP, RawVal.arr2 .float [[-180, -90, 0, 90, 180], [(1 : ℝ), 2, 3, 2, 1]])]
  have hxy : IsXY (RawVal.arr2 .float [[-180, -90, 0, 90, 180], [(1 : ℝ), 2, 3, 2, 1]]) .float [-180, -90, 0, 90, 180] [1, 2, 3, 2, 1] :=
    ⟨[], rfl, rfl, by simp⟩
  have hof : Dict.ofPairs iter = iter := Dict.ofPairs_of_nodup (by simp [iter])
  have hpi : (HasPi.pi : ℝ) = Real.pi := rfl
  have hrad : ∀ x : ℝ, rad sDegrees x = x * (Real.pi / 180) := fun x => by unfold rad; rw [if_pos rfl, hpi]
  have hp := Real.pi_pos
  obtain ⟨c, w, h⟩ := (C04_acceptance iter sDegrees false).1.2 (by
    rw [hof]
    refine ⟨.inr rfl, ?_, ?_⟩
    · intro k v hk
      simp only [iter, List.mem_singleton, Prod.mk.injEq] at hk
      obtain ⟨rfl, rfl⟩ := hk
      exact ⟨⟨kPP, rfl⟩, _, _, _, hxy⟩
    · rw [if_neg (by simp)]
      intro k v dt xs ys hk hv
      simp only [iter, List.mem_singleton, Prod.mk.injEq] at hk
      obtain ⟨rfl, rfl⟩ := hk
      obtain ⟨r, he, _⟩ := hv
      cases he
      simp)
  have hk : (RawKey.str kPP, RawVal.arr2 .float [[-180, -90, 0, 90, 180], [(1 : ℝ), 2, 3, 2, 1]]) ∈ Dict.ofPairs iter := by
    rw [hof]; simp [iter]
  have hint : ∀ x y : ℝ, AngleEq (rad sDegrees x) (rad sDegrees y) → ∃ n : ℤ, x = y + 360 * n := by
    rintro x y ⟨n, hn⟩
    refine ⟨n, ?_⟩
    rw [hrad, hrad, hpi] at hn
    have h1 : (x - y - 360 * n) * Real.pi = 0 := by linarith
    rcases mul_eq_zero.1 h1 with h2 | h2
    · linarith
    · exact absurd h2 hp.ne'
  have hlook : ∀ (i : ℕ) (x : ℝ), ([-180, -90, 0, 90, 180] : List ℝ)[i]? = some x → ∃ z : ℤ, i < 5 ∧ z = 90 * (i : ℤ) - 180 ∧ x = z := by
    intro i x hx
    match i, hx with
    | 0, hx => cases hx; exact ⟨-180, by norm_num, by norm_num, by norm_num⟩
    | 1, hx => cases hx; exact ⟨-90, by norm_num, by norm_num, by norm_num⟩
    | 2, hx => cases hx; exact ⟨0, by norm_num, by norm_num, by norm_num⟩
    | 3, hx => cases hx; exact ⟨90, by norm_num, by norm_num, by norm_num⟩
    | 4, hx => cases hx; exact ⟨180, by norm_num, by norm_num, by norm_num⟩
    | i + 5, hx => exact absurd hx (by simp)
  have hsame : ∀ (i j : ℕ) (x y : ℝ), i < j → ([-180, -90, 0, 90, 180] : List ℝ)[i]? = some x → ([-180, -90, 0, 90, 180] : List ℝ)[j]? = some y →
      AngleEq (rad sDegrees x) (rad sDegrees y) → x = -180 := by
    intro i j x y hij hx hy he
    obtain ⟨z, hi, hz, hzx⟩ := hlook i x hx
    obtain ⟨z', hj, hz', hzy⟩ := hlook j y hy
    obtain ⟨n, hn⟩ := hint x y he
    rw [hzx, hzy] at hn
    have hn' : z = z' + 360 * n := by exact_mod_cast hn
    rw [hzx]
    have : z = -180 := by omega
    rw [this]
    norm_num
  have hnot : ¬ InTurn (rad sDegrees (-180 : ℝ)) := by
    rintro ⟨h1, _⟩
    rw [hrad] at h1
    nlinarith
  refine ⟨c, w, h, fun hkw => ?_, fun M => ?_⟩
  · obtain ⟨pts, _, _, h3, _⟩ := C03_survivors h hk hxy (.inl rfl)
    obtain ⟨j, i, hij, x, y, hx, hy, hin, he⟩ := h3.1 hkw
    rw [hsame i j x y hij hx hy he] at hin
    exact hnot hin
  · refine C139_scan_broken h hk hxy (.inl rfl) (i := 0) (j := 4) (x := -180) (y := 180) (by omega) rfl rfl ?_ ?_ [] M
    · exact ⟨-1, by rw [hrad, hrad, hpi]; push_cast; ring⟩
    · intro i' x' hi' hx' he hin
      rw [hsame i' 4 x' 180 hi' hx' rfl he] at hin
      exact hnot hin

/-- Four directions meet the hypotheses of `C139_within_turn_partial`. -/
theorem default_four_points : ∃ c w, DataContainer.init [(RawKey.str kPP, RawVal.arr2 .float [[270, 0, 90, 180], [(1 : ℝ), 2, 3, 2]])] sDegrees false =
      .ok (c, w) ∧ ∀ ops M, ∃ F, datToFdat cubicInterp (DataContainer.run c ops) M = .ok F := by
  set iter : List (RawKey × RawVal ℝ) := [(RawKey.str kPP, RawVal.arr2 .float [[270, 0, 90, 180], [(1 : ℝ), 2, 3, 2]])]
  have hxy : IsXY (RawVal.arr2 .float [[270, 0, 90, 180], [(1 : ℝ), 2, 3, 2]]) .float [270, 0, 90, 180] [1, 2, 3, 2] :=
    ⟨[], rfl, rfl, by simp⟩
  have hof : Dict.ofPairs iter = iter := Dict.ofPairs_of_nodup (by simp [iter])
  have hpi : (HasPi.pi : ℝ) = Real.pi := rfl
  have hrad : ∀ x : ℝ, rad sDegrees x = x * (Real.pi / 180) := fun x => by unfold rad; rw [if_pos rfl, hpi]
  have hp := Real.pi_pos
  have hin : ∀ x ∈ ([270, 0, 90, 180] : List ℝ), InTurn (rad sDegrees x) := by
    intro x hx
    simp only [List.mem_cons, List.not_mem_nil, or_false] at hx
    unfold InTurn
    rw [hrad, hpi]
    rcases hx with rfl | rfl | rfl | rfl <;> constructor <;> linarith
  obtain ⟨c, w, h⟩ := (C04_acceptance iter sDegrees false).1.2 (by
    rw [hof]
    refine ⟨.inr rfl, ?_, ?_⟩
    · intro k v hk
      simp only [iter, List.mem_singleton, Prod.mk.injEq] at hk
      obtain ⟨rfl, rfl⟩ := hk
      exact ⟨⟨kPP, rfl⟩, _, _, _, hxy⟩
    · rw [if_neg (by simp)]
      intro k v dt xs ys hk hv
      simp only [iter, List.mem_singleton, Prod.mk.injEq] at hk
      obtain ⟨rfl, rfl⟩ := hk
      obtain ⟨r, he, _⟩ := hv
      cases he
      simp)
  refine ⟨c, w, h, C139_within_turn_partial h (fun k v hk => ?_)⟩
  rw [hof] at hk
  simp only [iter, List.mem_singleton, Prod.mk.injEq] at hk
  obtain ⟨_, rfl⟩ := hk
  refine ⟨_, _, _, hxy, .inl rfl, hin, [270, 0, 90, 180], List.Sublist.refl _, le_rfl, ?_⟩
  have hne : ([270, 0, 90, 180] : List ℝ).Pairwise (· ≠ ·) := by norm_num
  refine (List.Pairwise.and_mem.1 hne).imp (fun {x y} hxy he => hxy.2.2 ?_)
  have := (hin x hxy.1).eq_of_angleEq (hin y hxy.2.1) he
  rw [hrad, hrad] at this
  exact mul_right_cancel₀ (by positivity) this

end Shgpy
