import Verif.Proofs.StepInterp

/-!
# The interpolations that return measured values: C142
-/

set_option linter.unusedSectionVars false

namespace Shgpy
open Spec

/-! ### The interpolation -/

/-- **C142, the values.**  For angles in order, at every angle for which there is a nearest measured point (a last one not behind it, a first one
not before it) the interpolation returns the value of such a point.  It raises only for empty data and when there is no such point for one of
the equally spaced angles. -/
theorem C142_values (kind : StepKind) {pts : List (ℝ × ℝ)} (hs : pts.Pairwise (fun p q => p.1 ≤ q.1)) :
    (∀ f, stepInterp kind pts = .ok f → ∀ x, (∃ p, Chosen kind pts x p) → ∃ p, Chosen kind pts x p ∧ f x = p.2) ∧
    ((∃ f, stepInterp kind pts = .ok f) ↔ pts ≠ [] ∧ ∀ j < pts.length, ∃ p, Chosen kind pts (gridAngle pts.length j) p) := by
  have hok : ∀ f, stepInterp kind pts = .ok f → pts ≠ [] ∧ ¬ kind.Undefined (pts.map Prod.fst) := by
    intro f hf
    unfold stepInterp at hf
    split_ifs at hf with h
    tauto
  refine ⟨fun f hf x hx => ?_, fun ⟨f, hf⟩ => ?_, fun ⟨hne, h⟩ => ?_⟩
  · obtain ⟨hne, hu⟩ := hok f hf
    rw [stepInterp_ok hne hu] at hf
    cases hf
    exact ⟨_, index_chosen hne hs kind hx, rfl⟩
  · obtain ⟨hne, hu⟩ := hok f hf
    have hpos := List.length_pos_iff.2 hne
    have hN : (0 : ℝ) < pts.length := by exact_mod_cast hpos
    have hpi := Real.pi_pos
    have hget : ∀ i (hi : i < pts.length), (pts.map Prod.fst).getD i 0 = pts[i].1 := by
      intro i hi
      rw [List.getD_eq_getElem?_getD, List.getElem?_map, List.getElem?_eq_getElem hi]
      rfl
    refine ⟨hne, fun j hj => exists_chosen ?_⟩
    cases kind with
    | nearest => exact ⟨pts[0], List.getElem_mem _, trivial⟩
    | previous =>
      unfold StepKind.Undefined at hu
      dsimp only at hu
      rw [hget 0 hpos, not_lt] at hu
      exact ⟨pts[0], List.getElem_mem _, hu.trans (gridAngle_mem hj).1⟩
    | next =>
      unfold StepKind.Undefined at hu
      dsimp only at hu
      rw [List.length_map, hget (pts.length - 1) (by omega), not_lt] at hu
      refine ⟨pts[pts.length - 1], List.getElem_mem _, le_trans ?_ hu⟩
      unfold gridAngle
      have : (j : ℝ) ≤ ((pts.length - 1 : ℕ) : ℝ) := by exact_mod_cast (by omega : j ≤ pts.length - 1)
      gcongr
  · refine ⟨_, stepInterp_ok hne ?_⟩
    have hw : ∀ j < pts.length, ∃ p, Chosen kind pts (gridAngle pts.length j) p := h
    have : Within kind (∑ j ∈ Finset.range pts.length, (pts.map (fun p => |gridAngle pts.length j - p.1|)).sum) pts := by
      have hle : ∀ j < pts.length, ∀ p ∈ pts, |gridAngle pts.length j - p.1| ≤
          ∑ j ∈ Finset.range pts.length, (pts.map (fun p => |gridAngle pts.length j - p.1|)).sum := by
        intro j hj p hp
        have h1 : |gridAngle pts.length j - p.1| ≤ (pts.map (fun p => |gridAngle pts.length j - p.1|)).sum :=
          List.single_le_sum (by
            intro y hy
            obtain ⟨q, _, rfl⟩ := List.mem_map.1 hy
            exact abs_nonneg _) _ (List.mem_map.2 ⟨p, hp, rfl⟩)
        refine h1.trans (Finset.single_le_sum (f := fun j => (pts.map (fun p => |gridAngle pts.length j - p.1|)).sum)
          (fun i _ => List.sum_nonneg (fun y hy => ?_)) (Finset.mem_range.2 hj))
        obtain ⟨q, _, rfl⟩ := List.mem_map.1 hy
        exact abs_nonneg _
      cases kind with
      | nearest => exact fun j hj => by obtain ⟨p, hp, _⟩ := h j hj; exact ⟨p, hp, hle j hj p hp⟩
      | previous =>
        intro j hj
        obtain ⟨p, hp, h1, _⟩ := h j hj
        have := (le_abs_self _).trans (hle j hj p hp)
        exact ⟨p, hp, h1, by linarith⟩
      | next =>
        intro j hj
        obtain ⟨p, hp, h1, _⟩ := h j hj
        have := (neg_le_abs _).trans (hle j hj p hp)
        exact ⟨p, hp, h1, by linarith⟩
    exact this.defined hne hs

/-- **C142, the interpolation.**  For different angles it passes through the points, and it is a sum of the values with weights that depend only
on the angles: what C20–C22, C83, C97, C121 and others suppose of an interpolation holds for it. -/
theorem C142_interpolation (kind : StepKind) :
    (∀ pts : List (ℝ × ℝ), pts.Pairwise (fun p q => p.1 < q.1) → (∃ f, stepInterp kind pts = .ok f) → Reproduces (stepInterp kind) pts) ∧
    LinearInterp (stepInterp kind) := by
  have hok : ∀ pts f, stepInterp kind pts = .ok f → pts ≠ [] ∧ ¬ kind.Undefined (pts.map Prod.fst) := by
    intro pts f hf
    unfold stepInterp at hf
    split_ifs at hf with h
    tauto
  refine ⟨fun pts hp ⟨f, hf⟩ => ⟨f, hf, fun p hpm => ?_⟩, ⟨fun pts qts f hfst hf => ?_, ?_⟩⟩
  · have hinj : ∀ q ∈ pts, q.1 = p.1 → q = p := by
      intro q hq e
      obtain ⟨i, hi, rfl⟩ := List.getElem_of_mem hq
      obtain ⟨j, hj, rfl⟩ := List.getElem_of_mem hpm
      have hmono := List.pairwise_iff_getElem.1 hp
      rcases lt_trichotomy i j with h | h | h
      · exact absurd e (hmono i j hi hj h).ne
      · subst h; rfl
      · exact absurd e (hmono j i hj hi h).ne'
    have hcp : Chosen kind pts p.1 p := by
      cases kind with
      | nearest => exact ⟨hpm, fun q _ => by simp⟩
      | previous => exact ⟨hpm, le_rfl, fun q _ h => h⟩
      | next => exact ⟨hpm, le_rfl, fun q _ h => h⟩
    obtain ⟨q, hq, hv⟩ := (C142_values kind (hp.imp (fun h => h.le))).1 f hf p.1 ⟨p, hcp⟩
    rw [hv]
    have : q = p := by
      cases kind with
      | nearest =>
        have := hq.2 p hpm
        simp only [sub_self, abs_zero] at this
        have h0 := abs_eq_zero.1 (le_antisymm this (abs_nonneg _))
        exact hinj q hq.1 (by linarith)
      | previous => exact hinj q hq.1 (le_antisymm hq.2.1 (hq.2.2 p hpm le_rfl))
      | next => exact hinj q hq.1 (le_antisymm (hq.2.2 p hpm le_rfl) hq.2.1)
    rw [this]
  · obtain ⟨hne, hu⟩ := hok pts f hf
    rw [hfst] at hu
    refine ⟨_, stepInterp_ok (fun h0 => hne ?_) hu⟩
    rw [h0] at hfst
    simpa using hfst
  · refine ⟨fun xs x i => if i = kind.index xs x then 1 else 0, fun pts f hf x => ?_⟩
    obtain ⟨hne, hu⟩ := hok pts f hf
    rw [stepInterp_ok hne hu] at hf
    cases hf
    have hlt := index_lt (xs := pts.map Prod.fst) (by simpa using hne) kind x
    rw [List.length_map] at hlt
    have hm : kind.index (pts.map Prod.fst) x ∈ Finset.range pts.length := Finset.mem_range.2 hlt
    constructor
    · simp only [ite_mul, one_mul, zero_mul, Finset.sum_ite_eq', hm, if_true]
    · simp only [Finset.sum_ite_eq', hm, if_true]

/-! ### Fourier data -/

/-- **C142, Fourier data.**  Let the points of each combination lie, up to the noise `δ`, on a pattern with the components `c`, at more than `2M`
angles, such that each of the equally spaced angles has a measured angle within `d` (at or before it for 'previous', at or behind it for
'next').  Then `dat_to_fdat` with this interpolation succeeds, and its components differ from those of the pattern by no more than
`d Σ |m| |c_m| + δ` in the root of the sum of the squares. -/
theorem C142_fourier (kind : StepKind) {dat : DataContainer ℝ} (hd : dat.Reachable) {M : ℕ} {c : Key → ℤ → ℂ} {d δ : Key → ℝ}
    (hm : ∀ k pts, dat.getPc k sRadians = .ok pts → 2 * M < pts.length ∧ 2 ≤ pts.length ∧ Within kind (d k) pts ∧
      MeasuredOn M (c k) (δ k) pts) :
    ∃ fdat, datToFdat (stepInterp kind) dat M = .ok fdat ∧ fdat.getKeys = dat.getKeys ∧ fdat.getM = M ∧
      ∀ k ∈ dat.getKeys, ∃ z : ℤ → ℂ, (∀ m : ℤ, -(M : ℤ) ≤ m → m ≤ M → DRepresents fdat k m (z m)) ∧
        √(∑ m ∈ Finset.Icc (-(M : ℤ)) M, ‖z m - c k m‖ ^ 2) ≤ steepness M (c k) * d k + δ k := by
  refine fourier_of_close hd (fun k pts hk => ?_)
  obtain ⟨h1, h2, h3, h4⟩ := hm k pts hk
  rw [getPc_radians, Dict.get_ok_iff] at hk
  have hn := (reachable_normalForm hd).2 _ (Dict.mem_of_get? hk)
  exact ⟨h1, h2, stepInterp_pattern (List.ne_nil_of_length_pos (by omega)) hn.2.2 h3 h4⟩

section
variable (S : Sympy) (C : Compiler) {fform : FFormContainer} {F : Key → ℤ → Valuation → ℂ} {dat : DataContainer ℝ} {fdat : FDataContainer}
  {l : List Sym}

/-- **C142, fits.**  Let the points lie in this way on the patterns of a formula for the parameters `r₀`.  Then the pattern of all parameters `r`
that the cost function does not find worse than `r₀` differs from the true pattern nowhere by more than `2√(2M+1)` times the root of the sum,
over the combinations, of the squares of `d Σ |m| |c_m| + δ`. -/
theorem C142_fit (kind : StepKind) (d : Disk) (hd : dat.Reachable) (hc : fform.Reachable S) (hF : FormulaIs fform F)
    (hk : ∀ k ∈ fform.getKeys, k ∈ dat.getKeys) {r₀ : Sym → ℝ} {w δ : Key → ℝ}
    (hm : ∀ k pts, dat.getPc k sRadians = .ok pts → 2 * fform.getM < pts.length ∧ 2 ≤ pts.length ∧ Within kind (w k) pts ∧
      MeasuredOn fform.getM (fun m => F k m (realVal r₀)) (δ k) pts)
    (hf : datToFdat (stepInterp kind) dat fform.getM = .ok fdat) (hq : ∀ k m z, DRepresents fdat k m z → MachineNumber z)
    {arguments : Option (List Sym)} (hl : ArgumentOrder S fform arguments l)
    (chunk : Bool) (hne : chunk = true → fform.getKeys ≠ []) (save : Option Key) :
    ∃ cost d', genCostFunc S C d fform fdat arguments chunk save = .ok (cost, d') ∧
      ∀ r, cost (l.map r) ≤ cost (l.map r₀) → ∀ k ∈ fform.getKeys, ∀ x,
        ‖pattern fform.getM (fun m => F k m (realVal r)) x - pattern fform.getM (fun m => F k m (realVal r₀)) x‖ ≤
          2 * √(2 * fform.getM + 1) * √((fform.getKeys.map (fun k =>
            (steepness fform.getM (fun m => F k m (realVal r₀)) * w k + δ k) ^ 2)).sum) := by
  refine fit_of_close S C d hd hc hF hk (r₀ := r₀)
    (b := fun k => steepness fform.getM (fun m => F k m (realVal r₀)) * w k + δ k) (fun k pts hk => ?_) hf hq hl chunk hne save
  obtain ⟨h1, h2, h3, h4⟩ := hm k pts hk
  rw [getPc_radians, Dict.get_ok_iff] at hk
  have hn := (reachable_normalForm hd).2 _ (Dict.mem_of_get? hk)
  exact ⟨h1, h2, stepInterp_pattern (List.ne_nil_of_length_pos (by omega)) hn.2.2 h3 h4⟩

end

/-! ### Concrete cases -/

namespace Unequal

theorem uneven_within (kind : StepKind) : Within kind 2 [(0, Real.cos 0), (1, Real.cos 1), (3, Real.cos 3), (5, Real.cos 5)] := by
  have h1 := Real.pi_gt_three
  have h2 := Real.pi_lt_d2
  have hg : ∀ j : ℕ, gridAngle 4 j = Real.pi * j / 2 := by
    intro j
    unfold gridAngle
    push_cast
    ring
  have hj : ∀ j : ℕ, j < 4 → j = 0 ∨ j = 1 ∨ j = 2 ∨ j = 3 := by omega
  cases kind with
  | nearest =>
    intro j h
    show ∃ p ∈ [((0 : ℝ), Real.cos 0), (1, Real.cos 1), (3, Real.cos 3), (5, Real.cos 5)], |gridAngle 4 j - p.1| ≤ 2
    rw [hg]
    rcases hj j h with rfl | rfl | rfl | rfl <;> push_cast
    · exact ⟨(0, Real.cos 0), by simp, by rw [abs_le]; constructor <;> dsimp only <;> linarith⟩
    · exact ⟨(1, Real.cos 1), by simp, by rw [abs_le]; constructor <;> dsimp only <;> linarith⟩
    · exact ⟨(3, Real.cos 3), by simp, by rw [abs_le]; constructor <;> dsimp only <;> linarith⟩
    · exact ⟨(5, Real.cos 5), by simp, by rw [abs_le]; constructor <;> dsimp only <;> linarith⟩
  | previous =>
    intro j h
    show ∃ p ∈ [((0 : ℝ), Real.cos 0), (1, Real.cos 1), (3, Real.cos 3), (5, Real.cos 5)], p.1 ≤ gridAngle 4 j ∧ gridAngle 4 j ≤ p.1 + 2
    rw [hg]
    rcases hj j h with rfl | rfl | rfl | rfl <;> push_cast
    · exact ⟨(0, Real.cos 0), by simp, by constructor <;> dsimp only <;> linarith⟩
    · exact ⟨(1, Real.cos 1), by simp, by constructor <;> dsimp only <;> linarith⟩
    · exact ⟨(3, Real.cos 3), by simp, by constructor <;> dsimp only <;> linarith⟩
    · exact ⟨(3, Real.cos 3), by simp, by constructor <;> dsimp only <;> linarith⟩
  | next =>
    intro j h
    show ∃ p ∈ [((0 : ℝ), Real.cos 0), (1, Real.cos 1), (3, Real.cos 3), (5, Real.cos 5)], gridAngle 4 j ≤ p.1 ∧ p.1 ≤ gridAngle 4 j + 2
    rw [hg]
    rcases hj j h with rfl | rfl | rfl | rfl <;> push_cast
    · exact ⟨(0, Real.cos 0), by simp, by constructor <;> dsimp only <;> linarith⟩
    · exact ⟨(3, Real.cos 3), by simp, by constructor <;> dsimp only <;> linarith⟩
    · exact ⟨(5, Real.cos 5), by simp, by constructor <;> dsimp only <;> linarith⟩
    · exact ⟨(5, Real.cos 5), by simp, by constructor <;> dsimp only <;> linarith⟩

/-- The hypotheses of `C142_fourier` are met by four measurements of the cosine at unequal angles, for all three kinds. -/
example (kind : StepKind) : ∃ fdat, datToFdat (stepInterp kind) uneven 1 = .ok fdat ∧ ∃ z : ℤ → ℂ,
    (∀ m : ℤ, -1 ≤ m → m ≤ 1 → DRepresents fdat kPP m (z m)) ∧
    √(∑ m ∈ Finset.Icc (-1 : ℤ) 1, ‖z m - cosine m‖ ^ 2) ≤ steepness 1 cosine * 2 + 0 := by
  obtain ⟨fdat, h1, _, _, h2⟩ := C142_fourier kind uneven_reachable (M := 1) (c := fun _ => cosine) (d := fun _ => 2) (δ := fun _ => 0)
    (fun k pts hk => by
      rw [getPc_radians, Dict.get_ok_iff] at hk
      have := Dict.mem_of_get? hk
      simp only [uneven, List.mem_singleton, Prod.mk.injEq] at this
      obtain ⟨_, rfl⟩ := this
      refine ⟨by simp, by simp, uneven_within kind, fun p hp => ?_⟩
      simp only [List.mem_cons, List.not_mem_nil, or_false] at hp
      rcases hp with rfl | rfl | rfl | rfl <;> simp [pattern_cosine])
  obtain ⟨z, h3, h4⟩ := h2 kPP (by simp [uneven, DataContainer.getKeys, Dict.keys])
  exact ⟨fdat, h1, z, h3, h4⟩

/-- The points chosen among these: at 2 the one at 1 and the one at 3, at 1/4 the one at 0. -/
example : Chosen .previous [(0, Real.cos 0), (1, Real.cos 1), (3, Real.cos 3), (5, Real.cos 5)] 2 (1, Real.cos 1) ∧
    Chosen .next [(0, Real.cos 0), (1, Real.cos 1), (3, Real.cos 3), (5, Real.cos 5)] 2 (3, Real.cos 3) ∧
    Chosen .nearest [(0, Real.cos 0), (1, Real.cos 1), (3, Real.cos 3), (5, Real.cos 5)] (1 / 4) (0, Real.cos 0) := by
  refine ⟨⟨by simp, by norm_num, ?_⟩, ⟨by simp, by norm_num, ?_⟩, ⟨by simp, ?_⟩⟩
  · intro q hq hx
    simp only [List.mem_cons, List.not_mem_nil, or_false] at hq
    rcases hq with rfl | rfl | rfl | rfl <;> revert hx <;> norm_num
  · intro q hq hx
    simp only [List.mem_cons, List.not_mem_nil, or_false] at hq
    rcases hq with rfl | rfl | rfl | rfl <;> revert hx <;> norm_num
  · intro q hq
    simp only [List.mem_cons, List.not_mem_nil, or_false] at hq
    rcases hq with rfl | rfl | rfl | rfl <;> norm_num [abs_of_pos, abs_of_neg]

end Unequal

namespace FitCases
open Unequal

/-- The hypotheses of `C142_fit` are met: the pulse lies on the pattern of the formula `b, a, b` with `a = b = 1/4` up to the noise 1/4. -/
example (kind : StepKind) (d : Disk) : ∃ (fdat : FDataContainer) (cost : List ℝ → ℝ) (d' : Disk),
    datToFdat (stepInterp kind) pulse formula.getM = .ok fdat ∧
    genCostFunc Sympy.plain compiler d formula fdat none false none = .ok (cost, d') ∧
    ∀ r, cost ([symA, symB].map r) ≤ cost ([symA, symB].map quarter) → ∀ k ∈ formula.getKeys, ∀ x,
      ‖pattern formula.getM (fun m => F k m (realVal r)) x - pattern formula.getM (fun m => F k m (realVal quarter)) x‖ ≤
        2 * √(2 * formula.getM + 1) * √((formula.getKeys.map (fun k =>
          (steepness formula.getM (fun m => F k m (realVal quarter)) * 0 + 1 / 4) ^ 2)).sum) := by
  have hpi := Real.pi_pos
  have hpts : ∀ k pts, pulse.getPc k sRadians = .ok pts → k = kPP ∧ pts = sampled 4 (fun x => if x = 0 then 1 else 0) := by
    intro k pts hk
    rw [getPc_radians, Dict.get_ok_iff] at hk
    have := Dict.mem_of_get? hk
    simpa only [pulse, List.mem_singleton, Prod.mk.injEq] using this
  have hlen : (sampled 4 (fun x => if x = 0 then (1 : ℝ) else 0)).length = 4 := by simp [sampled]
  have hw : Within kind 0 (sampled 4 (fun x => if x = 0 then 1 else 0)) := by
    have hmem : ∀ j < 4, ∃ p ∈ sampled 4 (fun x => if x = 0 then (1 : ℝ) else 0), p.1 = gridAngle 4 j := fun j hj =>
      ⟨(gridAngle 4 j, if gridAngle 4 j = 0 then 1 else 0), List.mem_map.2 ⟨j, List.mem_range.2 hj, rfl⟩, rfl⟩
    cases kind with
    | nearest => intro j hj; rw [hlen] at hj ⊢; obtain ⟨p, hp, e⟩ := hmem j hj; exact ⟨p, hp, by rw [e]; simp⟩
    | previous => intro j hj; rw [hlen] at hj ⊢; obtain ⟨p, hp, e⟩ := hmem j hj; exact ⟨p, hp, by rw [e], by rw [e]; simp⟩
    | next => intro j hj; rw [hlen] at hj ⊢; obtain ⟨p, hp, e⟩ := hmem j hj; exact ⟨p, hp, by rw [e], by rw [e]; simp⟩
  have hinc : (sampled 4 (fun x => if x = 0 then (1 : ℝ) else 0)).Pairwise (fun p q => p.1 < q.1) := by
    unfold sampled
    rw [List.pairwise_map]
    refine List.pairwise_lt_range.imp (fun {i j} hij => ?_)
    dsimp only
    unfold gridAngle
    have : (i : ℝ) < j := by exact_mod_cast hij
    rw [div_lt_div_iff_of_pos_right (by norm_num)]
    nlinarith
  have hpat : ∀ k x, pattern formula.getM (fun m => F k m (realVal quarter)) x = ((1 / 4 + 1 / 2 * Real.cos x : ℝ) : ℂ) := by
    intro k x
    have e := pattern_cosine x
    rw [pattern_one] at e
    show pattern 1 _ x = _
    rw [pattern_one]
    simp only [cosine, F, realVal, quarter] at e ⊢
    norm_num at e ⊢
    linear_combination (1 / 2) * e
  have hne : sampled 4 (fun x => if x = 0 then (1 : ℝ) else 0) ≠ [] := List.ne_nil_of_length_pos (by omega)
  obtain ⟨L, hok, hL⟩ := (C142_interpolation kind).1 _ hinc ⟨_, stepInterp_ok hne (hw.defined hne (hinc.imp (fun h => h.le)))⟩
  obtain ⟨fdat, h1, h2, h3, h4, h5⟩ := C89_transform (interp := stepInterp kind) pulse_reachable formula.getM (f := fun _ => L)
    (fun k pts hk => by rw [(hpts k pts hk).2]; exact ⟨by omega, hok⟩)
  have hdft : ∀ m, dft 4 L m = 1 / 4 := by
    intro m
    rw [← dft_pulse m]
    unfold dft
    congr 1
    refine Finset.sum_congr rfl (fun j hj => ?_)
    have := hL (gridAngle 4 j, if gridAngle 4 j = 0 then 1 else 0) (by
      unfold sampled
      exact List.mem_map.2 ⟨j, List.mem_range.2 (Finset.mem_range.1 hj), rfl⟩)
    dsimp only at this
    rw [this]
  have hq : ∀ k m z, DRepresents fdat k m z → MachineNumber z := by
    rintro k m z ⟨v, e1, e2⟩
    have hk : k ∈ pulse.getKeys := by
      rw [← h3]; exact Dict.mem_keys_of_mem (Dict.mem_of_get? (Dict.get_ok_iff.1 e1))
    have hk' : k = kPP := by simpa [pulse, DataContainer.getKeys, Dict.keys] using hk
    subst hk'
    rw [h4] at e2
    obtain ⟨v', e3, e4⟩ := h5 kPP _ rfl m e2.1.1 e2.1.2
    rw [e1] at e3; cases e3
    rw [h4] at e4
    have := Option.some.inj (e2.2.symm.trans e4.2)
    rw [this, hlen, hdft]
    exact ⟨1 / 4, 0, by push_cast; ring⟩
  obtain ⟨cost, d', e1, e2⟩ := C142_fit Sympy.plain compiler kind d (r₀ := quarter) (w := fun _ => 0) (δ := fun _ => 1 / 4)
    pulse_reachable formula_reachable formulaIs pulse_keys (fun k pts hk => by
      obtain ⟨_, rfl⟩ := hpts k pts hk
      refine ⟨by rw [hlen]; decide, by omega, hw, fun p hp => ?_⟩
      rw [hpat]
      obtain ⟨j, hj, rfl⟩ := List.mem_map.1 hp
      dsimp only
      rw [← Complex.ofReal_sub, Complex.norm_real, Real.norm_eq_abs]
      have hj' : j = 0 ∨ j = 1 ∨ j = 2 ∨ j = 3 := by have := List.mem_range.1 hj; omega
      unfold gridAngle
      rcases hj' with rfl | rfl | rfl | rfl
      · rw [if_pos (by simp)]
        simp
        norm_num [abs_le]
      · rw [if_neg (by push_cast; positivity), show 2 * Real.pi * ((1 : ℕ) : ℝ) / (4 : ℕ) = Real.pi / 2 by push_cast; ring, Real.cos_pi_div_two]
        norm_num [abs_le]
      · rw [if_neg (by push_cast; positivity), show 2 * Real.pi * ((2 : ℕ) : ℝ) / (4 : ℕ) = Real.pi by push_cast; ring, Real.cos_pi]
        norm_num [abs_le]
      · rw [if_neg (by push_cast; positivity), show 2 * Real.pi * ((3 : ℕ) : ℝ) / (4 : ℕ) = Real.pi / 2 + Real.pi by push_cast; ring,
          Real.cos_add_pi, Real.cos_pi_div_two]
        norm_num [abs_le]) h1 hq (.inr ⟨rfl, free_symbols⟩) false (by simp) none
  exact ⟨fdat, cost, d', h1, e1, e2⟩

end FitCases

end Shgpy
