import Verif.Proofs.Measured

/-!
# From files measured at any angles to Fourier data and fits, with the default options: C141
-/

set_option linter.unusedSectionVars false

namespace Shgpy
open Spec

theorem lowered_measured {M : ℕ} {c : ℤ → ℂ} {δ : ℝ} {pts : List (ℝ × ℝ)} (h : MeasuredOn M c δ pts) (μ : ℝ) :
    MeasuredOn M (fun m => if m = 0 then c m - μ else c m) δ (lowered μ pts) := by
  intro p hp
  obtain ⟨q, hq, rfl⟩ := List.mem_map.1 hp
  rw [pattern_lowered]
  have := h q hq
  have e : (((q.1, q.2 - μ) : ℝ × ℝ).2 : ℂ) - (pattern M c ((q.1, q.2 - μ) : ℝ × ℝ).1 - μ) = (q.2 : ℂ) - pattern M c q.1 := by
    push_cast
    ring
  rw [e]
  exact this

/-- **C141, Fourier data.**  Let the files, in either unit, hold a measurement whose points lie, up to the noise `δ`, on patterns with the
components `c`, at more than `2M` and at least four angles of one turn with distances between `h / ρ` and `h`; with dark files, let the points
be the differences.  Then `load_data_and_fourier_transform` with the default interpolation returns those points, lowered by their least value
`μ` if `min_subtract` is set, and Fourier data whose components differ from those of the patterns — the zeroth lowered by `μ` — by no more
than `14 ρ h⁴ Σ m⁴ |c_m| + 75 ρ³ δ` in the root of the sum of the squares. -/
theorem C141_fourier {float : Key → Option ℝ} {fs : CsvFiles} {names : Dict Key Key} {units : Key} {dark : Option (Dict Key Key × Key)}
    {P : Key → List (ℝ × ℝ)} (hu : units = sRadians ∨ units = sDegrees) (hwf : Dict.WF names) (hne : names ≠ [])
    (hP : FilesMeasure float fs names units dark P) {M : ℕ} {h ρ δ : Key → ℝ} (hs : ∀ k ∈ names.keys, Scan M (h k) (ρ k) (P k))
    {c : Key → ℤ → ℂ} (hc : ∀ k ∈ names.keys, (∀ x, (pattern M (c k) x).im = 0) ∧ MeasuredOn M (c k) (δ k) (P k)) (ms : Bool) :
    ∃ (μ : ℝ) (dat : DataContainer ℝ) (fdat : FDataContainer),
      loadDataAndFourierTransform float fs cubicInterp names units dark M ms 1 false = .ok (dat, fdat) ∧
      (ms = false → μ = 0) ∧ (ms = true → IsLeast {v | ∃ k ∈ names.keys, ∃ p ∈ P k, v = p.2} μ) ∧
      dat.getKeys = names.keys ∧ fdat.getKeys = names.keys ∧ fdat.getM = M ∧
      ∀ k ∈ names.keys, dat.getPc k sRadians = .ok (lowered μ (P k)) ∧
        ∃ z : ℤ → ℂ, (∀ m : ℤ, -(M : ℤ) ≤ m → m ≤ M → DRepresents fdat k m (z m)) ∧
          √(∑ m ∈ Finset.Icc (-(M : ℤ)) M, ‖z m - (if m = 0 then c k m - μ else c k m)‖ ^ 2) ≤
            14 * ρ k * fourth M (c k) * h k ^ 4 + 75 * ρ k ^ 3 * δ k := by
  obtain ⟨c₀, e1, r1, k1, p1⟩ := load_measure hu hwf hne hP hs
  have hne' : names.keys ≠ [] := by
    intro hk
    apply hne
    have : names.map Prod.fst = [] := hk
    simpa using this
  obtain ⟨μ, dat, e2, r2, k2, hμ0, hμ, p2⟩ := subtract_measure r1 (P := P) (by rw [k1]; exact p1) (by rw [k1]; exact hne') ms
  rw [k1] at k2 hμ p2
  obtain ⟨fdat, e3, k3, m3, h3⟩ := C137_fourier r2 (M := M) (c := fun k m => if m = 0 then c k m - μ else c k m) (h := h) (ρ := ρ) (δ := δ)
    (fun k pts hk => by
      have hkk : k ∈ names.keys := k2 ▸ getPc_mem hk
      have := p2 k hkk
      rw [hk] at this
      have this := Except.ok.inj this
      subst this
      have hS := (hs k hkk).congr (lowered_fst μ (P k))
      refine ⟨hS.many, hS.four, fun x => ?_, hS.covers, hS.spread, lowered_measured (hc k hkk).2 μ⟩
      rw [pattern_lowered, Complex.sub_im, (hc k hkk).1, Complex.ofReal_im, sub_zero])
  refine ⟨μ, dat, fdat, ?_, hμ0, hμ, k2, k3.trans k2, m3, fun k hk => ⟨p2 k hk, ?_⟩⟩
  · unfold loadDataAndFourierTransform
    rw [e1, ok_bind, e2, ok_bind, e3, ok_bind, if_neg (by simp)]
  · obtain ⟨z, hz, hb⟩ := h3 k (k2 ▸ hk)
    rw [fourth_lowered] at hb
    exact ⟨z, hz, hb⟩

section
variable (S : Sympy) (C : Compiler) {fform : FFormContainer} {F : Key → ℤ → Valuation → ℂ} {dat : DataContainer ℝ} {fdat : FDataContainer}
  {l : List Sym}

/-- **C141, fits.**  Let the files hold such a measurement of the patterns of a formula for the parameters `r₀`.  Then, for the Fourier data that
`load_data_and_fourier_transform` returns, the pattern of all parameters `r` that the cost function does not find worse than `r₀` differs from
the true pattern nowhere by more than `2√(2M+1)` times the root of the sum, over the combinations, of the squares of
`14 ρ h⁴ Σ m⁴ |c_m| + 75 ρ³ δ`. -/
theorem C141_fit {float : Key → Option ℝ} {fs : CsvFiles} {names : Dict Key Key} {units : Key} {dark : Option (Dict Key Key × Key)}
    {P : Key → List (ℝ × ℝ)} (d : Disk) (hu : units = sRadians ∨ units = sDegrees) (hwf : Dict.WF names) (hne : names ≠ [])
    (hP : FilesMeasure float fs names units dark P) (hc : fform.Reachable S) (hF : FormulaIs fform F)
    (hk : ∀ k ∈ fform.getKeys, k ∈ names.keys) {r₀ : Sym → ℝ} {h ρ δ : Key → ℝ}
    (hs : ∀ k ∈ names.keys, Scan fform.getM (h k) (ρ k) (P k))
    (hm : ∀ k ∈ names.keys, (∀ x, (pattern fform.getM (fun m => F k m (realVal r₀)) x).im = 0) ∧
      MeasuredOn fform.getM (fun m => F k m (realVal r₀)) (δ k) (P k))
    (hload : loadDataAndFourierTransform float fs cubicInterp names units dark fform.getM false 1 false = .ok (dat, fdat))
    (hq : ∀ k m z, DRepresents fdat k m z → MachineNumber z)
    {arguments : Option (List Sym)} (hl : ArgumentOrder S fform arguments l)
    (chunk : Bool) (hne' : chunk = true → fform.getKeys ≠ []) (save : Option Key) :
    ∃ cost d', genCostFunc S C d fform fdat arguments chunk save = .ok (cost, d') ∧
      ∀ r, cost (l.map r) ≤ cost (l.map r₀) → ∀ k ∈ fform.getKeys, ∀ x,
        ‖pattern fform.getM (fun m => F k m (realVal r)) x - pattern fform.getM (fun m => F k m (realVal r₀)) x‖ ≤
          2 * √(2 * fform.getM + 1) * √((fform.getKeys.map (fun k =>
            (14 * ρ k * fourth fform.getM (fun m => F k m (realVal r₀)) * h k ^ 4 + 75 * ρ k ^ 3 * δ k) ^ 2)).sum) := by
  obtain ⟨c₀, e1, r1, k1, p1⟩ := load_measure hu hwf hne hP hs
  unfold loadDataAndFourierTransform at hload
  rw [e1, ok_bind] at hload
  have hmin : maybeSubtractMin false c₀ = .ok c₀ := rfl
  rw [hmin, ok_bind] at hload
  obtain ⟨f, hf⟩ : ∃ f, datToFdat cubicInterp c₀ fform.getM = .ok f := by
    cases hd : datToFdat cubicInterp c₀ fform.getM with
    | ok f => exact ⟨f, rfl⟩
    | error e => rw [hd, error_bind] at hload; cases hload
  rw [hf, ok_bind, if_neg (by simp)] at hload
  cases hload
  exact C137_fit S C d r1 hc hF (by rw [k1]; exact hk) (fun k pts hkk => by
    have hkn : k ∈ names.keys := k1 ▸ getPc_mem hkk
    have := p1 k hkn
    rw [hkk] at this
    have this := Except.ok.inj this
    subst this
    have hS := hs k hkn
    exact ⟨hS.many, hS.four, (hm k hkn).1, hS.covers, hS.spread, (hm k hkn).2⟩) hf hq hl chunk hne' save

end

/-! ### Concrete cases -/

namespace Unequal

/-- A reader of some texts: `0`, `1`, `3` and `5`, and `a`, `b`, `c` and `d` for the cosines of these numbers. -/
noncomputable def scanFloat : Key → Option ℝ := fun s =>
  if s = ['0'] then some 0 else if s = ['1'] then some 1 else if s = ['3'] then some 3 else if s = ['5'] then some 5 else
  if s = ['a'] then some (Real.cos 0) else if s = ['b'] then some (Real.cos 1) else if s = ['c'] then some (Real.cos 3) else
  if s = ['d'] then some (Real.cos 5) else none

/-- A file with the cosine at the angles 0, 1, 3 and 5, and a dark file with zeros. -/
def scanCsv : CsvFiles := fun n =>
  if n = ['f'] then some [[['0'], ['a']], [['1'], ['b']], [['3'], ['c']], [['5'], ['d']]]
  else if n = ['g'] then some [[['0'], ['0']], [['1'], ['0']], [['3'], ['0']], [['5'], ['0']]] else none

/-- The points of the file. -/
noncomputable def scanPts : Key → List (ℝ × ℝ) := fun _ => [(0, Real.cos 0), (1, Real.cos 1), (3, Real.cos 3), (5, Real.cos 5)]

theorem scanPts_scan (k : Key) : Scan 1 2 2 (scanPts k) := by
  have hpi := Real.pi_lt_d2
  have hpi' := Real.pi_gt_three
  refine ⟨by simp [scanPts], by simp [scanPts], fun p hp => ?_, ⟨by simp [scanPts], ?_⟩, ?_⟩
  · simp only [scanPts, List.mem_cons, List.not_mem_nil, or_false] at hp
    rcases hp with rfl | rfl | rfl | rfl <;> exact ⟨by norm_num, by show _ < 2 * Real.pi; dsimp only; linarith⟩
  · intro i p q hp hq
    have hi : i + 1 < 4 := (List.getElem?_eq_some_iff.1 hq).1
    have : i = 0 ∨ i = 1 ∨ i = 2 := by omega
    rcases this with rfl | rfl | rfl
    · cases hp; cases hq; norm_num [scanPts]
    · cases hp; cases hq; norm_num [scanPts]
    · cases hp; cases hq
      refine ⟨by norm_num, by norm_num, by norm_num, fun _ => ?_⟩
      dsimp only
      linarith
  · intro i p q hp hq
    have hi : i + 1 < 4 := (List.getElem?_eq_some_iff.1 hq).1
    have : i = 0 ∨ i = 1 ∨ i = 2 := by omega
    rcases this with rfl | rfl | rfl <;> cases hp <;> cases hq <;> norm_num

theorem scan_files : FilesHold scanFloat scanCsv [(kPP, ['f'])] sRadians scanPts := by
  intro k n hkn
  simp only [List.mem_singleton, Prod.mk.injEq] at hkn
  obtain ⟨rfl, rfl⟩ := hkn
  refine ⟨scanPts kPP, ⟨_, rfl, ?_⟩, ?_⟩
  · refine .cons ⟨_, _, _, rfl, ?_, ?_⟩ (.cons ⟨_, _, _, rfl, ?_, ?_⟩ (.cons ⟨_, _, _, rfl, ?_, ?_⟩ (.cons ⟨_, _, _, rfl, ?_, ?_⟩ .nil))) <;>
      simp [scanFloat]
  · have : ∀ x : ℝ, rad sRadians x = x := fun x => by unfold rad; simp [sRadians, sDegrees]
    simp [this]

theorem dark_files : FilesHold scanFloat scanCsv [(kPP, ['g'])] sRadians (fun _ => [(0, 0), (1, 0), (3, 0), (5, 0)]) := by
  intro k n hkn
  simp only [List.mem_singleton, Prod.mk.injEq] at hkn
  obtain ⟨rfl, rfl⟩ := hkn
  refine ⟨[(0, 0), (1, 0), (3, 0), (5, 0)], ⟨_, rfl, ?_⟩, ?_⟩
  · refine .cons ⟨_, _, _, rfl, ?_, ?_⟩ (.cons ⟨_, _, _, rfl, ?_, ?_⟩ (.cons ⟨_, _, _, rfl, ?_, ?_⟩ (.cons ⟨_, _, _, rfl, ?_, ?_⟩ .nil))) <;>
      simp [scanFloat]
  · have : ∀ x : ℝ, rad sRadians x = x := fun x => by unfold rad; simp [sRadians, sDegrees]
    simp [this]

/-- The hypotheses of `C141_fourier` are met by files with four measurements of the cosine at unequal angles and their dark files, with and
without `min_subtract`. -/
example (ms : Bool) : ∃ (μ : ℝ) (dat : DataContainer ℝ) (fdat : FDataContainer),
    loadDataAndFourierTransform scanFloat scanCsv cubicInterp [(kPP, ['f'])] sRadians (some ([(kPP, ['g'])], sRadians)) 1 ms 1 false = .ok (dat, fdat) ∧
    dat.getPc kPP sRadians = .ok (lowered μ (scanPts kPP)) := by
  obtain ⟨μ, dat, fdat, h1, _, _, _, _, _, h2⟩ := C141_fourier (float := scanFloat) (fs := scanCsv) (names := [(kPP, ['f'])])
    (dark := some ([(kPP, ['g'])], sRadians)) (P := scanPts) (.inl rfl) (by simp [Dict.WF, Dict.keys]) (by simp)
    ⟨.inl rfl, rfl, _, _, scan_files, dark_files, fun k _ => ⟨by simp [scanPts], by simp [scanPts, difference]⟩⟩
    (M := 1) (h := fun _ => 2) (ρ := fun _ => 2) (δ := fun _ => 0) (fun k _ => scanPts_scan k) (c := fun _ => cosine)
    (fun k _ => ⟨fun x => by rw [pattern_cosine, Complex.ofReal_im], fun p hp => by
      simp only [scanPts, List.mem_cons, List.not_mem_nil, or_false] at hp
      rcases hp with rfl | rfl | rfl | rfl <;> simp [pattern_cosine]⟩) ms
  exact ⟨μ, dat, fdat, h1, (h2 kPP (by simp [Dict.keys])).1⟩

end Unequal

namespace FitCases
open Unequal

/-- A reader of the texts `0`, `1`, `q`, `h` and `t`; the last three stand for 90, 180 and 270. -/
def pulseFloat : Key → Option ℝ := fun s =>
  if s = ['0'] then some 0 else if s = ['1'] then some 1 else if s = ['q'] then some 90 else if s = ['h'] then some 180 else
  if s = ['t'] then some 270 else none

/-- A file, in degrees, with the value 1 at 0 and 0 at the other three quarters of the turn. -/
def pulseCsv : CsvFiles := fun n =>
  if n = ['f'] then some [[['0'], ['1']], [['q'], ['0']], [['h'], ['0']], [['t'], ['0']]] else none

/-- The points of the file, in radians. -/
noncomputable def pulsePts : List (ℝ × ℝ) := [(0, 1), (Real.pi / 2, 0), (Real.pi, 0), (3 * Real.pi / 2, 0)]

theorem pulse_files : FilesMeasure pulseFloat pulseCsv [(kPP, ['f'])] sDegrees none (fun _ => pulsePts) := by
  intro k n hkn
  simp only [List.mem_singleton, Prod.mk.injEq] at hkn
  obtain ⟨rfl, rfl⟩ := hkn
  refine ⟨[(0, 1), (90, 0), (180, 0), (270, 0)], ⟨_, rfl, ?_⟩, ?_⟩
  · refine .cons ⟨_, _, _, rfl, ?_, ?_⟩ (.cons ⟨_, _, _, rfl, ?_, ?_⟩ (.cons ⟨_, _, _, rfl, ?_, ?_⟩ (.cons ⟨_, _, _, rfl, ?_, ?_⟩ .nil))) <;>
      simp [pulseFloat]
  · have : ∀ x : ℝ, rad sDegrees x = x * (Real.pi / 180) := fun x => by unfold rad; rw [if_pos rfl]; rfl
    simp only [List.map_cons, List.map_nil, this, pulsePts, List.cons.injEq, Prod.mk.injEq, and_true]
    refine ⟨by ring, by ring, by ring, by ring⟩

theorem pulse_scan : Scan 1 (Real.pi / 2) 1 pulsePts := by
  have hpi := Real.pi_pos
  refine ⟨by simp [pulsePts], by simp [pulsePts], fun p hp => ?_, ⟨by simp [pulsePts], ?_⟩, ?_⟩
  · simp only [pulsePts, List.mem_cons, List.not_mem_nil, or_false] at hp
    rcases hp with rfl | rfl | rfl | rfl <;>
      exact ⟨by dsimp only; linarith, by show _ < 2 * Real.pi; dsimp only; linarith⟩
  · intro i p q hp hq
    have hi : i + 1 < 4 := (List.getElem?_eq_some_iff.1 hq).1
    have : i = 0 ∨ i = 1 ∨ i = 2 := by omega
    rcases this with rfl | rfl | rfl <;> cases hp <;> cases hq <;>
      refine ⟨by dsimp only; linarith, by dsimp only; linarith, fun h0 => ?_, fun h0 => ?_⟩ <;>
      first | (dsimp only; linarith) | (simp [pulsePts] at h0)
  · intro i p q hp hq
    have hi : i + 1 < 4 := (List.getElem?_eq_some_iff.1 hq).1
    have : i = 0 ∨ i = 1 ∨ i = 2 := by omega
    rcases this with rfl | rfl | rfl <;> cases hp <;> cases hq <;> dsimp only <;> linarith

theorem pulsePts_eq : pulsePts = sampled 4 (fun x => if x = 0 then 1 else 0) := by
  have hpi := Real.pi_pos
  have h1 : (2 * Real.pi * 1 / 4 : ℝ) = Real.pi / 2 := by ring
  have h2 : (2 * Real.pi * 2 / 4 : ℝ) = Real.pi := by ring
  have h3 : (2 * Real.pi * 3 / 4 : ℝ) = 3 * Real.pi / 2 := by ring
  simp only [sampled, gridAngle, List.range_succ, List.range_zero, List.nil_append, List.cons_append, List.map_cons, List.map_nil,
    pulsePts, Nat.cast_zero, Nat.cast_one, Nat.cast_ofNat, mul_zero, zero_div, if_true, h1, h2, h3]
  rw [if_neg (by positivity), if_neg (by positivity), if_neg (by positivity)]

/-- The hypotheses of `C141_fit` are met: a file with a pulse, which lies on the pattern of the formula `b, a, b` with `a = b = 1/4` up to the
noise 1/4. -/
example (d : Disk) : ∃ (dat : DataContainer ℝ) (fdat : FDataContainer) (cost : List ℝ → ℝ) (d' : Disk),
    loadDataAndFourierTransform pulseFloat pulseCsv cubicInterp [(kPP, ['f'])] sDegrees none formula.getM false 1 false = .ok (dat, fdat) ∧
    genCostFunc Sympy.plain compiler d formula fdat none false none = .ok (cost, d') ∧
    ∀ r, cost ([symA, symB].map r) ≤ cost ([symA, symB].map quarter) → ∀ k ∈ formula.getKeys, ∀ x,
      ‖pattern formula.getM (fun m => F k m (realVal r)) x - pattern formula.getM (fun m => F k m (realVal quarter)) x‖ ≤
        2 * √(2 * formula.getM + 1) * √((formula.getKeys.map (fun k =>
          (14 * 1 * fourth formula.getM (fun m => F k m (realVal quarter)) * (Real.pi / 2) ^ 4 + 75 * 1 ^ 3 * (1 / 4)) ^ 2)).sum) := by
  have hwf : Dict.WF [(kPP, ['f'])] := by simp [Dict.WF, Dict.keys]
  have hpat : ∀ k x, pattern formula.getM (fun m => F k m (realVal quarter)) x = ((1 / 4 + 1 / 2 * Real.cos x : ℝ) : ℂ) := by
    intro k x
    have e := pattern_cosine x
    rw [pattern_one] at e
    show pattern 1 _ x = _
    rw [pattern_one]
    simp only [cosine, F, realVal, quarter] at e ⊢
    norm_num at e ⊢
    linear_combination (1 / 2) * e
  have hm : ∀ k ∈ Dict.keys [(kPP, ['f'])], (∀ x, (pattern formula.getM (fun m => F k m (realVal quarter)) x).im = 0) ∧
      MeasuredOn formula.getM (fun m => F k m (realVal quarter)) (1 / 4) pulsePts := by
    refine fun k _ => ⟨fun x => by rw [hpat, Complex.ofReal_im], fun p hp => ?_⟩
    rw [hpat, ← Complex.ofReal_sub, Complex.norm_real, Real.norm_eq_abs]
    simp only [pulsePts, List.mem_cons, List.not_mem_nil, or_false] at hp
    rcases hp with rfl | rfl | rfl | rfl
    · simp
      norm_num [abs_le]
    · rw [Real.cos_pi_div_two]
      norm_num [abs_le]
    · rw [Real.cos_pi]
      norm_num [abs_le]
    · rw [show 3 * Real.pi / 2 = Real.pi / 2 + Real.pi by ring, Real.cos_add_pi, Real.cos_pi_div_two]
      norm_num [abs_le]
  obtain ⟨c₀, e1, r1, k1, p1⟩ := load_measure (.inr rfl) hwf (by simp) pulse_files (M := 1) (h := fun _ => Real.pi / 2) (ρ := fun _ => 1)
    (fun _ _ => pulse_scan)
  obtain ⟨L, hok⟩ : ∃ L, cubicInterp pulsePts = .ok L := ⟨_, cubicInterp_ok (by simp [pulsePts]) pulse_scan.covers.pairwise⟩
  have hpts : ∀ k pts, c₀.getPc k sRadians = .ok pts → k = kPP ∧ pts = pulsePts := by
    intro k pts hk
    have hkk := getPc_mem hk
    rw [k1] at hkk
    have := p1 k hkk
    rw [hk] at this
    exact ⟨by simpa [Dict.keys] using hkk, Except.ok.inj this⟩
  obtain ⟨fdat, h1, h2, h3, h4, h5⟩ := C89_transform (interp := cubicInterp) r1 formula.getM (f := fun _ => L)
    (fun k pts hk => by rw [(hpts k pts hk).2]; exact ⟨by simp [pulsePts], hok⟩)
  have hload : loadDataAndFourierTransform pulseFloat pulseCsv cubicInterp [(kPP, ['f'])] sDegrees none formula.getM false 1 false =
      .ok (c₀, fdat) := by
    unfold loadDataAndFourierTransform
    rw [e1, ok_bind, show maybeSubtractMin false c₀ = .ok c₀ from rfl, ok_bind, h1, ok_bind, if_neg (by simp)]
  have hq : ∀ k m z, DRepresents fdat k m z → MachineNumber z := by
    rintro k m z ⟨v, e1, e2⟩
    have hk : k ∈ c₀.getKeys := by
      rw [← h3]; exact Dict.mem_keys_of_mem (Dict.mem_of_get? (Dict.get_ok_iff.1 e1))
    rw [k1] at hk
    have hp := p1 k hk
    rw [h4] at e2
    obtain ⟨v', e3, e4⟩ := h5 k _ hp m e2.1.1 e2.1.2
    rw [e1] at e3; cases e3
    rw [h4] at e4
    have := Option.some.inj (e2.2.symm.trans e4.2)
    rw [this, show pulsePts.length = 4 by simp [pulsePts]]
    rw [pulsePts_eq] at hok
    rw [pulse_cubics hok]
    exact ⟨1 / 4, 0, by push_cast; ring⟩
  obtain ⟨cost, d', a1, a2⟩ := C141_fit Sympy.plain compiler d (r₀ := quarter) (h := fun _ => Real.pi / 2) (ρ := fun _ => 1)
    (δ := fun _ => 1 / 4) (.inr rfl) hwf (by simp) pulse_files formula_reachable formulaIs
    (fun k hk => by simpa [formula, FFormContainer.getKeys, Dict.keys] using hk) (fun _ _ => pulse_scan) hm hload hq
    (.inr ⟨rfl, free_symbols⟩) false (by simp) none
  exact ⟨c₀, fdat, cost, d', hload, a1, a2⟩

end FitCases

end Shgpy
