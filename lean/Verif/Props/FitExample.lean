import Verif.Spec.FitExample
import Verif.Props.FitCurve
import Verif.Props.PartialFit
import Verif.Props.FitOrientation
import Verif.Props.Load
import Verif.Props.SaveFform
import Verif.Props.Degenerate
import Verif.Props.BestFit
import Mathlib.Topology.Instances.Real.Lemmas

/-!
# The example scripts find the best fit: C113
-/

set_option linter.unusedSectionVars false

namespace Shgpy
open Spec

theorem unitGuess_get (l : List Sym) (hl : l.Nodup) : ∀ s ∈ l, Dict.get (unitGuess l) s = .ok ((fun _ => 1 : Sym → ℝ) s) := by
  have h : unitGuess l = l.map (fun s => (s, (1 : ℝ))) := by
    have := Dict.foldl_set_of_nodup (l.map (fun s => (s, (1 : ℝ)))) [] (by simpa [Function.comp_def] using hl)
    rw [List.foldl_map] at this
    simpa [unitGuess] using this
  intro s hs
  rw [h, Dict.get_ok_iff, Dict.get?_eq_some_iff (by simpa [Dict.WF, Dict.keys, Function.comp_def] using hl)]
  exact List.mem_map.2 ⟨s, hs, rfl⟩

/-- The bounds of the scripts. -/
noncomputable def boxLo (s : Sym) : ℝ := if s = psi then -Real.pi else -2
noncomputable def boxHi (s : Sym) : ℝ := if s = psi then Real.pi else 2

theorem boxBounds_are (l : List Sym) (hl : l.Nodup) : BoundsAre (some (boxBounds l)) l boxLo boxHi := by
  have h : boxBounds l = l.map (fun s => (s, (boxLo s, boxHi s))) := by
    have := Dict.foldl_set_of_nodup (l.map (fun s => (s, (boxLo s, boxHi s)))) [] (by simpa [Function.comp_def] using hl)
    rw [List.foldl_map] at this
    rw [List.nil_append] at this
    rw [← this]
    unfold boxBounds
    congr 1
    funext d s
    unfold boxLo boxHi
    split_ifs <;> rfl
  intro b hb s hs
  cases hb
  rw [h, Dict.get_ok_iff, Dict.get?_eq_some_iff (by simpa [Dict.WF, Dict.keys, Function.comp_def] using hl)]
  exact List.mem_map.2 ⟨s, hs, rfl⟩

theorem inBox_iff {r : Sym → ℝ} : InBox r ↔ ∀ s, boxLo s ≤ r s ∧ r s ≤ boxHi s := by
  unfold InBox boxLo boxHi
  constructor
  · rintro ⟨h1, h2⟩ s
    split_ifs with h
    · rw [h]; exact abs_le.1 h1
    · exact abs_le.1 (h2 s h)
  · intro h
    refine ⟨?_, fun s hs => ?_⟩
    · have := h psi; rw [if_pos rfl, if_pos rfl] at this; exact abs_le.2 this
    · have := h s; rw [if_neg hs, if_neg hs] at this; exact abs_le.2 this

theorem sympyFloat_spec (x : ℝ) : (sympyFloat x).free = [] ∧ ((∃ q : ℚ, (q : ℝ) = x) → ∀ σ, (sympyFloat x).eval σ = (x : ℂ)) := by
  unfold sympyFloat
  split_ifs with h
  · refine ⟨rfl, fun _ σ => ?_⟩
    have := h.choose_spec
    show ((h.choose : ℚ) : ℂ) = x
    rw [← Complex.ofReal_ratCast, this]
  · exact ⟨rfl, fun h' => absurd h' h⟩

section
variable (S : Sympy) (C : Compiler) {fform : FFormContainer} {F : Key → ℤ → Valuation → ℂ} {fdat : FDataContainer}
  {D : Key → ℤ → ℂ} {opt : Optimizer LSCall} {ε : ℝ}

/-- Near any point between bounds there are points between the bounds with rational coordinates. -/
theorem exists_rational_near {g : (Sym → ℝ) → ℝ} (hg : Continuous g) {lo hi r : Sym → ℝ} (hlh : ∀ s, lo s < hi s)
    (hr : ∀ s, lo s ≤ r s ∧ r s ≤ hi s) (hε : 0 < ε) :
    ∃ r', (∀ s, ∃ q : ℚ, (q : ℝ) = r' s) ∧ (∀ s, lo s ≤ r' s ∧ r' s ≤ hi s) ∧ g r' < g r + ε := by
  have hcl : r ∈ closure (Set.univ.pi (fun s => Set.Ioo (lo s) (hi s) ∩ Set.range ((↑) : ℚ → ℝ))) := by
    rw [closure_pi_set]
    intro s _
    have h1 : Set.Ioo (lo s) (hi s) ⊆ closure (Set.Ioo (lo s) (hi s) ∩ Set.range ((↑) : ℚ → ℝ)) :=
      Rat.denseRange_cast.open_subset_closure_inter isOpen_Ioo
    have h2 := closure_minimal h1 isClosed_closure
    rw [closure_Ioo (hlh s).ne] at h2
    exact h2 (hr s)
  have hopen : IsOpen {r' | g r' < g r + ε} := isOpen_lt hg continuous_const
  obtain ⟨r', h1, h2⟩ := mem_closure_iff.1 hcl _ hopen (by simpa using hε)
  refine ⟨r', fun s => (h2 s (Set.mem_univ s)).2, fun s => ?_, h1⟩
  have := (h2 s (Set.mem_univ s)).1
  exact ⟨this.1.le, this.2.le⟩

/-- A component does not depend on what is not a symbol of the formula. -/
theorem formulaIs_depends (hF : FormulaIs fform F) {l : List Sym} (hl : Lists fform l) {r r' : Sym → ℝ} (h : ∀ s ∈ l, r s = r' s)
    {k : Key} (hk : k ∈ fform.getKeys) {m : ℤ} (h1 : -(fform.getM : ℤ) ≤ m) (h2 : m ≤ fform.getM) :
    F k m (realVal r) = F k m (realVal r') := by
  obtain ⟨a, o, e1, e2, e3⟩ := hF k hk m h1 h2
  rw [← e3, ← e3]
  cases o with
  | native re im => rfl
  | sy e =>
    refine Expr.eval_congr e (fun s hs => ?_)
    unfold realVal
    rw [h s (hl.2 s ⟨k, a, m, e, e1, e2, hs⟩)]

theorem misfit_congr {keys : List Key} {M : ℕ} {F : Key → ℤ → Valuation → ℂ} {D : Key → ℤ → ℂ} {r r' : Sym → ℝ}
    (h : ∀ k ∈ keys, ∀ m : ℤ, -(M : ℤ) ≤ m → m ≤ M → F k m (realVal r) = F k m (realVal r')) :
    misfit keys M F D r = misfit keys M F D r' := by
  unfold misfit
  congr 1
  refine List.map_congr_left (fun k hk => Finset.sum_congr rfl (fun m hm => ?_))
  rw [Finset.mem_Icc] at hm
  rw [h k hk m hm.1 hm.2]

theorem box_zero (s : Sym) : boxLo s ≤ 0 ∧ 0 ≤ boxHi s := by
  unfold boxLo boxHi
  have := Real.pi_pos
  split_ifs <;> constructor <;> linarith

/-- The common end of the scripts. -/
theorem fitAndDraw_best (hε : 0 ≤ ε) (ho : LeastSquaresTo ε opt) (hfl : ReturnsFloats opt) (d : Disk) (hc : fform.Reachable S)
    (hs : Symbolic fform) (hM : fform.getM = 16) (hF : FormulaIs fform F) (hM' : fdat.getM = fform.getM) (hD : DataIs fform fdat D) :
    (∀ e, fitAndDraw S C opt d fform fdat = .error e → ∃ call l, opt call = .error e ∧ l.Nodup ∧ Lists fform l ∧
      (∀ r, call.func (l.map r) = √(misfit fform.getKeys fform.getM F D r)) ∧ call.x0 = l.map (fun _ => 1) ∧
      call.bounds = some (l.map boxLo, l.map boxHi)) ∧
    ∀ ret fit w, fitAndDraw S C opt d fform fdat = .ok (ret, fit, w) → w = [] ∧
      ∃ r, InBox r ∧ (∀ s a, Dict.get ret.xdict s = .ok a → r s = a) ∧
        (∀ r', (∀ s a, Dict.get ret.xdict s = .ok a → r' s = a) → ∀ k ∈ fform.getKeys, ∀ m : ℤ, -(fform.getM : ℤ) ≤ m →
          m ≤ fform.getM → F k m (realVal r') = F k m (realVal r)) ∧
        fit.getKeys = fform.getKeys ∧
        (∀ k ∈ fform.getKeys, fit.getPc k sRadians =
          .ok (sampled 1000 (fun x => (pattern 16 (fun m => F k m (realVal r)) x).re))) ∧
        ∀ r', InBox r' → √(misfit fform.getKeys fform.getM F D r) ≤ √(misfit fform.getKeys fform.getM F D r') + ε := by
  obtain ⟨l₀, hl, -⟩ := FFormContainer.getFreeSymbols_ok S hc.good ((FFormContainer.symbolic_iff hc.good).1 hs)
  generalize S.sortSyms l₀ = l at hl
  have hlists := (getFreeSymbols_lists hc.good hl).2
  have hdraw : ∀ (res : OptResult) (r : Sym → ℝ), Dict.keys res.xdict = l → (∀ s ∈ l, Dict.get res.xdict s = .ok (r s)) →
      (∀ s ∈ l, ∃ q : ℚ, (q : ℝ) = r s) → (∀ s, s ∉ l → r s = 0) → (∀ s ∈ l, boxLo s ≤ r s ∧ r s ≤ boxHi s) →
      (∀ r', InBox r' → √(misfit fform.getKeys fform.getM F D r) ≤ √(misfit fform.getKeys fform.getM F D r') + ε) →
      ∃ fit, fformToDat S fform (Dict.mapVals sympyFloat res.xdict) 1000 = .ok (fit, []) ∧
      ∃ r, InBox r ∧ (∀ s a, Dict.get res.xdict s = .ok a → r s = a) ∧
        (∀ r', (∀ s a, Dict.get res.xdict s = .ok a → r' s = a) → ∀ k ∈ fform.getKeys, ∀ m : ℤ, -(fform.getM : ℤ) ≤ m →
          m ≤ fform.getM → F k m (realVal r') = F k m (realVal r)) ∧
        fit.getKeys = fform.getKeys ∧
        (∀ k ∈ fform.getKeys, fit.getPc k sRadians =
          .ok (sampled 1000 (fun x => (pattern 16 (fun m => F k m (realVal r)) x).re))) ∧
        ∀ r', InBox r' → √(misfit fform.getKeys fform.getM F D r) ≤ √(misfit fform.getKeys fform.getM F D r') + ε := by
    intro res r hk hg hq h0 hb hbest
    have hget : ∀ s a, Dict.get res.xdict s = .ok a → r s = a := by
      intro s a ha
      have hsl : s ∈ l := by
        rw [← hk]; exact Dict.mem_keys_of_mem (Dict.mem_of_get? (Dict.get_ok_iff.1 ha))
      rw [hg s hsl] at ha
      cases ha; rfl
    have hv : Values fform (Dict.mapVals sympyFloat res.xdict) r := by
      refine ⟨?_, ?_, ?_⟩
      · rintro ⟨s, e⟩ hp
        obtain ⟨⟨s', a⟩, _, he⟩ := List.mem_map.1 hp
        cases he
        exact (sympyFloat_spec a).1
      · intro s hs'
        rw [Dict.keys_mapVals, hk]
        exact hlists.2 s hs'
      · intro s v hv
        rw [Dict.get_ok_iff, Dict.get?_mapVals] at hv
        cases ha : Dict.get? res.xdict s with
        | none => rw [ha] at hv; cases hv
        | some a =>
          rw [ha] at hv
          cases hv
          have hra := hget s a (Dict.get_ok_iff.2 ha)
          have hsl : s ∈ l := by rw [← hk]; exact Dict.mem_keys_of_mem (Dict.mem_of_get? ha)
          rw [(sympyFloat_spec a).2 (hra ▸ hq s hsl), ← hra]
          rfl
    obtain ⟨fit, f1, f2, f3⟩ := C103_curve S hc hs hM hF hv (n := 1000) (by norm_num)
    refine ⟨fit, f1, r, inBox_iff.2 (fun s => ?_), hget, ?_, f2, f3, hbest⟩
    · by_cases hsl : s ∈ l
      · exact hb s hsl
      · rw [h0 s hsl]; exact box_zero s
    · intro r' hr' k hkk m h1 h2
      exact formulaIs_depends hF hlists (fun s hsl => hr' s _ (hg s hsl)) hkk h1 h2
  unfold fitAndDraw
  rw [hl]
  simp only [ok_bind]
  by_cases hl0 : l = []
  · have he : (leastSquaresFit S C opt fform fdat (unitGuess l) (some (boxBounds l)) false none none ⟨d, []⟩).1 = .ok emptyResult := by
      unfold leastSquaresFit
      rw [hl, hl0]
      rfl
    rw [he]
    simp only [ok_bind]
    obtain ⟨fit, f1, f2⟩ := hdraw emptyResult (fun _ => 0) (by rw [hl0]; rfl) (by rw [hl0]; simp) (by rw [hl0]; simp) (fun _ _ => rfl)
      (by rw [hl0]; simp) (fun r' _ => by
        rw [misfit_congr (r' := r') (fun k hk m h1 h2 => formulaIs_depends hF hlists (by rw [hl0]; simp) hk h1 h2)]
        linarith)
    rw [f1]
    simp only [ok_bind]
    refine ⟨fun e h => (by cases h), fun ret fit' w h => ?_⟩
    cases h
    exact ⟨rfl, f2⟩
  · obtain ⟨call, c1, c2, c3, c4, c5⟩ := C60_least_squares S C opt (chunk := false) (load := none) (st := ⟨d, []⟩) hc hl hl0
      (.inl ⟨rfl, hM', hF, hD, by simp⟩) none (unitGuess_get l hlists.1) (boxBounds_are l hlists.1) (fun _ _ h => by cases h)
    cases hx : opt call with
    | error e =>
      rw [c5.2 e hx]
      refine ⟨fun e' h => ?_, fun ret fit' w h => by cases h⟩
      cases h
      exact ⟨call, l, hx, hlists.1, hlists, c1, c2, c3⟩
    | ok x =>
      obtain ⟨⟨o1, o2⟩, o3⟩ := ho call x hx
      obtain ⟨r₀, hr₀⟩ := exists_map_eq hlists.1 (x := x) (by rw [o1, c2]; simp)
      classical
      let r : Sym → ℝ := fun s => if s ∈ l then r₀ s else 0
      have hr : l.map r = x := by
        rw [← hr₀]
        exact List.map_congr_left (fun s hs => by simp [r, hs])
      obtain ⟨res, e1, e2⟩ := c5.1 r (by rw [hr]; exact hx)
      have hall : ∀ r', (∀ b, call.bounds = some b → Between (b.1.zip b.2) (l.map r')) ↔ ∀ s ∈ l, boxLo s ≤ r' s ∧ r' s ≤ boxHi s := by
        intro r'
        rw [c3]
        simp only [Option.map_some, Option.some.injEq, forall_eq', List.zip_map']
        exact between_map
      rw [e1]
      simp only [ok_bind]
      obtain ⟨fit, f1, f2⟩ := hdraw res r e2.2.2.1 e2.2.2.2
        (fun s hs => hfl call x hx _ (by rw [← hr]; exact List.mem_map_of_mem hs)) (fun s hs => by simp [r, hs])
        ((hall r).1 (by rw [hr]; exact o2)) (fun r' hr' => by
          have := o3 (l.map r') ⟨by rw [c2]; simp, (hall r').2 (fun s _ => inBox_iff.1 hr' s)⟩
          rw [← hr, c1, c1, abs_of_nonneg (Real.sqrt_nonneg _), abs_of_nonneg (Real.sqrt_nonneg _)] at this
          exact this)
      rw [f1]
      simp only [ok_bind]
      refine ⟨fun e h => (by cases h), fun ret fit' w h => ?_⟩
      cases h
      exact ⟨rfl, f2⟩

theorem box_lt (s : Sym) : boxLo s < boxHi s := by
  unfold boxLo boxHi
  have := Real.pi_pos
  split_ifs <;> linarith

/-- The common end of the scripts succeeds if the optimizer finds what there is to find. -/
theorem fitAndDraw_succeeds (hε : 0 < ε) (ho : LeastSquaresTo ε opt) (hfl : ReturnsFloats opt) (hfi : FindsFloats ε opt) (d : Disk)
    (hc : fform.Reachable S) (hs : Symbolic fform) (hM : fform.getM = 16) (hF : FormulaIs fform F) (hM' : fdat.getM = fform.getM)
    (hD : DataIs fform fdat D) : ∃ out, fitAndDraw S C opt d fform fdat = .ok out := by
  cases hfd : fitAndDraw S C opt d fform fdat with
  | ok out => exact ⟨out, rfl⟩
  | error e =>
    exfalso
    obtain ⟨call, l, h1, hnd, hlists, h2, h3, h4⟩ := (fitAndDraw_best S C hε.le ho hfl d hc hs hM hF hM' hD).1 e hfd
    have hcont : Continuous (fun r => √(misfit fform.getKeys fform.getM F D r)) := (continuous_misfit hF D).sqrt
    obtain ⟨r, r1, r2⟩ := exists_best hcont (l := l) (fun r r' h => by rw [← h2, ← h2, h]) (lo := boxLo) (hi := boxHi)
      (fun s _ => (box_lt s).le)
    classical
    let r₀ : Sym → ℝ := fun s => if s ∈ l then r s else 0
    have hr₀ : l.map r₀ = l.map r := List.map_congr_left (fun s hs => by simp [r₀, hs])
    obtain ⟨r', q1, q2, q3⟩ := exists_rational_near (r := r₀) hcont (lo := boxLo) (hi := boxHi) box_lt (fun s => by
      by_cases hsl : s ∈ l
      · simpa [r₀, hsl] using r1 s hsl
      · simpa [r₀, hsl] using box_zero s) hε
    suffices hx : ∃ x, opt call = .ok x by
      obtain ⟨x, hx⟩ := hx
      rw [h1] at hx
      cases hx
    refine hfi call ⟨l.map r', ⟨by rw [h3]; simp, fun b hb => ?_⟩, fun a ha => ?_, fun y hy => ?_⟩
    · rw [h4] at hb
      cases hb
      rw [List.zip_map', between_map]
      exact fun s _ => q2 s
    · obtain ⟨s, _, rfl⟩ := List.mem_map.1 ha
      exact q1 s
    · obtain ⟨ry, rfl⟩ := exists_map_eq hnd (x := y) (by rw [hy.1, h3]; simp)
      have hb := hy.2 _ h4
      rw [List.zip_map', between_map] at hb
      have m1 := r2 ry hb
      have m2 : √(misfit fform.getKeys fform.getM F D r₀) = √(misfit fform.getKeys fform.getM F D r) := by rw [← h2, ← h2, hr₀]
      rw [h2, h2, abs_of_nonneg (Real.sqrt_nonneg _), abs_of_nonneg (Real.sqrt_nonneg _)]
      linarith

theorem pattern_turned (M : ℕ) (c : ℤ → ℂ) (a x : ℝ) :
    pattern M (fun m => c m * Complex.exp (Complex.I * (m * (a : ℂ)))) x = pattern M c (x + a) := by
  unfold pattern harmonic
  refine Finset.sum_congr rfl (fun m _ => ?_)
  rw [mul_assoc, ← Complex.exp_add]
  push_cast
  ring_nf

theorem squares_turned (keys : List Key) (M : ℕ) (F : Key → ℤ → Valuation → ℂ) (N : Key → ℕ) (y : Key → ℝ → ℝ) (r : Sym → ℝ) :
    squares keys M (fun k m => fformEffect (.phaseShift (.sym psi)) m (F k m)) N y r = turnedSquares keys M F N y r := by
  unfold squares turnedSquares
  congr 1
  refine List.map_congr_left (fun k _ => ?_)
  congr 1
  funext x
  rw [← pattern_turned]
  rfl

/-- The end of both scripts with Fourier data near those of measured values. -/
theorem fitAndDraw_turned (hε : 0 ≤ ε) (ho : LeastSquaresTo ε opt) (hfl : ReturnsFloats opt) {δ : ℝ} (hδ : 0 ≤ δ)
    {rnd : FDataContainer → FDataContainer} (hrnd : RoundsTo δ rnd) (d : Disk) (hc : fform.Reachable S)
    (hs : Symbolic fform) (hM : fform.getM = 16)
    (hF : FormulaIs fform (fun k m => fformEffect (.phaseShift (.sym psi)) m (F k m))) (hM' : fdat.getM = fform.getM)
    {N : Key → ℕ} {y : Key → ℝ → ℝ} (hN : ∀ k ∈ fform.getKeys, 32 < N k)
    (hd : ∀ k ∈ fform.getKeys, ∀ m : ℤ, -(fform.getM : ℤ) ≤ m → m ≤ fform.getM → DRepresents fdat k m (dft (N k) (y k) m)) :
    (∀ e, fitAndDraw S C opt d fform (rnd fdat) = .error e → ∃ call, opt call = .error e) ∧
    (0 < ε → FindsFloats ε opt → ∃ out, fitAndDraw S C opt d fform (rnd fdat) = .ok out) ∧
    ∀ ret fit w, fitAndDraw S C opt d fform (rnd fdat) = .ok (ret, fit, w) → w = [] ∧
      BestCurve (ε + 2 * (δ * √(fform.getKeys.length * 33))) fform.getKeys F N y ret fit := by
  classical
  have hD : ∃ D : Key → ℤ → ℂ, ∀ k ∈ fform.getKeys, ∀ m : ℤ, -(fform.getM : ℤ) ≤ m → m ≤ fform.getM →
      (DRepresents (rnd fdat) k m (D k m) ∧ MachineNumber (D k m)) ∧ ‖D k m - dft (N k) (y k) m‖ ≤ δ := by
    have h : ∀ (k : Key) (m : ℤ), ∃ z, k ∈ fform.getKeys → -(fform.getM : ℤ) ≤ m → m ≤ fform.getM →
        (DRepresents (rnd fdat) k m z ∧ MachineNumber z) ∧ ‖z - dft (N k) (y k) m‖ ≤ δ := by
      intro k m
      by_cases h : k ∈ fform.getKeys ∧ -(fform.getM : ℤ) ≤ m ∧ m ≤ fform.getM
      · obtain ⟨z, h1, h2, h3⟩ := (hrnd fdat).2 k m _ (hd k h.1 m h.2.1 h.2.2)
        exact ⟨z, fun _ _ _ => ⟨⟨h1, h2⟩, h3⟩⟩
      · exact ⟨0, fun h1 h2 h3 => absurd ⟨h1, h2, h3⟩ h⟩
    choose D hD using h
    exact ⟨D, fun k hk m h1 h2 => hD k m hk h1 h2⟩
  obtain ⟨D, hD⟩ := hD
  obtain ⟨b1, b2⟩ := fitAndDraw_best S C hε ho hfl d hc hs hM hF (fdat := rnd fdat) (D := D) ((hrnd fdat).1.trans hM')
    (fun k hk m h1 h2 => (hD k hk m h1 h2).1)
  refine ⟨fun e he => ?_, fun hε' hfi => fitAndDraw_succeeds S C hε' ho hfl hfi d hc hs hM hF ((hrnd fdat).1.trans hM')
    (fun k hk m h1 h2 => (hD k hk m h1 h2).1), fun ret fit w h => ?_⟩
  · obtain ⟨call, _, h, _⟩ := b1 e he
    exact ⟨call, h⟩
  obtain ⟨rfl, r, g1, g2, g3, g4, g5, g6⟩ := b2 ret fit w h
  refine ⟨rfl, r, g1, g2, ?_, g4, fun k hk => ?_, ?_⟩
  · intro r' hr' k hk x
    rw [← pattern_turned, ← pattern_turned]
    unfold pattern
    refine Finset.sum_congr rfl (fun m hm => ?_)
    rw [Finset.mem_Icc] at hm
    have := g3 r' hr' k hk m (by rw [hM]; exact hm.1) (by rw [hM]; exact hm.2)
    congr 1
  · rw [g5 k hk]
    congr 2
    funext x
    rw [← pattern_turned]
    rfl
  · obtain ⟨R, hR, hsq⟩ := squares_misfit fform.getKeys fform.getM
      (fun k m => fformEffect (.phaseShift (.sym psi)) m (F k m)) y (N := N) (fun k hk => by rw [hM]; exact hN k hk)
    simp only [squares_turned] at hsq
    rw [hM] at hsq
    have hm0 := fun r' => (C57_zero_iff fform.getKeys fform.getM (fun k m => fformEffect (.phaseShift (.sym psi)) m (F k m))
      (fun k m => dft (N k) (y k) m) r').1
    have hn := fun r' => sqrt_misfit fform.getKeys fform.getM (fun k m => fformEffect (.phaseShift (.sym psi)) m (F k m)) hδ
      (fun k hk m h1 h2 => (hD k hk m h1 h2).2) r'
    rw [hM] at hm0 hn g6
    have h33 : ((fform.getKeys.length : ℝ) * (2 * ((16 : ℕ) : ℝ) + 1)) = fform.getKeys.length * 33 := by push_cast; ring
    simp only [h33] at hn
    refine ⟨R, hR, fun r' => ⟨?_, fun hr' => ?_⟩⟩
    · rw [hsq]; have := hm0 r'; linarith
    · rw [hsq, hsq, add_sub_cancel_right, add_sub_cancel_right]
      have n1 := abs_le.1 (hn r)
      have n2 := abs_le.1 (hn r')
      have := g6 r' hr'
      linarith

/-- What the two scripts have in common up to the fit. -/
theorem scripts_start {R : Repr} {float : Key → Option ℝ} {csv : CsvFiles} {files : Files} {interp : Interp} {names : Dict Key Key}
    {units fformName : Key} {dat : DataContainer ℝ} (hdat : loadData float csv names units false = .ok dat)
    (hform : loadFform S R files fformName = .ok fform) (hF : FormulaIs fform F)
    {N : Key → ℕ} {y : Key → ℝ → ℝ}
    (hi : ∀ k pts, dat.getPc k sRadians = .ok pts → 32 < pts.length ∧ interp pts = .ok (y k) ∧ pts.length = N k) :
    ∃ fdat c, loadDataAndFourierTransform float csv interp names units none 16 false 1 false = .ok (dat, fdat) ∧
      shiftByPsi S fform = .ok c ∧ c.Reachable S ∧ Symbolic c ∧ c.getM = 16 ∧ c.getKeys = fform.getKeys ∧
      FormulaIs c (fun k m => fformEffect (.phaseShift (.sym psi)) m (F k m)) ∧ fdat.getM = 16 ∧
      ∀ k ∈ dat.getKeys, 32 < N k ∧ ∀ m : ℤ, -(16 : ℤ) ≤ m → m ≤ 16 → DRepresents fdat k m (dft (N k) (y k) m) := by
  have hd : dat.Reachable := by
    unfold loadData at hdat
    obtain ⟨v, _, hdat⟩ := bind_ok hdat
    obtain ⟨⟨c, w⟩, h1, hdat⟩ := bind_ok hdat
    cases hdat
    exact ⟨_, _, _, _, _, [], h1, rfl⟩
  have hc : fform.Reachable S ∧ fform.getM = 16 := by
    unfold loadFform at hform
    split at hform
    · cases hform
    · obtain ⟨v, _, hform⟩ := bind_ok hform
      exact ⟨⟨_, _, _, [], hform, rfl⟩, (FFormContainer.init_good hform).2⟩
  obtain ⟨fdat, h1, _, _, h2, h3⟩ := C89_transform hd 16 (fun k pts h => ⟨by have := (hi k pts h).1; omega, (hi k pts h).2.1⟩)
  have hload : loadDataAndFourierTransform float csv interp names units none 16 false 1 false = .ok (dat, fdat) :=
    (C35_composition float csv interp names units none 16 false false dat fdat).2 ⟨dat, hdat, by simp, h1⟩
  have hstep := FFormContainer.step_shift S hc.1.good (.sym psi)
  obtain ⟨s1, s2, s3⟩ := C32_fform_step S hc.1 (.phaseShift (.sym psi))
  have hrep : ∀ k m f, FRepresents fform k m f →
      FRepresents (FFormContainer.step S fform (.phaseShift (.sym psi))).1 k m (fformEffect (.phaseShift (.sym psi)) m f) := by
    rcases s3 with h | ⟨_, _, pairs, h⟩
    · exact h.2
    · cases h
  have hreach := shifted_reachable S hc.1 (.sym psi)
  refine ⟨fdat, (FFormContainer.step S fform (.phaseShift (.sym psi))).1, hload, ?_, hreach, ?_, s2.trans hc.2, s1, ?_, h2, ?_⟩
  · unfold shiftByPsi
    rw [hstep]
  · rw [FFormContainer.symbolic_iff hreach.good, hstep]
    intro it hit
    obtain ⟨it', _, rfl⟩ := List.mem_map.1 hit
    rfl
  · intro k hk m hm1 hm2
    rw [s1] at hk
    rw [s2] at hm1 hm2
    exact hrep k m _ (hF k hk m hm1 hm2)
  · intro k hk
    obtain ⟨pts, hp⟩ := Dict.mem_keys.1 hk
    have hp' : dat.getPc k sRadians = .ok pts := by
      rw [getPc_radians, Dict.get_ok_iff]; exact (Dict.get?_eq_some_iff (reachable_normalForm hd).1).2 hp
    obtain ⟨i1, i2, i3⟩ := hi k pts hp'
    refine ⟨i3 ▸ i1, fun m hm1 hm2 => ?_⟩
    rw [← i3]
    exact h3 k pts hp' m hm1 hm2

/-- **C113.**  The script `fit_fform_example.py`, for any data files and any stored formula that load: if every combination of the
formula is measured, with more than 32 points, the script fails only if the optimizer fails (never, if the optimizer finds what
there is to find), and otherwise it returns the measured data
and the best turned curve, up to what the optimizer misses (`ε`) and what the rounding of the Fourier components (`δ`) makes of it. -/
theorem C113_fit {R : Repr} {float : Key → Option ℝ} {csv : CsvFiles} {files : Files} {interp : Interp} {names : Dict Key Key}
    {units fformName : Key} {dat : DataContainer ℝ} (hdat : loadData float csv names units false = .ok dat)
    (hform : loadFform S R files fformName = .ok fform) (hF : FormulaIs fform F) (hk : ∀ k ∈ fform.getKeys, k ∈ dat.getKeys)
    {N : Key → ℕ} {y : Key → ℝ → ℝ}
    (hi : ∀ k pts, dat.getPc k sRadians = .ok pts → 32 < pts.length ∧ interp pts = .ok (y k) ∧ pts.length = N k)
    (hε : 0 ≤ ε) (ho : LeastSquaresTo ε opt) (hfl : ReturnsFloats opt) {δ : ℝ} (hδ : 0 ≤ δ)
    {rnd : FDataContainer → FDataContainer} (hrnd : RoundsTo δ rnd) (d : Disk) :
    (∀ e, fitExample S C R float csv files interp rnd opt d names units fformName = .error e → ∃ call, opt call = .error e) ∧
    (0 < ε → FindsFloats ε opt → ∃ out, fitExample S C R float csv files interp rnd opt d names units fformName = .ok out) ∧
    ∀ dat' ret fit w, fitExample S C R float csv files interp rnd opt d names units fformName = .ok (dat', ret, fit, w) →
      dat' = dat ∧ w = [] ∧ BestCurve (ε + 2 * (δ * √(fform.getKeys.length * 33))) fform.getKeys F N y ret fit := by
  obtain ⟨fdat, c, h1, h2, h3, h4, h5, h6, h7, h8, h9⟩ := scripts_start S hdat hform hF hi
  obtain ⟨t1, t3, t2⟩ := fitAndDraw_turned S C hε ho hfl hδ hrnd d h3 h4 h5 h7 (h8.trans h5.symm)
    (fun k hkk => (h9 k (hk k (h6 ▸ hkk))).1)
    (fun k hkk m hm1 hm2 => (h9 k (hk k (h6 ▸ hkk))).2 m (by rw [h5] at hm1; exact hm1) (by rw [h5] at hm2; exact hm2))
  unfold fitExample
  rw [h1]
  simp only [ok_bind, hform, h2]
  rw [h6] at t2
  cases hfd : fitAndDraw S C opt d c (rnd fdat) with
  | error e =>
    refine ⟨fun e' h => ?_, fun h h' => ?_, fun _ _ _ _ h => by cases h⟩
    · cases h
      exact t1 e hfd
    · obtain ⟨out, ho'⟩ := t3 h h'
      rw [hfd] at ho'
      cases ho'
  | ok out =>
    obtain ⟨ret, fit, w⟩ := out
    refine ⟨fun e' h => (by cases h), fun _ _ => ⟨_, rfl⟩, fun _ _ _ _ h => ?_⟩
    cases h
    exact ⟨rfl, t2 _ _ _ hfd⟩

/-- **C113, with a selection of combinations.**  The same for the script `fit_partial_fform_example.py`; only the combinations that are
selected must be measured. -/
theorem C113_partial_formula {R : Repr} {float : Key → Option ℝ} {csv : CsvFiles} {files : Files} {interp : Interp} {names : Dict Key Key}
    {units fformName : Key} {dat : DataContainer ℝ} (hdat : loadData float csv names units false = .ok dat)
    (hform : loadFform S R files fformName = .ok fform) (hF : FormulaIs fform F) {pcs : List Key}
    (hk : ∀ k ∈ fform.getKeys, k ∈ pcs → k ∈ dat.getKeys) {N : Key → ℕ} {y : Key → ℝ → ℝ}
    (hi : ∀ k pts, dat.getPc k sRadians = .ok pts → 32 < pts.length ∧ interp pts = .ok (y k) ∧ pts.length = N k)
    (hε : 0 ≤ ε) (ho : LeastSquaresTo ε opt) (hfl : ReturnsFloats opt) {δ : ℝ} (hδ : 0 ≤ δ)
    {rnd : FDataContainer → FDataContainer} (hrnd : RoundsTo δ rnd) (d : Disk) :
    let keys := fform.getKeys.filter (fun k => decide (k ∈ pcs))
    (∀ e, fitPartialExample S C R float csv files interp rnd opt d names units fformName pcs = .error e → ∃ call, opt call = .error e) ∧
    (0 < ε → FindsFloats ε opt → ∃ out, fitPartialExample S C R float csv files interp rnd opt d names units fformName pcs = .ok out) ∧
    ∀ dat' ret fit w, fitPartialExample S C R float csv files interp rnd opt d names units fformName pcs = .ok (dat', ret, fit, w) →
      dat' = dat ∧ w = [] ∧ BestCurve (ε + 2 * (δ * √(keys.length * 33))) keys F N y ret fit := by
  intro keys
  obtain ⟨fdat, c, h1, h2, h3, h4, h5, h6, h7, h8, h9⟩ := scripts_start S hdat hform hF hi
  obtain ⟨sub, u1, u2, u3, u4, u5⟩ := C102_selection S h3 h4 pcs
  have hkeys : sub.getKeys = keys := by rw [u4, h6]
  have hmem : ∀ k ∈ sub.getKeys, k ∈ fform.getKeys ∧ k ∈ pcs := by
    intro k hkk
    rw [hkeys] at hkk
    simpa [keys] using hkk
  have hsym : Symbolic sub := by
    intro k a ha
    have hkk : k ∈ sub.getKeys := Dict.mem_keys_of_mem (Dict.mem_of_get? (Dict.get_ok_iff.1 ha))
    exact h4 k a (by rw [← u5 k (hmem k hkk).2]; exact ha)
  have hFs : FormulaIs sub (fun k m => fformEffect (.phaseShift (.sym psi)) m (F k m)) := by
    intro k hkk m hm1 hm2
    rw [u3] at hm1 hm2
    obtain ⟨a, o, e1, e2, e3⟩ := h7 k (by rw [h6]; exact (hmem k hkk).1) m hm1 hm2
    exact ⟨a, o, by rw [u5 k (hmem k hkk).2]; exact e1, by rw [u3]; exact e2, e3⟩
  obtain ⟨t1, t3, t2⟩ := fitAndDraw_turned S C hε ho hfl hδ hrnd d u2 hsym (u3.trans h5) hFs (h8.trans (u3.trans h5).symm)
    (fun k hkk => (h9 k (hk k (hmem k hkk).1 (hmem k hkk).2)).1)
    (fun k hkk m hm1 hm2 => (h9 k (hk k (hmem k hkk).1 (hmem k hkk).2)).2 m (by rw [u3, h5] at hm1; exact hm1)
      (by rw [u3, h5] at hm2; exact hm2))
  unfold fitPartialExample
  rw [h1]
  rw [h5] at u1
  simp only [ok_bind, hform, h2, u1]
  rw [hkeys] at t2
  cases hfd : fitAndDraw S C opt d sub (rnd fdat) with
  | error e =>
    refine ⟨fun e' h => ?_, fun h h' => ?_, fun _ _ _ _ h => by cases h⟩
    · cases h
      exact t1 e hfd
    · obtain ⟨out, ho'⟩ := t3 h h'
      rw [hfd] at ho'
      cases ho'
  | ok out =>
    obtain ⟨ret, fit, w⟩ := out
    refine ⟨fun e' h => (by cases h), fun _ _ => ⟨_, rfl⟩, fun _ _ _ _ h => ?_⟩
    cases h
    exact ⟨rfl, t2 _ _ _ hfd⟩

end

/-! ## A concrete case -/

open Classical in
/-- An optimizer that returns rational numbers that are as good as any other point up to `ε`, if there are such numbers. -/
noncomputable def floatLeastSquares (ε : ℝ) : Optimizer LSCall := fun call =>
  let allowed := fun y : List ℝ => y.length = call.x0.length ∧ ∀ b, call.bounds = some b → Between (b.1.zip b.2) y
  if h : ∃ x, allowed x ∧ (∀ a ∈ x, ∃ q : ℚ, (q : ℝ) = a) ∧ ∀ y, allowed y → |call.func x| ≤ |call.func y| + ε then .ok h.choose
  else .error .valueError

theorem floatLeastSquares_spec (ε : ℝ) :
    LeastSquaresTo ε (floatLeastSquares ε) ∧ ReturnsFloats (floatLeastSquares ε) ∧ FindsFloats ε (floatLeastSquares ε) := by
  have key : ∀ call x, floatLeastSquares ε call = .ok x →
      (x.length = call.x0.length ∧ ∀ b, call.bounds = some b → Between (b.1.zip b.2) x) ∧ (∀ a ∈ x, ∃ q : ℚ, (q : ℝ) = a) ∧
      ∀ y : List ℝ, (y.length = call.x0.length ∧ ∀ b, call.bounds = some b → Between (b.1.zip b.2) y) →
        |call.func x| ≤ |call.func y| + ε := by
    intro call x hx
    unfold floatLeastSquares at hx
    dsimp only at hx
    split_ifs at hx with h
    cases hx
    exact h.choose_spec
  refine ⟨fun call x hx => ⟨(key call x hx).1, (key call x hx).2.2⟩, fun call x hx => (key call x hx).2.1, fun call => ?_⟩
  intro allowed h
  unfold floatLeastSquares
  dsimp only
  rw [dif_pos h]
  exact ⟨_, rfl⟩

theorem exists_machine_near {δ : ℝ} (hδ : 0 < δ) (z : ℂ) : ∃ z', MachineNumber z' ∧ ‖z' - z‖ ≤ δ := by
  obtain ⟨a, a1, a2⟩ := exists_rat_btwn (show z.re < z.re + δ / 2 by linarith)
  obtain ⟨b, b1, b2⟩ := exists_rat_btwn (show z.im < z.im + δ / 2 by linarith)
  refine ⟨(a : ℂ) + (b : ℂ) * Complex.I, ⟨a, b, rfl⟩, ?_⟩
  refine (Complex.norm_le_abs_re_add_abs_im _).trans ?_
  have h1 : ((a : ℂ) + (b : ℂ) * Complex.I - z).re = a - z.re := by simp
  have h2 : ((a : ℂ) + (b : ℂ) * Complex.I - z).im = b - z.im := by simp
  rw [h1, h2, abs_of_pos (by linarith), abs_of_pos (by linarith)]
  linarith

open Classical in
/-- A machine number within `δ`. -/
noncomputable def nearNumber (δ : ℝ) (z : ℂ) : ℂ := if h : ∃ z', MachineNumber z' ∧ ‖z' - z‖ ≤ δ then h.choose else z

/-- Rounding of all components to machine numbers within `δ`. -/
noncomputable def nearRound (δ : ℝ) (c : FDataContainer) : FDataContainer :=
  { c with fdata := c.fdata.mapVals (fun v => v.map (nearNumber δ)) }

theorem nearRound_spec {δ : ℝ} (hδ : 0 < δ) : RoundsTo δ (nearRound δ) := by
  intro c
  refine ⟨rfl, ?_⟩
  rintro k m z ⟨v, h1, h2, h3⟩
  have hz : MachineNumber (nearNumber δ z) ∧ ‖nearNumber δ z - z‖ ≤ δ := by
    unfold nearNumber
    rw [dif_pos (exists_machine_near hδ z)]
    exact (exists_machine_near hδ z).choose_spec
  refine ⟨nearNumber δ z, ⟨v.map (nearNumber δ), ?_, h2, ?_⟩, hz.1, hz.2⟩
  · show Dict.get _ k = _
    rw [Dict.get_ok_iff, nearRound, Dict.get?_mapVals, Dict.get_ok_iff.1 h1]
    rfl
  · have h3' : v[(m + (c.getM : ℤ)).toNat]? = some z := h3
    show (v.map (nearNumber δ))[(m + (c.getM : ℤ)).toNat]? = _
    rw [List.getElem?_map, h3']
    rfl

namespace FitCases

/-- Texts of the example: `x…x` stands for its length, and `y` for a quarter. -/
noncomputable def unaryFloat : Key → Option ℝ := fun s => if s = ['y'] then some (1 / 4) else some s.length

/-- A file with 36 points, ten degrees apart. -/
def unaryCsv : CsvFiles := fun _ => some ((List.range 36).map (fun j => [List.replicate (10 * j) 'x', ['y']]))

theorem unary_samples_all (names : Dict Key Key) : FilesSample unaryFloat unaryCsv names sDegrees 36 (fun _ _ => 1 / 4) := by
  intro k' n _
  refine ⟨(List.range 36).map (fun j : ℕ => (10 * (j : ℝ), 1 / 4)), ⟨_, rfl, ?_⟩, ?_⟩
  · rw [List.forall₂_map_left_iff, List.forall₂_map_right_iff]
    refine List.forall₂_same.2 (fun j _ => ⟨_, _, _, rfl, ?_, ?_⟩)
    · have : List.replicate (10 * j) 'x' ≠ ['y'] := by
        intro h
        have := congrArg List.length h
        simp at this
      simp [unaryFloat, this]
    · simp [unaryFloat]
  · unfold sampled
    rw [List.map_map]
    refine List.map_congr_left (fun j _ => ?_)
    simp only [Function.comp_apply, rad, if_true, gridAngle, Prod.mk.injEq, and_true]
    show (10 * (j : ℝ)) * (Real.pi / 180) = 2 * Real.pi * j / ((36 : ℕ) : ℝ)
    push_cast
    ring

theorem unary_samples (k : Key) : FilesSample unaryFloat unaryCsv [(k, ['f'])] sDegrees 36 (fun _ _ => 1 / 4) := unary_samples_all _

/-- The hypotheses of `C113_fit` are met, with success, for any `ε` and `δ`. -/
example {ε δ : ℝ} (hε : 0 < ε) (hδ : 0 < δ) : ∃ F dat ret fit, FormulaIs exFF F ∧
    fitExample Sympy.plain compiler exRepr unaryFloat unaryCsv (saveFform exRepr (fun _ => none) exFF ['s']) (fun _ => .ok (fun _ => 1 / 4))
      (nearRound δ) (floatLeastSquares ε) noFiles [(kPP, ['f'])] sDegrees ['s'] = .ok (dat, ret, fit, []) ∧
    BestCurve (ε + 2 * (δ * √(exFF.getKeys.length * 33))) exFF.getKeys F (fun _ => 36) (fun _ _ => 1 / 4) ret fit := by
  obtain ⟨F, hF⟩ := formulaIs_exists Sympy.plain exFF_reachable
  obtain ⟨dat, l1, _, l2, l3⟩ := loadData_sampled (Or.inr rfl) (by simp [Dict.WF, Dict.keys]) (by norm_num) (unary_samples kPP)
  obtain ⟨o1, o2, o3⟩ := floatLeastSquares_spec ε
  obtain ⟨-, t2, t3⟩ := C113_fit Sympy.plain compiler l1 (C33_round_trip_partial Sympy.plain exRepr (fun _ => none) ['s'] exFF_reachable
    exFF_symbolic rfl) hF (by rw [l2]; exact fun k hk => hk) (interp := fun _ => .ok (fun _ => 1 / 4)) (N := fun _ => 36)
    (y := fun _ _ => 1 / 4) (fun k pts h => by
      have hk : k ∈ dat.getKeys := by
        rw [getPc_radians] at h
        exact Dict.mem_keys_of_mem (Dict.mem_of_get? (Dict.get_ok_iff.1 h))
      rw [l3 k (l2 ▸ hk)] at h
      cases h
      simp [sampled]) hε.le o1 o2 hδ.le (nearRound_spec hδ) noFiles
  obtain ⟨⟨dat', ret, fit, w⟩, h⟩ := t2 hε o3
  obtain ⟨rfl, rfl, hb⟩ := t3 _ _ _ _ h
  exact ⟨F, dat', ret, fit, hF, h, hb⟩

/-- The hypotheses of `C113_partial_formula` are met, with success. -/
example {ε δ : ℝ} (hε : 0 < ε) (hδ : 0 < δ) : ∃ F dat ret fit, FormulaIs exFF F ∧
    fitPartialExample Sympy.plain compiler exRepr unaryFloat unaryCsv (saveFform exRepr (fun _ => none) exFF ['s'])
      (fun _ => .ok (fun _ => 1 / 4)) (nearRound δ) (floatLeastSquares ε) noFiles [(kPP, ['f'])] sDegrees ['s'] [kPP] =
        .ok (dat, ret, fit, []) ∧
    BestCurve (ε + 2 * (δ * √(1 * 33))) [kPP] F (fun _ => 36) (fun _ _ => 1 / 4) ret fit := by
  obtain ⟨F, hF⟩ := formulaIs_exists Sympy.plain exFF_reachable
  obtain ⟨dat, l1, _, l2, l3⟩ := loadData_sampled (Or.inr rfl) (by simp [Dict.WF, Dict.keys]) (by norm_num) (unary_samples kPP)
  obtain ⟨o1, o2, o3⟩ := floatLeastSquares_spec ε
  obtain ⟨-, t2, t3⟩ := C113_partial_formula Sympy.plain compiler l1 (C33_round_trip_partial Sympy.plain exRepr (fun _ => none) ['s']
    exFF_reachable exFF_symbolic rfl) hF (pcs := [kPP]) (by rw [l2]; exact fun k hk _ => hk) (interp := fun _ => .ok (fun _ => 1 / 4))
    (N := fun _ => 36) (y := fun _ _ => 1 / 4) (fun k pts h => by
      have hk : k ∈ dat.getKeys := by
        rw [getPc_radians] at h
        exact Dict.mem_keys_of_mem (Dict.mem_of_get? (Dict.get_ok_iff.1 h))
      rw [l3 k (l2 ▸ hk)] at h
      cases h
      simp [sampled]) hε.le o1 o2 hδ.le (nearRound_spec hδ) noFiles
  obtain ⟨⟨dat', ret, fit, w⟩, h⟩ := t2 hε o3
  obtain ⟨rfl, rfl, hb⟩ := t3 _ _ _ _ h
  refine ⟨F, dat', ret, fit, hF, h, ?_⟩
  have : exFF.getKeys.filter (fun k => decide (k ∈ [kPP])) = [kPP] := rfl
  rw [this] at hb
  simpa using hb

end FitCases

end Shgpy
