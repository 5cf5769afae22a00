import Verif.Spec.StepInterp
import Verif.Props.Cubic
import Mathlib.Analysis.SpecialFunctions.Trigonometric.Bounds

/-! Lemmas about the interpolations that return measured values. -/

set_option linter.unusedSectionVars false

namespace Shgpy
open Spec

theorem countP_down {l : List ℝ} (hl : l.Pairwise (· ≤ ·)) (p : ℝ → Bool) (hp : ∀ a b, a ≤ b → p b = true → p a = true) (j : ℕ)
    (hj : j < l.length) : p l[j] = true ↔ j < l.countP p := by
  induction l generalizing j with
  | nil => simp at hj
  | cons a l ih =>
    rw [List.pairwise_cons] at hl
    by_cases ha : p a = true
    · rw [List.countP_cons_of_pos ha]
      cases j with
      | zero => simpa using ha
      | succ j =>
        simp only [List.getElem_cons_succ, Nat.add_lt_add_iff_right]
        exact ih hl.2 j (by simpa using hj)
    · have h0 : l.countP p = 0 := by
        rw [List.countP_eq_zero]
        intro b hb h
        exact ha (hp a b (hl.1 b hb) h)
      rw [List.countP_cons_of_neg ha, h0]
      simp only [Nat.not_lt_zero, iff_false]
      cases j with
      | zero => simpa using ha
      | succ j =>
        simp only [List.getElem_cons_succ]
        exact fun h => ha (hp _ _ (hl.1 _ (List.getElem_mem _)) h)

theorem middles_length (xs : List ℝ) : (middles xs).length = xs.length - 1 := by
  unfold middles
  simp

theorem middles_getElem {xs : List ℝ} {i : ℕ} (h : i < (middles xs).length) (h1 : i < xs.length) (h2 : i + 1 < xs.length) :
    (middles xs)[i] = xs[i + 1] / 2 + xs[i] / 2 := by
  simp only [middles, List.getElem_zipWith, List.getElem_tail]

theorem middles_sorted {xs : List ℝ} (hx : xs.Pairwise (· ≤ ·)) : (middles xs).Pairwise (· ≤ ·) := by
  rw [List.pairwise_iff_getElem] at hx ⊢
  intro i j hi hj hij
  have hl := middles_length xs
  rw [middles_getElem hi (by omega) (by omega), middles_getElem hj (by omega) (by omega)]
  have h1 := hx i j (by omega) (by omega) hij
  have h2 := hx (i + 1) (j + 1) (by omega) (by omega) (by omega)
  linarith

theorem index_lt {xs : List ℝ} (h : xs ≠ []) (kind : StepKind) (x : ℝ) : kind.index xs x < xs.length := by
  have := List.length_pos_iff.2 h
  cases kind <;> unfold StepKind.index <;> dsimp only <;> omega

/-- The value that is returned is that of the chosen point, if there is one. -/
theorem index_chosen {pts : List (ℝ × ℝ)} (hne : pts ≠ []) (hs : pts.Pairwise (fun p q => p.1 ≤ q.1)) (kind : StepKind) {x : ℝ}
    (hex : ∃ p, Chosen kind pts x p) : Chosen kind pts x (pts.getD (kind.index (pts.map Prod.fst) x) (0, 0)) := by
  have hx : (pts.map Prod.fst).Pairwise (· ≤ ·) := List.pairwise_map.2 hs
  have hlt := index_lt (xs := pts.map Prod.fst) (by simpa using hne) kind x
  rw [List.length_map] at hlt
  have hsort : ∀ i j (hi : i < pts.length) (hj : j < pts.length), i ≤ j → pts[i].1 ≤ pts[j].1 := by
    intro i j hi hj hij
    rcases hij.eq_or_lt with rfl | h
    · exact le_rfl
    · exact List.pairwise_iff_getElem.1 hs i j hi hj h
  have hget : ∀ n (hn : n < pts.length), pts.getD n (0, 0) = pts[n] := by
    intro n hn
    rw [List.getD_eq_getElem?_getD, List.getElem?_eq_getElem hn]
    rfl
  cases kind with
  | nearest =>
    have hml := middles_length (pts.map Prod.fst)
    rw [List.length_map] at hml
    have hc := fun j (hj : j < (middles (pts.map Prod.fst)).length) =>
      countP_down (middles_sorted hx) (fun a => decide (a < x)) (fun a b hab hb => by simp only [decide_eq_true_eq] at hb ⊢; linarith) j hj
    have hcl : (middles (pts.map Prod.fst)).countP (fun a => decide (a < x)) ≤ pts.length - 1 := hml ▸ List.countP_le_length
    have hidx : StepKind.nearest.index (pts.map Prod.fst) x = (middles (pts.map Prod.fst)).countP (fun a => decide (a < x)) := by
      unfold StepKind.index
      dsimp only
      rw [List.length_map]
      exact min_eq_left hcl
    rw [hidx] at hlt ⊢
    generalize (middles (pts.map Prod.fst)).countP (fun a => decide (a < x)) = n at hc hlt hcl ⊢
    rw [hget n hlt]
    refine ⟨List.getElem_mem _, fun q hq => ?_⟩
    obtain ⟨i, hi, rfl⟩ := List.getElem_of_mem hq
    rcases lt_trichotomy i n with h | h | h
    · have h1 := (hc (n - 1) (by omega)).2 (by omega)
      rw [middles_getElem (by omega) (by simp; omega) (by simp; omega)] at h1
      simp only [List.getElem_map, decide_eq_true_eq, Nat.sub_add_cancel (by omega : 1 ≤ n)] at h1
      have h2 := hsort i (n - 1) hi (by omega) (by omega)
      have h3 := hsort (n - 1) n (by omega) hlt (by omega)
      have h4 := le_abs_self (x - pts[i].1)
      rw [abs_le]
      constructor <;> linarith
    · subst h; exact le_rfl
    · have h1 := mt (hc n (by omega)).1 (lt_irrefl _)
      rw [middles_getElem (by omega) (by simp; omega) (by simp; omega)] at h1
      simp only [List.getElem_map, decide_eq_true_eq, not_lt] at h1
      have h2 := hsort (n + 1) i (by omega) hi (by omega)
      have h3 := hsort n (n + 1) hlt (by omega) (by omega)
      have h4 := neg_le_abs (x - pts[i].1)
      rw [abs_le]
      constructor <;> linarith
  | previous =>
    have hc := fun j (hj : j < (pts.map Prod.fst).length) =>
      countP_down hx (fun a => decide (a ≤ x)) (fun a b hab hb => by simp only [decide_eq_true_eq] at hb ⊢; linarith) j hj
    have hcl : (pts.map Prod.fst).countP (fun a => decide (a ≤ x)) ≤ pts.length := by
      have := List.countP_le_length (p := fun a : ℝ => decide (a ≤ x)) (l := pts.map Prod.fst)
      rwa [List.length_map] at this
    obtain ⟨p, hp, hpx, _⟩ := hex
    obtain ⟨i₀, hi₀, rfl⟩ := List.getElem_of_mem hp
    have h0 := (hc i₀ (by simpa using hi₀)).1 (by simpa using hpx)
    have hidx : StepKind.previous.index (pts.map Prod.fst) x = (pts.map Prod.fst).countP (fun a => decide (a ≤ x)) - 1 := by
      unfold StepKind.index
      dsimp only
      rw [List.length_map]
      omega
    rw [hidx] at hlt ⊢
    generalize (pts.map Prod.fst).countP (fun a => decide (a ≤ x)) = n at hc hlt hcl h0 ⊢
    rw [hget (n - 1) hlt]
    have h1 := (hc (n - 1) (by simp; omega)).2 (by omega)
    refine ⟨List.getElem_mem _, by simpa using h1, fun q hq hqx => ?_⟩
    obtain ⟨i, hi, rfl⟩ := List.getElem_of_mem hq
    have h2 := (hc i (by simpa using hi)).1 (by simpa using hqx)
    exact hsort i (n - 1) hi hlt (by omega)
  | next =>
    have hc := fun j (hj : j < (pts.map Prod.fst).length) =>
      countP_down hx (fun a => decide (a < x)) (fun a b hab hb => by simp only [decide_eq_true_eq] at hb ⊢; linarith) j hj
    obtain ⟨p, hp, hpx, _⟩ := hex
    obtain ⟨i₀, hi₀, rfl⟩ := List.getElem_of_mem hp
    have h0 := mt (hc i₀ (by simpa using hi₀)).2 (by simpa using hpx)
    have hidx : StepKind.next.index (pts.map Prod.fst) x = (pts.map Prod.fst).countP (fun a => decide (a < x)) := by
      unfold StepKind.index
      dsimp only
      rw [List.length_map]
      omega
    rw [hidx] at hlt ⊢
    generalize (pts.map Prod.fst).countP (fun a => decide (a < x)) = n at hc hlt h0 ⊢
    rw [hget n hlt]
    have h1 := mt (hc n (by simpa using hlt)).1 (lt_irrefl _)
    refine ⟨List.getElem_mem _, by simpa using h1, fun q hq hqx => ?_⟩
    obtain ⟨i, hi, rfl⟩ := List.getElem_of_mem hq
    have h2 := mt (hc i (by simpa using hi)).2 (by simpa using hqx)
    exact hsort n i hlt hi (by omega)

theorem stepInterp_ok {pts : List (ℝ × ℝ)} {kind : StepKind} (h : pts ≠ []) (hu : ¬ kind.Undefined (pts.map Prod.fst)) :
    stepInterp kind pts = .ok (fun x => (pts.getD (kind.index (pts.map Prod.fst) x) (0, 0)).2) := by
  unfold stepInterp
  rw [if_neg (by tauto)]

/-- A nearest, last or first one among finitely many. -/
theorem exists_chosen {pts : List (ℝ × ℝ)} {x : ℝ} {kind : StepKind}
    (h : ∃ p ∈ pts, match kind with | .nearest => True | .previous => p.1 ≤ x | .next => x ≤ p.1) : ∃ p, Chosen kind pts x p := by
  obtain ⟨p, hp, hx⟩ := h
  have hfin : ∀ (f : ℝ × ℝ → ℝ) (P : ℝ × ℝ → Prop), P p → ∃ r ∈ pts, P r ∧ ∀ q ∈ pts, P q → f r ≤ f q := by
    classical
    intro f P hP
    obtain ⟨r, hr, hle⟩ := Finset.exists_min_image (pts.toFinset.filter P) f ⟨p, by simp [hp, hP]⟩
    simp only [Finset.mem_filter, List.mem_toFinset, and_imp] at hr hle
    exact ⟨r, hr.1, hr.2, hle⟩
  cases kind with
  | nearest =>
    obtain ⟨r, hr, _, hle⟩ := hfin (fun q => |x - q.1|) (fun _ => True) trivial
    exact ⟨r, hr, fun q hq => hle q hq trivial⟩
  | previous =>
    obtain ⟨r, hr, h1, hle⟩ := hfin (fun q => -q.1) (fun q => q.1 ≤ x) hx
    exact ⟨r, hr, h1, fun q hq hqx => neg_le_neg_iff.1 (hle q hq hqx)⟩
  | next =>
    obtain ⟨r, hr, h1, hle⟩ := hfin (fun q => q.1) (fun q => x ≤ q.1) hx
    exact ⟨r, hr, h1, fun q hq hqx => hle q hq hqx⟩

theorem Spec.Within.chosen {kind : StepKind} {d : ℝ} {pts : List (ℝ × ℝ)} (h : Within kind d pts) {j : ℕ} (hj : j < pts.length) :
    ∃ p, Chosen kind pts (gridAngle pts.length j) p := by
  apply exists_chosen
  cases kind with
  | nearest => obtain ⟨p, hp, _⟩ := h j hj; exact ⟨p, hp, trivial⟩
  | previous => obtain ⟨p, hp, h1, _⟩ := h j hj; exact ⟨p, hp, h1⟩
  | next => obtain ⟨p, hp, h1, _⟩ := h j hj; exact ⟨p, hp, h1⟩

/-- The chosen angle is within the distance. -/
theorem Spec.Within.close {kind : StepKind} {d : ℝ} {pts : List (ℝ × ℝ)} (h : Within kind d pts) {j : ℕ} (hj : j < pts.length) {p : ℝ × ℝ}
    (hp : Chosen kind pts (gridAngle pts.length j) p) : |gridAngle pts.length j - p.1| ≤ d := by
  cases kind with
  | nearest => obtain ⟨q, hq, h1⟩ := h j hj; exact (hp.2 q hq).trans h1
  | previous =>
    obtain ⟨q, hq, h1, h2⟩ := h j hj
    have := hp.2.2 q hq h1
    have := hp.2.1
    rw [abs_le]
    constructor <;> linarith
  | next =>
    obtain ⟨q, hq, h1, h2⟩ := h j hj
    have := hp.2.2 q hq h1
    have := hp.2.1
    rw [abs_le]
    constructor <;> linarith

theorem Spec.Within.defined {kind : StepKind} {d : ℝ} {pts : List (ℝ × ℝ)} (h : Within kind d pts) (hne : pts ≠ [])
    (hs : pts.Pairwise (fun p q => p.1 ≤ q.1)) : ¬ kind.Undefined (pts.map Prod.fst) := by
  have hpos := List.length_pos_iff.2 hne
  have hget : ∀ i (hi : i < pts.length), (pts.map Prod.fst).getD i 0 = pts[i].1 := by
    intro i hi
    rw [List.getD_eq_getElem?_getD, List.getElem?_map, List.getElem?_eq_getElem hi]
    rfl
  have hsort : ∀ i j (hi : i < pts.length) (hj : j < pts.length), i ≤ j → pts[i].1 ≤ pts[j].1 := by
    intro i j hi hj hij
    rcases hij.eq_or_lt with rfl | h
    · exact le_rfl
    · exact List.pairwise_iff_getElem.1 hs i j hi hj h
  cases kind with
  | nearest => exact fun h => h
  | previous =>
    obtain ⟨p, hp, h1, _⟩ := h 0 hpos
    obtain ⟨i, hi, rfl⟩ := List.getElem_of_mem hp
    unfold StepKind.Undefined
    dsimp only
    rw [hget 0 hpos, not_lt]
    have : gridAngle pts.length 0 = 0 := by unfold gridAngle; simp
    exact (hsort 0 i hpos hi (by omega)).trans (this ▸ h1)
  | next =>
    obtain ⟨p, hp, h1, _⟩ := h (pts.length - 1) (by omega)
    obtain ⟨i, hi, rfl⟩ := List.getElem_of_mem hp
    unfold StepKind.Undefined
    dsimp only
    rw [List.length_map, hget (pts.length - 1) (by omega), not_lt]
    exact h1.trans (hsort i (pts.length - 1) hi (by omega) (by omega))

/-! ### Patterns -/

theorem harmonic_close (m : ℤ) (x y : ℝ) : ‖harmonic m x - harmonic m y‖ ≤ |(m : ℝ)| * |x - y| := by
  have e : harmonic m x - harmonic m y = harmonic m y * (Complex.exp (Complex.I * ((m * (x - y) : ℝ) : ℂ)) - 1) := by
    unfold harmonic
    rw [mul_sub, ← Complex.exp_add, mul_one]
    congr 2
    push_cast
    ring
  have hn : ‖harmonic m y‖ = 1 := by
    unfold harmonic
    rw [show Complex.I * ((m : ℂ) * (y : ℂ)) = ((m * y : ℝ) : ℂ) * Complex.I by push_cast; ring, Complex.norm_exp_ofReal_mul_I]
  rw [e, norm_mul, hn, one_mul]
  refine Real.norm_exp_I_mul_ofReal_sub_one_le.trans ?_
  rw [Real.norm_eq_abs, abs_mul]

theorem pattern_close (M : ℕ) (c : ℤ → ℂ) (x y : ℝ) : ‖pattern M c x - pattern M c y‖ ≤ steepness M c * |x - y| := by
  unfold pattern steepness
  rw [← Finset.sum_sub_distrib, Finset.sum_mul]
  refine (norm_sum_le _ _).trans (Finset.sum_le_sum (fun m _ => ?_))
  rw [← mul_sub, norm_mul]
  calc ‖c m‖ * ‖harmonic m x - harmonic m y‖ ≤ ‖c m‖ * (|(m : ℝ)| * |x - y|) := mul_le_mul_of_nonneg_left (harmonic_close m x y) (norm_nonneg _)
    _ = _ := by ring

theorem steepness_nonneg (M : ℕ) (c : ℤ → ℂ) : 0 ≤ steepness M c := Finset.sum_nonneg (fun m _ => by positivity)

/-- The interpolated values are near the pattern. -/
theorem stepInterp_pattern {M : ℕ} {c : ℤ → ℂ} {d δ : ℝ} {pts : List (ℝ × ℝ)} {kind : StepKind} (hne : pts ≠ [])
    (hs : pts.Pairwise (fun p q => p.1 ≤ q.1)) (hw : Within kind d pts) (hm : MeasuredOn M c δ pts) :
    ∃ f, stepInterp kind pts = .ok f ∧ ∀ j < pts.length,
      ‖(f (gridAngle pts.length j) : ℂ) - pattern M c (gridAngle pts.length j)‖ ≤ steepness M c * d + δ := by
  refine ⟨_, stepInterp_ok hne (hw.defined hne hs), fun j hj => ?_⟩
  have hch := index_chosen hne hs kind (hw.chosen hj)
  generalize pts.getD (kind.index (pts.map Prod.fst) (gridAngle pts.length j)) (0, 0) = p at hch
  have hp : p ∈ pts := by cases kind <;> exact hch.1
  have h1 := hm p hp
  have h2 := pattern_close M c p.1 (gridAngle pts.length j)
  have h3 := hw.close hj hch
  rw [abs_sub_comm] at h2
  calc _ = ‖((p.2 : ℂ) - pattern M c p.1) + (pattern M c p.1 - pattern M c (gridAngle pts.length j))‖ := by congr 1; ring
    _ ≤ δ + steepness M c * |gridAngle pts.length j - p.1| := (norm_add_le _ _).trans (add_le_add h1 h2)
    _ ≤ _ := by
      have := mul_le_mul_of_nonneg_left h3 (steepness_nonneg M c)
      linarith

/-! ### Any interpolation near a pattern -/

theorem choose_functions {interp : Interp} {dat : DataContainer ℝ} {Q : Key → List (ℝ × ℝ) → (ℝ → ℝ) → Prop}
    (h : ∀ k pts, dat.getPc k sRadians = .ok pts → ∃ f, interp pts = .ok f ∧ Q k pts f) :
    ∃ f : Key → ℝ → ℝ, ∀ k pts, dat.getPc k sRadians = .ok pts → interp pts = .ok (f k) ∧ Q k pts (f k) := by
  have : ∀ k, ∃ f : ℝ → ℝ, ∀ pts, dat.getPc k sRadians = .ok pts → interp pts = .ok f ∧ Q k pts f := by
    intro k
    cases hk : dat.getPc k sRadians with
    | error e => exact ⟨fun _ => 0, fun pts hp => by cases hp⟩
    | ok pts =>
      obtain ⟨f, hf⟩ := h k pts hk
      refine ⟨f, fun pts' hp => ?_⟩
      cases hp
      exact hf
  exact ⟨fun k => (this k).choose, fun k => (this k).choose_spec⟩

theorem fourier_of_close {interp : Interp} {dat : DataContainer ℝ} (hd : dat.Reachable) {M : ℕ} {c : Key → ℤ → ℂ} {b : Key → ℝ}
    (hm : ∀ k pts, dat.getPc k sRadians = .ok pts → 2 * M < pts.length ∧ 2 ≤ pts.length ∧ ∃ f, interp pts = .ok f ∧
      ∀ j < pts.length, ‖(f (gridAngle pts.length j) : ℂ) - pattern M (c k) (gridAngle pts.length j)‖ ≤ b k) :
    ∃ fdat, datToFdat interp dat M = .ok fdat ∧ fdat.getKeys = dat.getKeys ∧ fdat.getM = M ∧
      ∀ k ∈ dat.getKeys, ∃ z : ℤ → ℂ, (∀ m : ℤ, -(M : ℤ) ≤ m → m ≤ M → DRepresents fdat k m (z m)) ∧
        √(∑ m ∈ Finset.Icc (-(M : ℤ)) M, ‖z m - c k m‖ ^ 2) ≤ b k := by
  obtain ⟨f, hf⟩ := choose_functions (fun k pts hk => (hm k pts hk).2.2)
  obtain ⟨fdat, h1, _, h2, h3, h4⟩ := C89_transform (interp := interp) hd M (fun k pts hk => ⟨(hm k pts hk).2.1, (hf k pts hk).1⟩)
  refine ⟨fdat, h1, h2, h3, fun k hk => ?_⟩
  obtain ⟨pts, hp⟩ : ∃ pts, dat.getPc k sRadians = .ok pts := by
    simp only [getPc_radians, Dict.get_ok_iff]
    refine Option.ne_none_iff_exists'.1 (fun hn => ?_)
    exact Dict.get?_eq_none.1 hn hk
  refine ⟨fun m => dft pts.length (f k) m, fun m ha hb => h4 k pts hp m ha hb, ?_⟩
  have hN := (hm k pts hp).1
  have hpos : 0 ≤ b k := (norm_nonneg _).trans ((hf k pts hp).2 0 (by omega))
  have hr := residual pts.length M hN (f k) (c k)
  have he := residual pts.length M hN (f k) (fun m => dft pts.length (f k) m)
  rw [Finset.sum_eq_zero (fun m _ => by simp), zero_add] at he
  have he0 : 0 ≤ gridMean pts.length (fun x => ‖(f k x : ℂ) - pattern M (fun m => dft pts.length (f k) m) x‖ ^ 2) := by
    unfold gridMean; positivity
  have hg : gridMean pts.length (fun x => ‖(f k x : ℂ) - pattern M (c k) x‖ ^ 2) ≤ b k ^ 2 :=
    gridMean_le (by omega) (fun j hj => pow_le_pow_left₀ (norm_nonneg _) ((hf k pts hp).2 j hj) 2)
  refine Real.sqrt_le_iff.2 ⟨hpos, ?_⟩
  have hsym : ∑ m ∈ Finset.Icc (-(M : ℤ)) M, ‖dft pts.length (f k) m - c k m‖ ^ 2 =
      ∑ m ∈ Finset.Icc (-(M : ℤ)) M, ‖c k m - dft pts.length (f k) m‖ ^ 2 :=
    Finset.sum_congr rfl (fun m _ => by rw [norm_sub_rev])
  rw [hsym]
  linarith

theorem fit_of_close (S : Sympy) (C : Compiler) {fform : FFormContainer} {F : Key → ℤ → Valuation → ℂ} {dat : DataContainer ℝ}
    {fdat : FDataContainer} {l : List Sym} {interp : Interp} (d : Disk) (hd : dat.Reachable) (hc : fform.Reachable S)
    (hF : FormulaIs fform F) (hk : ∀ k ∈ fform.getKeys, k ∈ dat.getKeys) {r₀ : Sym → ℝ} {b : Key → ℝ}
    (hm : ∀ k pts, dat.getPc k sRadians = .ok pts → 2 * fform.getM < pts.length ∧ 2 ≤ pts.length ∧ ∃ f, interp pts = .ok f ∧
      ∀ j < pts.length, ‖(f (gridAngle pts.length j) : ℂ) - pattern fform.getM (fun m => F k m (realVal r₀)) (gridAngle pts.length j)‖ ≤ b k)
    (hf : datToFdat interp dat fform.getM = .ok fdat) (hq : ∀ k m z, DRepresents fdat k m z → MachineNumber z)
    {arguments : Option (List Sym)} (hl : ArgumentOrder S fform arguments l)
    (chunk : Bool) (hne : chunk = true → fform.getKeys ≠ []) (save : Option Key) :
    ∃ cost d', genCostFunc S C d fform fdat arguments chunk save = .ok (cost, d') ∧
      ∀ r, cost (l.map r) ≤ cost (l.map r₀) → ∀ k ∈ fform.getKeys, ∀ x,
        ‖pattern fform.getM (fun m => F k m (realVal r)) x - pattern fform.getM (fun m => F k m (realVal r₀)) x‖ ≤
          2 * √(2 * fform.getM + 1) * √((fform.getKeys.map (fun k => b k ^ 2)).sum) := by
  obtain ⟨f, hf'⟩ := choose_functions (fun k pts hk => (hm k pts hk).2.2)
  have hpts : ∀ k ∈ fform.getKeys, ∃ pts, dat.getPc k sRadians = .ok pts := by
    intro k hkk
    simp only [getPc_radians, Dict.get_ok_iff]
    exact Option.ne_none_iff_exists'.1 (fun hn => Dict.get?_eq_none.1 hn (hk k hkk))
  have hN : ∃ N : Key → ℕ, ∀ k pts, dat.getPc k sRadians = .ok pts → pts.length = N k := by
    refine ⟨fun k => match dat.getPc k sRadians with | .ok pts => pts.length | .error _ => 0, fun k pts hp => ?_⟩
    dsimp only
    rw [hp]
  obtain ⟨N, hN⟩ := hN
  obtain ⟨cost, d', h1, h2⟩ := C108_cost S C (interp := interp) (f := f) (N := N) d hd hc hF hk
    (fun k pts hp => ⟨(hm k pts hp).2.1, (hf' k pts hp).1, hN k pts hp⟩)
    (fun k hkk => by
      obtain ⟨pts, hp⟩ := hpts k hkk
      rw [← hN k pts hp]
      exact (hm k pts hp).1) hf hq hl chunk hne save
  refine ⟨cost, d', h1, fun r hr k hkk x => ((h2 r r₀ hr).2 k hkk x).trans ?_⟩
  refine mul_le_mul_of_nonneg_left (Real.sqrt_le_sqrt ?_) (by positivity)
  unfold squares
  refine List.sum_le_sum (fun k hkk => ?_)
  obtain ⟨pts, hp⟩ := hpts k hkk
  rw [← hN k pts hp]
  have := (hm k pts hp).1
  exact gridMean_le (by omega) (fun j hj => pow_le_pow_left₀ (norm_nonneg _) ((hf' k pts hp).2 j hj) 2)

end Shgpy
