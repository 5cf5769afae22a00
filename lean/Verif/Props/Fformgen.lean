import Verif.Proofs.Fformgen6
import Verif.Props.Formgen
import Verif.Props.FourierTransform
import Verif.Proofs.TrigShape

/-!
# Theorems: `fformgen` (C52 – C54, C67)

`S` is the automatic evaluation of sympy, `R` the textual representation of expressions (`srepr`), both arbitrary.
`fs` and `nfs` are the files present before the call (saved formulas and `.npy` arrays).
-/

namespace Shgpy
open Spec
open scoped ComplexConjugate

set_option linter.unusedSectionVars false
set_option linter.unusedSimpArgs false

variable (S : Sympy) (R : Repr)

/-! ## C52 -/

/-- The file `save` written by `generate_contracted_fourier_transforms` (with `M = 16`) can be loaded; the container has the
four combinations, `M = 16`, and its component `m` is the `m`-th Fourier coefficient of the intensity of the crystal, in
the geometry of `fformgen.py`: the incoming beam travels towards negative `x`, which is the geometry of `formgen` turned by
half a turn about the normal.  No other file changes. -/
def LoadsIntensity (fs fs' : Files) (save : Key) (chiD chiQ : Nd Expr) (θ : (Sym → ℝ) → ℝ) : Prop :=
  (∀ n, n ≠ save → fs' n = fs n) ∧
  ∃ c, loadFform S R fs' save = .ok c ∧ c.getKeys = [combo .P .P, combo .P .S, combo .S .P, combo .S .S] ∧ c.getM = 16 ∧
    ∀ p q m, -16 ≤ m ∧ m ≤ 16 → RealComponent c (combo p q) m (fun r => integralCoeff (fun x =>
      (intensity (crystalOf (some chiD) none (some chiQ) (realVal r)) (θ r) (x + Real.pi) p q : ℂ)) m)

theorem loadsIntensity {fs : Files} {nfs : NpFiles} {pre save : Key} {θ : (Sym → ℝ) → ℝ} (hs : AllStored nfs pre θ)
    {chiD chiQ : Nd Expr} (hv : ValidTensors (some chiD) none (some chiQ)) :
    ∃ fs', generateContracted S R fs nfs save pre chiD chiQ 16 = .ok fs' ∧ LoadsIntensity S R fs fs' save chiD chiQ θ := by
  obtain ⟨fs', c, h1, h2, h3, h4, h5, h6⟩ := generated_load S R fs (save := save) hs (hv.eee3 _ rfl) (hv.qee4 _ rfl)
    (fun s hs => hs.elim (hv.real _ (Or.inl rfl) s) (hv.real _ (Or.inr (Or.inr rfl)) s))
  exact ⟨fs', h1, h2, c, h3, h4, h5, h6⟩

/-- **C52.**  For every numerical angle of incidence and all tensors in real symbols, the two functions succeed and the
result holds the Fourier coefficients of the intensity. -/
theorem C52_components (fs : Files) (nfs : NpFiles) (pre save : Key) (aoi : ℚ) {chiD chiQ : Nd Expr}
    (hv : ValidTensors (some chiD) none (some chiQ)) :
    ∃ nfs' fs', generateUncontracted S nfs aoi pre 16 = .ok nfs' ∧
      generateContracted S R fs nfs' save pre chiD chiQ 16 = .ok fs' ∧
      LoadsIntensity S R fs fs' save chiD chiQ (fun _ => aoi) := by
  obtain ⟨nfs', h1, h2⟩ := uncontracted_num S nfs aoi pre
  obtain ⟨fs', h3, h4⟩ := loadsIntensity S R (fs := fs) (save := save) h2 hv
  exact ⟨nfs', fs', h1, h3, h4⟩

/-- **C52, symbolic angle of incidence.**  The same with the symbol `theta` for the angle. -/
theorem C52_symbolic (fs : Files) (nfs : NpFiles) (pre save : Key) {chiD chiQ : Nd Expr}
    (hv : ValidTensors (some chiD) none (some chiQ)) :
    ∃ nfs' fs', generateUncontractedSymb S nfs pre 16 = .ok nfs' ∧
      generateContracted S R fs nfs' save pre chiD chiQ 16 = .ok fs' ∧
      LoadsIntensity S R fs fs' save chiD chiQ (fun r => r thetaSym) := by
  obtain ⟨nfs', h1, h2⟩ := uncontracted_symb S nfs pre
  obtain ⟨fs', h3, h4⟩ := loadsIntensity S R (fs := fs) (save := save) h2 hv
  exact ⟨nfs', fs', h1, h3, h4⟩

/-- **C52, the four files can be reused.**  The arrays computed once serve for any tensors afterwards. -/
theorem C52_reuse (nfs : NpFiles) (pre : Key) (aoi : ℚ) :
    ∃ nfs', generateUncontracted S nfs aoi pre 16 = .ok nfs' ∧
      ∀ (fs : Files) (save : Key) (chiD chiQ : Nd Expr), ValidTensors (some chiD) none (some chiQ) →
        ∃ fs', generateContracted S R fs nfs' save pre chiD chiQ 16 = .ok fs' ∧
          LoadsIntensity S R fs fs' save chiD chiQ (fun _ => aoi) := by
  obtain ⟨nfs', h1, h2⟩ := uncontracted_num S nfs aoi pre
  exact ⟨nfs', h1, fun fs save chiD chiQ hv => loadsIntensity S R h2 hv⟩

/-- **C52, errors.**  A symbol not known to be real raises `ValueError`, a missing array `FileNotFoundError`; the realness
of the symbols is checked first. -/
theorem C52_errors (fs : Files) (nfs : NpFiles) (pre save : Key) (chiD chiQ : Nd Expr) (M : ℕ) :
    ((∃ s, (OccursIn chiD s ∨ OccursIn chiQ s) ∧ s.isReal ≠ some true) →
      generateContracted S R fs nfs save pre chiD chiQ M = .error .valueError) ∧
    ((∀ s, OccursIn chiD s ∨ OccursIn chiQ s → s.isReal = some true) → (∃ p q, nfs (termsFile pre p q) = none) →
      generateContracted S R fs nfs save pre chiD chiQ M = .error .fileNotFoundError) := by
  constructor
  · rintro ⟨s, hs, hn⟩
    unfold generateContracted contractedFform
    by_cases hD : ∀ s, OccursIn chiD s → s.isReal = some true
    · have hQ : OccursIn chiQ s := hs.resolve_left (fun h => hn (hD s h))
      rw [assertRealParams_ok hD, ok_bind, assertRealParams_error hQ hn, error_bind, error_bind]
    · push Not at hD
      obtain ⟨s', h1, h2⟩ := hD
      rw [assertRealParams_error h1 h2, error_bind, error_bind]
  · rintro hr ⟨p, q, hpq⟩
    unfold generateContracted contractedFform
    rw [assertRealParams_ok (fun s h => hr s (.inl h)), ok_bind, assertRealParams_ok (fun s h => hr s (.inr h)), ok_bind]
    have hload : (lowerPc.mapM (fun pc => (do
        let a ← npLoad nfs pre pc.2
        return (pc.1, a) : Except Err (Key × List FTensor)))) = .error .fileNotFoundError := by
      refine mapM_error_only ?_ ⟨(combo p q, [p.lower, q.lower]), by cases p <;> cases q <;> simp [lowerPc, combo, Pol.char, Pol.lower], ?_⟩
      · intro pc _ e he
        unfold npLoad at he
        split at he
        · exact absurd he (by simp [ok_bind])
        · cases he; rfl
      · unfold npLoad
        rw [show pre ++ ['_'] ++ [p.lower, q.lower] ++ ['.', 'n', 'p', 'y'] = termsFile pre p q from rfl, hpq]
        rfl
    rw [hload, error_bind, error_bind]

theorem sample_valid' : ValidTensors (some sampleTensor) none (some sampleQuadrupole) :=
  ⟨fun t h => sample_valid.eee3 t h, fun t h => by simp at h, fun t h => sample_valid.qee4 t h, by simp,
    fun t h => sample_valid.real t (by rcases h with h | h | h <;> simp_all)⟩

example : ∃ nfs' fs', generateUncontracted Sympy.plain (fun _ => none) (1 / 2) ['f'] 16 = .ok nfs' ∧
      generateContracted Sympy.plain exRepr (fun _ => none) nfs' ['s'] ['f'] sampleTensor sampleQuadrupole 16 = .ok fs' ∧
      LoadsIntensity Sympy.plain exRepr (fun _ => none) fs' ['s'] sampleTensor sampleQuadrupole (fun _ => ((1 / 2 : ℚ) : ℝ)) :=
  C52_components _ _ _ _ _ _ _ sample_valid'

/-! ## C53 -/

variable (ex : Rewriting)

/-- The easy way: `form_to_fform(formgen(theta, chiD, None, chiQ))`. -/
def EasyWay (theta : Expr) (chiD chiQ : Nd Expr) (c : FFormContainer) : Prop :=
  ∃ form, formgen S ex theta (some chiD) none (some chiQ) = .ok form ∧ formToFform S form 16 = .ok c

/-- The hard way: the functions of `fformgen`, for a numerical angle of incidence or for the symbol `theta`, and loading the
file that they write. -/
inductive HardWay (chiD chiQ : Nd Expr) (c : FFormContainer) : Expr → Prop
  | num {aoi : ℚ} {nfs nfs' : NpFiles} {fs fs' : Files} {pre save : Key} :
      generateUncontracted S nfs aoi pre 16 = .ok nfs' → generateContracted S R fs nfs' save pre chiD chiQ 16 = .ok fs' →
      loadFform S R fs' save = .ok c → HardWay chiD chiQ c (.num aoi)
  | symb {nfs nfs' : NpFiles} {fs fs' : Files} {pre save : Key} :
      generateUncontractedSymb S nfs pre 16 = .ok nfs' → generateContracted S R fs nfs' save pre chiD chiQ 16 = .ok fs' →
      loadFform S R fs' save = .ok c → HardWay chiD chiQ c (.sym thetaSym)

/-- All formulas returned by `formgen` have a shape that the table of Fourier transforms covers; this is what
`sp.expand(sp.expand_trig(...))` is for. -/
def SupportedForms (theta : Expr) (chiD chiQ : Nd Expr) : Prop :=
  ∀ form, formgen S ex theta (some chiD) none (some chiQ) = .ok form → ∀ k e, form.getPc k = .ok e → Supported e

theorem formgen_reachable {theta : Expr} {eee mee qee : Option (Nd Expr)} {c : FormContainer}
    (h : formgen S ex theta eee mee qee = .ok c) : c.Reachable S := by
  unfold formgen at h
  obtain ⟨r, _, h⟩ := bind_ok h
  exact ⟨_, _, [], h, rfl⟩

theorem ofAngle_real (e : Expr) (r : Sym → ℝ) (x : ℝ) : ofAngle e (realVal r) x = e.eval (realVal (withPhi r x)) := by
  unfold ofAngle
  refine Expr.eval_congr _ (fun s _ => ?_)
  simp only [assign, realVal, withPhi]
  split_ifs <;> rfl

theorem easy_components {theta : Expr} {chiD chiQ : Nd Expr} (hv : ValidTensors (some chiD) none (some chiQ))
    (hphi : ¬ OccursInSome (some chiD) none (some chiQ) phi) (hth : phi ∉ theta.free) {θ : (Sym → ℝ) → ℝ}
    (hθ : ∀ r, theta.eval (realVal r) = (θ r : ℂ))
    (hs : SupportedForms S ex theta chiD chiQ) : ∃ c, EasyWay S ex theta chiD chiQ c ∧
      c.getKeys = [combo .P .P, combo .P .S, combo .S .P, combo .S .S] ∧ c.getM = 16 ∧
      ∀ p q m, -16 ≤ m ∧ m ≤ 16 → RealComponent c (combo p q) m (fun r => integralCoeff (fun x =>
        (intensity (crystalOf (some chiD) none (some chiQ) (realVal r)) (θ r) x p q : ℂ)) m) := by
  obtain ⟨form, hf, hd⟩ := formgen_ok S ex (theta := theta) hv
  obtain ⟨c, h1, h2, h3, h4⟩ := formToFform_supported S (formgen_reachable S ex hf) (hs form hf) le_rfl
  refine ⟨c, ⟨form, hf, h1⟩, h2.trans hd.1, h3, fun p q m hm => ?_⟩
  obtain ⟨e, he, hval⟩ := hd.2 p q
  obtain ⟨a, o, ha, ho, hv'⟩ := h4 _ e he m hm
  refine ⟨a, o, ha, ho, fun r => ?_⟩
  rw [hv']
  dsimp only
  congr 1
  funext x
  rw [ofAngle_real, hval (withPhi r x) (θ r) (by rw [eval_withPhi hth, hθ]), crystalOf_withPhi hv.shapes hphi]
  simp [withPhi]

theorem hard_components {theta : Expr} {chiD chiQ : Nd Expr} (hv : ValidTensors (some chiD) none (some chiQ))
    {c : FFormContainer} (h : HardWay S R chiD chiQ c theta) : phi ∉ theta.free ∧ ∃ θ : (Sym → ℝ) → ℝ,
      (∀ r, theta.eval (realVal r) = (θ r : ℂ)) ∧
      c.getKeys = [combo .P .P, combo .P .S, combo .S .P, combo .S .S] ∧ c.getM = 16 ∧
      ∀ p q m, -16 ≤ m ∧ m ≤ 16 → RealComponent c (combo p q) m (fun r => integralCoeff (fun x =>
        (intensity (crystalOf (some chiD) none (some chiQ) (realVal r)) (θ r) (x + Real.pi) p q : ℂ)) m) := by
  cases h with
  | @num aoi nfs nfs' fs fs' pre save h1 h2 h3 =>
    refine ⟨by simp [Expr.free], fun _ => aoi, fun r => by simp [Expr.eval], ?_⟩
    obtain ⟨n, f, g1, g2, _, c', g3, g4⟩ := C52_components S R fs nfs pre save aoi hv
    rw [h1] at g1; cases g1
    rw [h2] at g2; cases g2
    rw [h3] at g3; cases g3
    exact g4
  | @symb nfs nfs' fs fs' pre save h1 h2 h3 =>
    refine ⟨by simp [Expr.free, phi, thetaSym], fun r => r thetaSym, fun r => by simp [Expr.eval, realVal], ?_⟩
    obtain ⟨n, f, g1, g2, _, c', g3, g4⟩ := C52_symbolic S R fs nfs pre save hv
    rw [h1] at g1; cases g1
    rw [h2] at g2; cases g2
    rw [h3] at g3; cases g3
    exact g4

theorem harmonic_half_turn (n : ℤ) (x : ℝ) : harmonic n (x + Real.pi) = (-1) ^ n * harmonic n x := by
  unfold harmonic
  rw [show Complex.I * ((n : ℂ) * ((x + Real.pi : ℝ) : ℂ)) = (n : ℂ) * (Real.pi * Complex.I) + Complex.I * (n * x) by
    push_cast; ring, Complex.exp_add, Complex.exp_int_mul, Complex.exp_pi_mul_I]

theorem coeff_half_turn {d : ℕ} {f : ℝ → ℂ} (h : TrigDegree d f) (n : ℤ) :
    integralCoeff (fun x => f (x + Real.pi)) n = (-1) ^ n * integralCoeff f n := by
  by_cases hn : n ∈ Finset.Icc (-(d : ℤ)) d
  · have h1 : (fun x => f (x + Real.pi)) = fun x : ℝ => ∑ m ∈ Finset.Icc (-(d : ℤ)) d,
        ((-1) ^ m * integralCoeff f m) * Complex.exp (Complex.I * (m * x)) := by
      funext x
      rw [TrigDegree.series h]
      refine Finset.sum_congr rfl (fun m _ => ?_)
      rw [harmonic_half_turn, harmonic]
      ring
    rw [h1, integralCoeff_sum (Finset.Icc (-(d : ℤ)) d) (fun m => (-1) ^ m * integralCoeff f m) (fun m => m) n,
      Finset.sum_ite_eq', if_pos hn]
  · have hn' : (d : ℤ) < |n| := by
      rw [Finset.mem_Icc] at hn
      by_contra hc
      exact hn (abs_le.1 (not_lt.1 hc))
    have h1 : TrigDegree d (fun x => f (x + Real.pi)) := by
      refine ⟨fun m => (-1) ^ m * integralCoeff f m, fun x => ?_⟩
      dsimp only
      rw [TrigDegree.series h]
      refine Finset.sum_congr rfl (fun m _ => ?_)
      rw [harmonic_half_turn]
      ring
    rw [TrigDegree.coeff_zero h1 hn', TrigDegree.coeff_zero h hn', mul_zero]

/-- **C53**, the part that holds: the two ways give the same combinations, the same `M`, and components that agree up to the
sign `(-1)^m`.  So the even components are equal; the odd ones are opposite, because the geometry of `fformgen` is turned by
half a turn.  Equality of the odd components is what is missing from the property, and it is refuted below. -/
theorem C53_half_turn_partial {theta : Expr} {chiD chiQ : Nd Expr} (hv : ValidTensors (some chiD) none (some chiQ))
    (hphi : ¬ OccursInSome (some chiD) none (some chiQ) phi) (hs : SupportedForms S ex theta chiD chiQ)
    {easy hard : FFormContainer} (he : EasyWay S ex theta chiD chiQ easy) (hh : HardWay S R chiD chiQ hard theta) :
    easy.getKeys = hard.getKeys ∧ easy.getM = hard.getM ∧
    ∀ p q m, -16 ≤ m ∧ m ≤ 16 → ∃ f, RealComponent easy (combo p q) m f ∧
      RealComponent hard (combo p q) m (fun r => (-1) ^ m * f r) := by
  obtain ⟨hth, θ, hθ, k1, m1, h1⟩ := hard_components S R hv hh
  obtain ⟨c, hc, k2, m2, h2⟩ := easy_components S ex hv hphi hth hθ hs
  obtain ⟨form, e1, e2⟩ := he
  obtain ⟨form', e3, e4⟩ := hc
  rw [e1] at e3; cases e3
  rw [e2] at e4; cases e4
  refine ⟨by rw [k1, k2], by rw [m1, m2], fun p q m hm => ⟨_, h2 p q m hm, ?_⟩⟩
  obtain ⟨a, o, ha, ho, hv'⟩ := h1 p q m hm
  exact ⟨a, o, ha, ho, fun r => by rw [hv']; exact coeff_half_turn (intensity_degree _ _ _ _) m⟩

/-! ## C67 -/

/-- **C67.**  Every formula of `formgen` has, for all values of its symbols, the value of a sum of products of a coefficient
free of `phi` with at most 8 (without quadrupole: 6) cosines and sines of `phi`: all monomials that occur are in the table
used by `form_to_fform`. -/
theorem C67_monomials {theta : Expr} {eee mee qee : Option (Nd Expr)} (hs : RightShapes eee mee qee)
    (hphi : ¬ OccursInSome eee mee qee phi) (hth : phi ∉ theta.free) {c : FormContainer}
    (hc : formgen S ex theta eee mee qee = .ok c) {k : Key} {e : Expr} (hk : c.getPc k = .ok e) :
    TrigSum 8 e ∧ (qee = none → TrigSum 6 e) := by
  have H := graded_trigSum S ex hth
  have key : ∀ d, (d = 4 ∨ d = 3 ∧ qee = none) → TrigSum (d + d) e := by
    intro d hd
    rcases formgen_graded H hd hs (tensors_trigSum hphi) hc hk with ⟨x, hx, rfl⟩ | ⟨x, y, hx, hy, rfl⟩
    · exact H.run hx
    · exact H.addS (H.run hx) (H.run hy)
  exact ⟨key 4 (.inl rfl), fun hq => key 3 (.inr ⟨rfl, hq⟩)⟩

/-- **C67, the easy way.**  If `sp.expand(sp.expand_trig(...))` returns its results in a shape that the table covers, the
easy way succeeds and gives the Fourier coefficients of the intensity. -/
theorem C67_easy_way {theta : Expr} {chiD chiQ : Nd Expr} (hv : ValidTensors (some chiD) none (some chiQ))
    (hphi : ¬ OccursInSome (some chiD) none (some chiQ) phi) (hth : phi ∉ theta.free) {θ : (Sym → ℝ) → ℝ}
    (hθ : ∀ r, theta.eval (realVal r) = (θ r : ℂ)) (hs : SupportedForms S ex theta chiD chiQ) :
    ∃ c, EasyWay S ex theta chiD chiQ c ∧ c.getKeys = [combo .P .P, combo .P .S, combo .S .P, combo .S .S] ∧ c.getM = 16 ∧
      ∀ p q m, -16 ≤ m ∧ m ≤ 16 → RealComponent c (combo p q) m (fun r => integralCoeff (fun x =>
        (intensity (crystalOf (some chiD) none (some chiQ) (realVal r)) (θ r) x p q : ℂ)) m) :=
  easy_components S ex hv hphi hth hθ hs

/-- The hypothesis on the shapes can be met, for all tensors: a sympy that expands whatever can be expanded meets it. -/
theorem C67_expanding {theta : Expr} {chiD chiQ : Nd Expr} (hv : ValidTensors (some chiD) none (some chiQ))
    (hphi : ¬ OccursInSome (some chiD) none (some chiQ) phi) (hth : phi ∉ theta.free) :
    SupportedForms expandingSympy expanding theta chiD chiQ := by
  intro form hf k e hk
  have H := graded_trigSum expandingSympy expanding hth
  rcases formgen_graded H (d := 4) (.inl rfl) hv.shapes (tensors_trigSum hphi) hf hk with ⟨x, hx, rfl⟩ | ⟨x, y, hx, hy, rfl⟩
  · exact expandAll_supported hx
  · exact expandAll_supported (H.add2 (H.run hx) (H.run hy))

theorem sample_no_phi' : ¬ OccursInSome (some sampleTensor) none (some sampleQuadrupole) phi := by
  rintro ⟨t, h, hs⟩
  exact sample_no_phi ⟨t, by rcases h with h | h | h <;> simp_all, hs⟩

/-- The hypotheses of `C53_half_turn_partial` are met. -/
example : ∃ easy hard, SupportedForms expandingSympy expanding (.num (1 / 2)) sampleTensor sampleQuadrupole ∧
    EasyWay expandingSympy expanding (.num (1 / 2)) sampleTensor sampleQuadrupole easy ∧
    HardWay expandingSympy exRepr sampleTensor sampleQuadrupole hard (.num (1 / 2)) := by
  have hs := C67_expanding (theta := .num (1 / 2)) sample_valid' sample_no_phi' (by simp [Expr.free])
  obtain ⟨easy, he, _⟩ := C67_easy_way expandingSympy expanding sample_valid' sample_no_phi' (by simp [Expr.free])
    (θ := fun _ => ((1 / 2 : ℚ) : ℝ)) (fun r => by simp [Expr.eval]) hs
  obtain ⟨nfs', fs', g1, g2, _, hard, g3, _⟩ :=
    C52_components expandingSympy exRepr (fun _ => none) (fun _ => none) ['f'] ['s'] (1 / 2) sample_valid'
  exact ⟨easy, hard, hs, he, .num g1 g2 g3⟩

/-- A real symbol. -/
def zzzSym : Sym := ⟨['z', 'z', 'z'], 1⟩

/-- A dipole tensor with the elements `xxx` and `zzz`. -/
def surfaceTensor : Nd Expr :=
  ⟨[3, 3, 3], fun idx => if idx = [0, 0, 0] then .sym xxxSym else if idx = [2, 2, 2] then .sym zzzSym else .num 0⟩

/-- No quadrupole. -/
def noQuadrupole : Nd Expr := ⟨[3, 3, 3, 3], fun _ => .num 0⟩

theorem occursIn_surface {s : Sym} (h : OccursIn surfaceTensor s) : s = xxxSym ∨ s = zzzSym := by
  obtain ⟨idx, _, hs⟩ := h
  simp only [surfaceTensor] at hs
  split_ifs at hs
  · left; simpa [Expr.free] using hs
  · right; simpa [Expr.free] using hs
  · simp [Expr.free] at hs

theorem occursIn_noQuadrupole {s : Sym} (h : OccursIn noQuadrupole s) : False := by
  obtain ⟨idx, _, hs⟩ := h
  simp [noQuadrupole, Expr.free] at hs

theorem surface_valid : ValidTensors (some surfaceTensor) none (some noQuadrupole) := by
  refine ⟨fun t h => by cases h; rfl, fun t h => (by simp at h), fun t h => by cases h; rfl, by simp, ?_⟩
  rintro t (h | h | h) s hs <;> cases h
  · rcases occursIn_surface hs with rfl | rfl <;> rfl
  · exact (occursIn_noQuadrupole hs).elim

theorem surface_no_phi : ¬ OccursInSome (some surfaceTensor) none (some noQuadrupole) phi := by
  rintro ⟨t, h | h | h, hs⟩ <;> cases h
  · rcases occursIn_surface hs with h | h <;> exact absurd h (by decide)
  · exact occursIn_noQuadrupole hs

theorem realComponent_unique {c : FFormContainer} {k : Key} {m : ℤ} {f g : (Sym → ℝ) → ℂ} (hf : RealComponent c k m f)
    (hg : RealComponent c k m g) : f = g := by
  obtain ⟨a, o, ha, ho, hv⟩ := hf
  obtain ⟨a', o', ha', ho', hv'⟩ := hg
  rw [ha] at ha'; cases ha'
  have : o = o' := by
    have := ho.2.symm.trans ho'.2
    exact Option.some.inj this
  subst this
  funext r
  rw [← hv, ← hv']

theorem surface_quad (r : Sym → ℝ) (E : CVec) : quad (value3 surfaceTensor (realVal r)) E =
    ![(r xxxSym : ℂ) * E 0 * E 0, 0, (r zzzSym : ℂ) * E 2 * E 2] := by
  funext i
  simp only [quad, Fin.sum_univ_three, value3, surfaceTensor]
  fin_cases i <;> simp [Expr.eval, realVal]

theorem surface_source (r : Sym → ℝ) (φ : ℝ) (k E : CVec) (i : Fin 3) :
    source ((crystalOf (some surfaceTensor) none (some noQuadrupole) (realVal r)).turned φ) k E i =
      ∑ a, rotZ φ i a * ![(r xxxSym : ℂ) * pull (rotZ φ) E 0 * pull (rotZ φ) E 0, 0,
        (r zzzSym : ℂ) * pull (rotZ φ) E 2 * pull (rotZ φ) E 2] a := by
  have := source_rot (value3 surfaceTensor (realVal r)) (value4 noQuadrupole (realVal r)) φ k E i
  rw [show (crystalOf (some surfaceTensor) none (some noQuadrupole) (realVal r)) =
    ⟨value3 surfaceTensor (realVal r), 0, value4 noQuadrupole (realVal r)⟩ from rfl, this]
  refine Finset.sum_congr rfl (fun a _ => ?_)
  congr 1
  unfold innerSource
  rw [surface_quad]
  simp [quadGrad, value4, noQuadrupole, Expr.eval]

theorem surface_intensity (r : Sym → ℝ) (θ : ℝ) :
    intensity (crystalOf (some surfaceTensor) none (some noQuadrupole) (realVal r)) θ 0 .P .P =
      (Real.cos θ ^ 3 * r xxxSym + Real.sin θ ^ 3 * r zzzSym) ^ 2 ∧
    intensity (crystalOf (some surfaceTensor) none (some noQuadrupole) (realVal r)) θ (0 + Real.pi) .P .P =
      (Real.cos θ ^ 3 * r xxxSym - Real.sin θ ^ 3 * r zzzSym) ^ 2 := by
  have hcs := Real.sin_sq_add_cos_sq θ
  constructor <;> simp only [intensity, radiated, outIntensity, perp, dot, Fin.sum_univ_three, surface_source, pull]
  · simp only [rotZ, fieldIn, kOut]
    simp
    simp only [← Complex.ofReal_cos, ← Complex.ofReal_sin, ← Complex.ofReal_mul, ← Complex.ofReal_neg, ← Complex.ofReal_add,
      ← Complex.ofReal_sub, Complex.normSq_ofReal]
    generalize Real.cos θ = c at *
    generalize Real.sin θ = s at *
    grind
  · simp only [rotZ, fieldIn, kOut]
    simp
    simp only [← Complex.ofReal_cos, ← Complex.ofReal_sin, ← Complex.ofReal_mul, ← Complex.ofReal_neg, ← Complex.ofReal_add,
      ← Complex.ofReal_sub, Complex.normSq_ofReal]
    generalize Real.cos θ = c at *
    generalize Real.sin θ = s at *
    grind

/-- **C53 is false as stated.**  For the dipole tensor with the elements `xxx` and `zzz` and the angle of incidence `1`, the
two ways do not give the same formula. -/
theorem C53_broken (hs : SupportedForms S ex (.num 1) surfaceTensor noQuadrupole) :
    ∃ easy hard, EasyWay S ex (.num 1) surfaceTensor noQuadrupole easy ∧
      HardWay S R surfaceTensor noQuadrupole hard (.num 1) ∧
      ¬ ∀ p q m, -16 ≤ m ∧ m ≤ 16 → ∃ f, RealComponent easy (combo p q) m f ∧ RealComponent hard (combo p q) m f := by
  obtain ⟨easy, he, _, _, h1⟩ := easy_components S ex surface_valid surface_no_phi (theta := .num 1) (θ := fun _ => 1)
    (by simp [Expr.free]) (fun r => by simp [Expr.eval]) hs
  obtain ⟨nfs', fs', g1, g2, _, hard, g3, _, _, h2⟩ :=
    C52_components S R (fun _ => none) (fun _ => none) ['f'] ['s'] 1 surface_valid
  refine ⟨easy, hard, he, .num g1 g2 g3, fun hall => ?_⟩
  have hdeg := intensity_degree (crystalOf (some surfaceTensor) none (some noQuadrupole) (realVal (fun _ => 1))) 1 .P .P
  have key : ∀ m : ℤ, m ∈ Finset.Icc (-((8 : ℕ) : ℤ)) (8 : ℕ) → integralCoeff (fun x =>
      (intensity (crystalOf (some surfaceTensor) none (some noQuadrupole) (realVal (fun _ => 1))) 1 x .P .P : ℂ)) m =
      integralCoeff (fun x => (intensity (crystalOf (some surfaceTensor) none (some noQuadrupole)
        (realVal (fun _ => 1))) 1 (x + Real.pi) .P .P : ℂ)) m := by
    intro m hm
    rw [Finset.mem_Icc] at hm
    have hm' : -16 ≤ m ∧ m ≤ 16 := by omega
    obtain ⟨f, hf1, hf2⟩ := hall .P .P m hm'
    have e1 := congrFun (realComponent_unique hf1 (h1 .P .P m hm')) (fun _ => 1)
    have e2 := congrFun (realComponent_unique hf2 (h2 .P .P m hm')) (fun _ => 1)
    rw [e1] at e2
    simpa using e2
  have hpi : intensity (crystalOf (some surfaceTensor) none (some noQuadrupole) (realVal (fun _ => 1))) 1 (0 + Real.pi) .P .P =
      intensity (crystalOf (some surfaceTensor) none (some noQuadrupole) (realVal (fun _ => 1))) 1 0 .P .P := by
    have hdeg' : TrigDegree 8 (fun x => (intensity (crystalOf (some surfaceTensor) none (some noQuadrupole)
        (realVal (fun _ => 1))) 1 (x + Real.pi) .P .P : ℂ)) := by
      refine ⟨fun m => (-1) ^ m * integralCoeff (fun x => (intensity (crystalOf (some surfaceTensor) none (some noQuadrupole)
        (realVal (fun _ => 1))) 1 x .P .P : ℂ)) m, fun x => ?_⟩
      have := TrigDegree.series hdeg (x + Real.pi)
      dsimp only at this ⊢
      rw [this]
      refine Finset.sum_congr rfl (fun m _ => ?_)
      rw [harmonic_half_turn]
      ring
    have a1 := TrigDegree.series hdeg 0
    have a2 := TrigDegree.series hdeg' 0
    rw [Finset.sum_congr rfl (fun m hm => by rw [← key m hm])] at a2
    have := a2.trans a1.symm
    exact_mod_cast this
  obtain ⟨i1, i2⟩ := surface_intensity (fun _ => 1) 1
  rw [i1, i2] at hpi
  have hc : 0 < Real.cos 1 := Real.cos_pos_of_mem_Ioo ⟨by linarith [Real.pi_pos], by linarith [Real.pi_gt_three]⟩
  have hsn : 0 < Real.sin 1 := Real.sin_pos_of_pos_of_lt_pi one_pos (by linarith [Real.pi_gt_three])
  have : 0 < Real.cos 1 ^ 3 * Real.sin 1 ^ 3 := by positivity
  nlinarith

/-- The hypothesis of `C53_broken` is met. -/
example : SupportedForms expandingSympy expanding (.num 1) surfaceTensor noQuadrupole :=
  C67_expanding surface_valid surface_no_phi (by simp [Expr.free])

/-! ## C54 -/

/-- The file `save` holds, for the combination `k`, `2*M+1` strings, and the one for the frequency `m` denotes an expression
with the value `f r` whenever the symbols have the real values `r`. -/
def StoredComponent (fs : Files) (save : Key) (M : ℕ) (k : Key) (m : ℤ) (f : (Sym → ℝ) → ℂ) : Prop :=
  ∃ d strs s e, fs save = some d ∧ Dict.get d k = .ok strs ∧ strs.length = 2 * M + 1 ∧
    strs[(m + M).toNat]? = some s ∧ R.parse s = .ok e ∧ ∀ r, e.eval (realVal r) = f r

/-- Running both functions with `M` gives a file that satisfies `P`. -/
def Generates (M : ℕ) (aoi : ℚ) (chiD chiQ : Nd Expr) (save : Key) (P : Files → Prop) : Prop :=
  ∀ (fs : Files) (nfs : NpFiles) (pre : Key), ∃ nfs' fs', generateUncontracted S nfs aoi pre M = .ok nfs' ∧
    generateContracted S R fs nfs' save pre chiD chiQ M = .ok fs' ∧ P fs'

theorem stored_of_contracted {fs : Files} {nfs : NpFiles} {pre save : Key} {chiD chiQ : Nd Expr} {M : ℕ}
    {g : Pol → Pol → ℤ → Expr}
    (h : contractedFform S nfs pre chiD chiQ M = .ok (fourCombos.map (fun pq => (combo pq.1 pq.2, (freqs M).map (g pq.1 pq.2))))) :
    ∃ fs', generateContracted S R fs nfs save pre chiD chiQ M = .ok fs' ∧
      ∀ p q, ∀ m ∈ freqs M, StoredComponent R fs' save M (combo p q) m (fun r => (g p q m).eval (realVal r)) := by
  unfold generateContracted
  rw [h, ok_bind]
  refine ⟨_, rfl, fun p q m hm => ⟨_, ((freqs M).map (g p q)).map (fun e => R.srepr (.sy e)), R.srepr (.sy (g p q m)), g p q m,
    if_pos rfl, ?_, by simp [length_freqs], ?_, R.round_trip _, fun r => rfl⟩⟩
  · cases p <;> cases q <;> rfl
  · rw [mem_freqs] at hm
    rw [List.getElem?_map, List.getElem?_map, getElem?_freqs (by omega)]
    simp only [Option.map_some]
    congr 4
    omega

/-- **C54**, the part that holds: `M = 16` gives the Fourier coefficients of the intensity. -/
theorem C54_sixteen_partial (aoi : ℚ) (save : Key) {chiD chiQ : Nd Expr} (hv : ValidTensors (some chiD) none (some chiQ)) :
    Generates S R 16 aoi chiD chiQ save (fun fs' => ∀ p q m, -16 ≤ m ∧ m ≤ 16 →
      StoredComponent R fs' save 16 (combo p q) m (fun r => integralCoeff (fun x =>
        (intensity (crystalOf (some chiD) none (some chiQ) (realVal r)) aoi (x + Real.pi) p q : ℂ)) m)) := by
  intro fs nfs pre
  obtain ⟨nfs', h1, h2⟩ := uncontracted_num S nfs aoi pre
  obtain ⟨g, hg, hval⟩ := contracted_ok S h2 (hv.eee3 _ rfl) (hv.qee4 _ rfl)
    (fun s hs => hs.elim (hv.real _ (Or.inl rfl) s) (hv.real _ (Or.inr (Or.inr rfl)) s))
  obtain ⟨fs', h3, h4⟩ := stored_of_contracted S R (fs := fs) (save := save) hg
  refine ⟨nfs', fs', h1, h3, fun p q m hm => ?_⟩
  obtain ⟨d, strs, s, e, a1, a2, a3, a4, a5, a6⟩ := h4 p q m (by rw [mem_freqs]; omega)
  exact ⟨d, strs, s, e, a1, a2, a3, a4, a5, fun r => (a6 r).trans (hval p q r m hm)⟩

/-- **C54 fails for `M < 16`.**  For every `M` from 1 to 15 the functions succeed, but the components from `-4` on are
all zero, whatever the tensors and the angle of incidence; for `M ≤ 14` all components are. -/
theorem C54_small_M_broken {M : ℕ} (h1M : 1 ≤ M) (hM : M ≤ 15) (aoi : ℚ) (save : Key) {chiD chiQ : Nd Expr}
    (hv : ValidTensors (some chiD) none (some chiQ)) :
    Generates S R M aoi chiD chiQ save (fun fs' => ∀ p q (m : ℤ), -M ≤ m ∧ m ≤ M → (M ≤ 14 ∨ -4 ≤ m) →
      StoredComponent R fs' save M (combo p q) m (fun _ => 0)) := by
  intro fs nfs pre
  obtain ⟨b, hb, hb'⟩ : ∃ b : ℤ, 12 * (M : ℤ) - 170 ≤ b ∧ ∀ m : ℤ, -M ≤ m ∧ m ≤ M → (M ≤ 14 ∨ -4 ≤ m) → b < m + M := by
    rcases Nat.lt_or_ge M 15 with h | h
    · exact ⟨-1, by omega, fun m hm _ => by omega⟩
    · exact ⟨10, by omega, fun m hm h' => by omega⟩
  obtain ⟨lp, ls, e, hp, hs⟩ := zero_both S h1M hM hb (kout := substituteIntoArray S [(thetaSym, .num aoi)] (koutSym S))
    (kin := substituteIntoArray S [(thetaSym, .num aoi)] (kinSym S)) rfl rfl
  have h2 := saved_zero S hp hs nfs pre (.cos (.num aoi)) (.sin (.num aoi))
  obtain ⟨g, hg, hval⟩ := zero_contracted S hM h2 (hv.eee3 _ rfl) (hv.qee4 _ rfl)
    (fun s hs => hs.elim (hv.real _ (Or.inl rfl) s) (hv.real _ (Or.inr (Or.inr rfl)) s))
  obtain ⟨fs', h3, h4⟩ := stored_of_contracted S R (fs := fs) (save := save) hg
  refine ⟨_, fs', ?_, h3, fun p q m hm hm' => ?_⟩
  · unfold generateUncontracted
    dsimp only
    rw [e, ok_bind]
    rfl
  · have hf : m ∈ freqs M := by rw [mem_freqs]; omega
    obtain ⟨d, strs, s, e, a1, a2, a3, a4, a5, a6⟩ := h4 p q m hf
    exact ⟨d, strs, s, e, a1, a2, a3, a4, a5, fun r => (a6 r).trans (hval p q m hf (hb' m hm hm') _)⟩

/-- **C54 fails for `M > 16`.**  Both functions that compute the arrays raise `IndexError`. -/
theorem C54_large_M_broken {M : ℕ} (hM : 16 < M) (nfs : NpFiles) (aoi : ℚ) (pre : Key) :
    generateUncontracted S nfs aoi pre M = .error .indexError ∧
    generateUncontractedSymb S nfs pre M = .error .indexError := by
  constructor
  · unfold generateUncontracted
    dsimp only
    rw [both_error S hM rfl, error_bind]
  · unfold generateUncontractedSymb
    rw [both_error S hM rfl, error_bind]

theorem surface_only_zzz (θ x : ℝ) :
    intensity (crystalOf (some surfaceTensor) none (some noQuadrupole) (realVal (fun s => if s = zzzSym then 1 else 0))) θ x .P .P =
      Real.sin θ ^ 6 := by
  have hcs := Real.sin_sq_add_cos_sq θ
  simp only [intensity, radiated, outIntensity, perp, dot, Fin.sum_univ_three, surface_source, pull]
  simp only [rotZ, fieldIn, kOut]
  simp [show xxxSym ≠ zzzSym by decide]
  simp only [← Complex.ofReal_cos, ← Complex.ofReal_sin, ← Complex.ofReal_mul, ← Complex.ofReal_neg, ← Complex.ofReal_add,
    ← Complex.ofReal_sub, Complex.normSq_ofReal]
  generalize Real.cos θ = c at *
  generalize Real.sin θ = s at *
  grind

/-- **C54 is false for every `M ≠ 16`.**  For the dipole tensor with the elements `xxx` and `zzz` and the angle of incidence
`1`, running the functions with `M` never gives the component `0` that `M = 16` gives. -/
theorem C54_broken {M : ℕ} (h1M : 8 ≤ M) (hM : M ≠ 16) (save : Key) :
    ¬ Generates S R M 1 surfaceTensor noQuadrupole save (fun fs' => ∃ f, StoredComponent R fs' save M (combo .P .P) 0 f ∧
      Generates S R 16 1 surfaceTensor noQuadrupole save (fun fs'' => StoredComponent R fs'' save 16 (combo .P .P) 0 f)) := by
  intro hall
  obtain ⟨n1, f1, a1, a2, f, hf, h16⟩ := hall (fun _ => none) (fun _ => none) ['f']
  rcases Nat.lt_or_ge 16 M with h | h
  · rw [(C54_large_M_broken S h _ _ _).1] at a1
    cases a1
  · obtain ⟨n2, f2, b1, b2, h2⟩ := C54_small_M_broken S R (M := M) (by omega) (by omega) 1 save surface_valid
      (fun _ => none) (fun _ => none) ['f']
    rw [a1] at b1; cases b1
    rw [a2] at b2; cases b2
    obtain ⟨n3, f3, c1, c2, h3⟩ := C54_sixteen_partial S R 1 save surface_valid (fun _ => none) (fun _ => none) ['f']
    obtain ⟨n4, f4, d1, d2, h4⟩ := h16 (fun _ => none) (fun _ => none) ['f']
    rw [c1] at d1; cases d1
    rw [c2] at d2; cases d2
    have uniq : ∀ {fs : Files} {M : ℕ} {f g : (Sym → ℝ) → ℂ}, StoredComponent R fs save M (combo .P .P) 0 f →
        StoredComponent R fs save M (combo .P .P) 0 g → f = g := by
      rintro fs M f g ⟨d, l, s, e, p1, p2, _, p4, p5, p6⟩ ⟨d', l', s', e', q1, q2, _, q4, q5, q6⟩
      rw [p1] at q1; cases q1
      rw [p2] at q2; cases q2
      rw [p4] at q4; cases q4
      rw [p5] at q5; cases q5
      funext r
      rw [← p6, ← q6]
    have e1 := uniq hf (h2 .P .P 0 (by omega) (by omega))
    have e2 := uniq h4 (h3 .P .P 0 (by omega))
    have e3 := congrFun (e1.symm.trans e2) (fun s => if s = zzzSym then 1 else 0)
    have e4 := integralCoeff_sum {0} (fun _ => ((Real.sin 1 ^ 6 : ℝ) : ℂ)) (fun n => n) 0
    simp only [Finset.sum_singleton, Int.cast_zero, zero_mul, mul_zero, Complex.exp_zero, mul_one, if_true] at e4
    simp only [Rat.cast_one, surface_only_zzz] at e3
    rw [e4] at e3
    have hsn : 0 < Real.sin 1 := Real.sin_pos_of_pos_of_lt_pi one_pos (by linarith [Real.pi_gt_three])
    have : Real.sin 1 ^ 6 = 0 := by exact_mod_cast e3.symm
    exact absurd this (by positivity)

/-- An instance of the theorems on small `M`. -/
example : Generates Sympy.plain exRepr 8 (1 / 2) sampleTensor sampleQuadrupole ['s'] (fun fs' => ∀ p q m, -8 ≤ m ∧ m ≤ 8 →
    StoredComponent exRepr fs' ['s'] 8 (combo p q) m (fun _ => 0)) := by
  intro fs nfs pre
  obtain ⟨a, b, h1, h2, h3⟩ := C54_small_M_broken Sympy.plain exRepr (M := 8) (by norm_num) (by norm_num) (1 / 2) ['s']
    sample_valid' fs nfs pre
  exact ⟨a, b, h1, h2, fun p q m hm => h3 p q m (by omega) (by omega)⟩

end Shgpy
