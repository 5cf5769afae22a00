import Verif.Proofs.Seen
import Verif.Props.Nonnegative
import Verif.Props.PartialFit

/-!
# C131: which tensor elements a measurement sees
-/

namespace Shgpy
open Spec

/-! ## Physics -/

/-- **C131, the elements that are not seen.**  Crystals that agree in the elements seen in a combination of polarizations have the same
intensity in it, at every azimuth. -/
theorem C131_unseen {θ : ℝ} {p q : Pol} {X Y : Crystal} (h : SameSeen θ p q X Y) : ∀ φ, intensity X θ φ p q = intensity Y θ φ p q :=
  intensity_seen h

/-- **C131, the elements that are seen.**  Every other element is seen: a crystal which has this element only radiates in this
combination, at some azimuth. -/
theorem C131_seen (θ : ℝ) (p q : Pol) :
    (∀ i j k, (∃ φ, intensity (onlyEee i j k) θ φ p q ≠ 0) ↔ OfField θ q i ∧ OfField θ p j ∧ OfField θ p k) ∧
    (∀ i j k, (∃ φ, intensity (onlyMee i j k) θ φ p q ≠ 0) ↔ OfMoment θ q i ∧ OfField θ p j ∧ OfField θ p k) ∧
    (∀ i j k l, (∃ φ, intensity (onlyQee i j k l) θ φ p q ≠ 0) ↔
      OfField θ q i ∧ OfWave θ j ∧ OfField θ p k ∧ OfField θ p l) := by
  refine ⟨fun i j k => ⟨?_, ?_⟩, fun i j k => ⟨?_, ?_⟩, fun i j k l => ⟨?_, ?_⟩⟩
  · rintro ⟨φ, h⟩
    rw [intensity_amplitude, amplitude_onlyEee] at h
    simp only [ne_eq, Complex.normSq_eq_zero, mul_eq_zero, not_or] at h
    exact ⟨by_contra fun hn => h.1.1 (inCrystal_out hn), by_contra fun hn => h.1.2 (inCrystal_field hn),
      by_contra fun hn => h.2 (inCrystal_field hn)⟩
  · rintro ⟨h1, h2, h3⟩
    refine ⟨Real.pi / 4, ?_⟩
    rw [intensity_amplitude, amplitude_onlyEee]
    simp only [ne_eq, Complex.normSq_eq_zero, mul_eq_zero, not_or]
    exact ⟨⟨out_ne_zero h1, field_ne_zero h2⟩, field_ne_zero h3⟩
  · rintro ⟨φ, h⟩
    rw [intensity_amplitude, amplitude_onlyMee] at h
    simp only [ne_eq, Complex.normSq_eq_zero, mul_eq_zero, not_or] at h
    exact ⟨by_contra fun hn => h.1.1 (inCrystal_moment hn), by_contra fun hn => h.1.2 (inCrystal_field hn),
      by_contra fun hn => h.2 (inCrystal_field hn)⟩
  · rintro ⟨h1, h2, h3⟩
    refine ⟨Real.pi / 4, ?_⟩
    rw [intensity_amplitude, amplitude_onlyMee]
    simp only [ne_eq, Complex.normSq_eq_zero, mul_eq_zero, not_or]
    exact ⟨⟨moment_ne_zero h1, field_ne_zero h2⟩, field_ne_zero h3⟩
  · rintro ⟨φ, h⟩
    rw [intensity_amplitude, amplitude_onlyQee] at h
    simp only [ne_eq, Complex.normSq_eq_zero, mul_eq_zero, not_or] at h
    exact ⟨by_contra fun hn => h.2.1.1.1 (inCrystal_out hn), by_contra fun hn => h.2.1.1.2 (inCrystal_wave hn),
      by_contra fun hn => h.2.1.2 (inCrystal_field hn), by_contra fun hn => h.2.2 (inCrystal_field hn)⟩
  · rintro ⟨h1, h2, h3, h4⟩
    refine ⟨Real.pi / 4, ?_⟩
    rw [intensity_amplitude, amplitude_onlyQee]
    simp only [ne_eq, Complex.normSq_eq_zero, mul_eq_zero, not_or, Complex.I_ne_zero, not_false_eq_true, true_and]
    exact ⟨⟨⟨out_ne_zero h1, wave_ne_zero h2⟩, field_ne_zero h3⟩, field_ne_zero h4⟩

/-! ## The formulas -/

variable (S : Sympy) (ex : Rewriting) (R : Repr) (C : Compiler)

section
variable {theta : Expr} {eee mee qee : Option (Nd Expr)}

/-- **C131, formulas.**  The formulas that `formgen` returns for two triples of tensors have the same value in a combination, at all
values of the parameters at which the tensors agree in the elements seen in this combination. -/
theorem C131_formulas {eee' mee' qee' : Option (Nd Expr)} (hv : ValidTensors eee mee qee) (hv' : ValidTensors eee' mee' qee') :
    ∃ c c', formgen S ex theta eee mee qee = .ok c ∧ formgen S ex theta eee' mee' qee' = .ok c' ∧
      ∀ (r : Sym → ℝ) (θ : ℝ), theta.eval (realVal r) = (θ : ℂ) → ∀ p q,
        SameSeen θ p q (crystalOf eee mee qee (realVal r)) (crystalOf eee' mee' qee' (realVal r)) →
        Related c c' r r p q p q (fun x x' => x' = x) := by
  obtain ⟨c, hc, hd⟩ := formgen_ok S ex (theta := theta) hv
  obtain ⟨c', hc', hd'⟩ := formgen_ok S ex (theta := theta) hv'
  refine ⟨c, c', hc, hc', fun r θ hθ p q hs => ?_⟩
  obtain ⟨e, he, h⟩ := hd.2 p q
  obtain ⟨e', he', h'⟩ := hd'.2 p q
  refine ⟨e, e', he, he', ?_⟩
  show e'.eval (realVal r) = e.eval (realVal r)
  rw [h r θ hθ, h' r θ hθ, C131_unseen hs]

/-- **C131, fits.**  The cost of a choice of combinations has the same value at two points at which the angle of incidence and the
elements seen in these combinations are the same, whatever the other elements are: no fit to these combinations can determine them. -/
theorem C131_cost {c sub : FFormContainer} {pcs : List Key} {fdat : FDataContainer} {D : Key → ℤ → ℂ} {arguments : Option (List Sym)}
    {l : List Sym} {r r' : Sym → ℝ} {θ : ℝ} (hc : FourierFormulas S ex R theta eee qee c) (hv : ValidTensors eee none qee)
    (hphi : ¬ OccursInSome eee none qee phi) (hsub : partialFform S c pcs c.getM = .ok sub) (hM : fdat.getM = c.getM)
    (hD : ∀ k ∈ c.getKeys, k ∈ pcs → ∀ m : ℤ, -(c.getM : ℤ) ≤ m → m ≤ c.getM →
      DRepresents fdat k m (D k m) ∧ MachineNumber (D k m))
    (hl : ArgumentOrder S sub arguments l) (chunk : Bool) (hne : chunk = true → ∃ k ∈ c.getKeys, k ∈ pcs)
    (save : Option Key) (d : Disk) (hθ : theta.eval (realVal r) = (θ : ℂ)) (hθ' : theta.eval (realVal r') = (θ : ℂ))
    (hs : ∀ p q, combo p q ∈ pcs →
      SameSeen θ p q (crystalOf eee none qee (realVal r)) (crystalOf eee none qee (realVal r'))) :
    ∃ f d', genCostFunc S C d sub fdat arguments chunk save = .ok (f, d') ∧ f (l.map r') = f (l.map r) := by
  have hcr := fourierFormulas_reachable S ex R hc
  obtain ⟨hk, hcM, ϑ, β, hϑ, hcomp⟩ := fourier_components_angle S ex R hc hv hphi
  obtain ⟨F, hF⟩ := formulaIs_exists S hcr
  obtain ⟨f, d', g1, g2⟩ := C102_cost S C d hcr (fourierFormulas_symbolic hc) hsub hM hF hD hl chunk hne save
  refine ⟨f, d', g1, ?_⟩
  rw [g2, g2]
  unfold misfit
  congr 1
  refine List.map_congr_left (fun k hkk => ?_)
  obtain ⟨hkk, hkp⟩ := List.mem_filter.1 hkk
  have hkp : k ∈ pcs := by simpa using hkp
  refine Finset.sum_congr rfl (fun m hm => ?_)
  rw [Finset.mem_Icc] at hm
  have hm16 : -16 ≤ m ∧ m ≤ 16 := by
    have : (c.getM : ℤ) = 16 := by rw [hcM]; rfl
    omega
  have hpq : ∃ p q, k = combo p q := by
    rw [hk] at hkk
    simp only [List.mem_cons, List.not_mem_nil, or_false] at hkk
    rcases hkk with h | h | h | h <;> exact ⟨_, _, h⟩
  obtain ⟨p, q, rfl⟩ := hpq
  have e1 : ϑ r = θ := by exact_mod_cast (hϑ r).symm.trans hθ
  have e2 : ϑ r' = θ := by exact_mod_cast (hϑ r').symm.trans hθ'
  have heq : F (combo p q) m (realVal r') = F (combo p q) m (realVal r) := by
    rw [formula_value hF hkk hm (hcomp p q m hm16) r', formula_value hF hkk hm (hcomp p q m hm16) r]
    simp only [e1, e2, C131_unseen (hs p q hkp)]
  rw [heq]

end

/-! ## Cases -/

/-- At normal incidence only the elements with all indices in the surface are seen, for the electric dipole. -/
theorem C131_normal {X Y : Crystal} (hm : X.mee = Y.mee) (hq : X.qee = Y.qee)
    (h : ∀ i j k, i ≠ 2 → j ≠ 2 → k ≠ 2 → X.eee i j k = Y.eee i j k) : ∀ p q φ, intensity X 0 φ p q = intensity Y 0 φ p q := by
  have hf : ∀ {p : Pol} {a : Fin 3}, OfField 0 p a → a ≠ 2 := by
    intro p a ha h2
    cases p with
    | S => exact ha h2
    | P => exact ha.1 h2 (by simp)
  intro p q
  refine C131_unseen ⟨fun i j k a b c => ?_, fun i j k _ _ _ => by simp [Crystal.symmetrized, hm],
    fun i j k l _ _ _ _ => by simp [Crystal.symmetrized, hq]⟩
  simp only [Crystal.symmetrized, h i j k (hf a) (hf b) (hf c), h i k j (hf a) (hf c) (hf b)]

/-- With `S` light in and out, no element with an index along the normal is seen, at no angle of incidence, for the electric dipole.
With `P` light, all are seen, at 45 degrees. -/
theorem C131_oblique : (∀ θ i j k, (∃ φ, intensity (onlyEee i j k) θ φ .S .S ≠ 0) ↔ i ≠ 2 ∧ j ≠ 2 ∧ k ≠ 2) ∧
    (∀ i j k, ∃ φ, intensity (onlyEee i j k) (Real.pi / 4) φ .P .P ≠ 0) ∧
    (∀ i j k φ, intensity (onlyMee i j k) (Real.pi / 4) φ .P .P = 0) := by
  refine ⟨fun θ i j k => (C131_seen θ .S .S).1 i j k, fun i j k => ((C131_seen _ .P .P).1 i j k).2 ?_, fun i j k φ => ?_⟩
  · have : ∀ a, OfField (Real.pi / 4) .P a := fun a =>
      ⟨fun _ => by rw [Real.sin_pi_div_four]; positivity, fun _ => by rw [Real.cos_pi_div_four]; positivity⟩
    exact ⟨this _, this _, this _⟩
  · by_contra h
    have := ((C131_seen (Real.pi / 4) .P .P).2.1 i j k).1 ⟨φ, h⟩
    refine this.1.2 ?_
    rw [show 2 * (Real.pi / 4) = Real.pi / 2 by ring, Real.cos_pi_div_two]

/-- Crystals that differ, and agree in the elements seen with `S` light in and out. -/
example : onlyEee 2 0 0 ≠ onlyEee 2 1 1 ∧ ∀ θ, SameSeen θ .S .S (onlyEee 2 0 0) (onlyEee 2 1 1) := by
  refine ⟨fun h => ?_, fun θ => ⟨fun i j k a _ _ => ?_, fun _ _ _ _ _ _ => rfl, fun _ _ _ _ _ _ _ _ => rfl⟩⟩
  · have := congrFun (congrFun (congrFun (congrArg Crystal.eee h) 2) 0) 0
    simp [onlyEee] at this
  · have : i ≠ 2 := a
    simp [Crystal.symmetrized, onlyEee, this]

/-- A dipole tensor with a parameter at `zxx` and another at `xxx`. -/
def twoParameters : Nd Expr :=
  ⟨[3, 3, 3], fun idx => if idx = [2, 0, 0] then .sym (realSym ['z']) else if idx = [0, 0, 0] then .sym (realSym ['x']) else .num 0⟩

/-- The hypotheses of `C131_cost` are met: the cost of the combination `SS` does not depend on the parameter at `zxx`. -/
example (C : Compiler) (z z' : ℝ) : ∃ c sub fdat l f d', FourierFormulas Sympy.plain expanding exRepr (.num (1 / 2)) (some twoParameters)
      (some (zerosNd [3, 3, 3, 3])) c ∧ partialFform Sympy.plain c [combo .S .S] c.getM = .ok sub ∧ ArgumentOrder Sympy.plain sub none l ∧
    genCostFunc Sympy.plain C ⟨[], [], []⟩ sub fdat none false none = .ok (f, d') ∧
    f (l.map (fun s => if s = realSym ['z'] then z' else 1)) = f (l.map (fun s => if s = realSym ['z'] then z else 1)) := by
  have hocc : ∀ s, OccursInSome (some twoParameters) none (some (zerosNd [3, 3, 3, 3])) s → s = realSym ['z'] ∨ s = realSym ['x'] := by
    rintro s ⟨t, ht, idx, _, hs⟩
    rcases ht with ht | ht | ht
    · cases ht
      simp only [twoParameters] at hs
      split_ifs at hs <;> simp [Expr.free] at hs <;> simp [hs]
    · cases ht
    · cases ht
      simp [zerosNd, Expr.free] at hs
  have hv : ValidTensors (some twoParameters) none (some (zerosNd [3, 3, 3, 3])) := by
    refine ⟨?_, by simp, ?_, by simp, fun t ht s hs => ?_⟩
    · rintro t ⟨⟩; rfl
    · rintro t ⟨⟩; rfl
    · rcases hocc s ⟨t, ht, hs⟩ with rfl | rfl <;> rfl
  have hphi : ¬ OccursInSome (some twoParameters) none (some (zerosNd [3, 3, 3, 3])) phi := by
    intro h
    rcases hocc _ h with h | h <;> revert h <;> decide
  obtain ⟨nfs', fs', g1, g2, _, c, g3, _⟩ :=
    C52_components Sympy.plain exRepr (fun _ => none) (fun _ => none) ['f'] ['s'] (1 / 2) hv
  have hc : FourierFormulas Sympy.plain expanding exRepr (.num (1 / 2)) _ _ c := .hard (.num g1 g2 g3)
  have hr := fourierFormulas_reachable _ _ _ hc
  have hsym := fourierFormulas_symbolic hc
  obtain ⟨_, hM, _⟩ := fourier_components_angle _ _ _ hc hv hphi
  obtain ⟨sub, s1, s2, _, s4, s5⟩ := C102_selection Sympy.plain hr hsym [combo .S .S]
  obtain ⟨fdat, f1, f2⟩ := zero_data hM hr.good.wf
  have hsub : Symbolic sub := by
    intro k a ha
    have hk : k ∈ sub.getKeys := Dict.mem_keys_of_mem (s2.good.getPc_iff.1 ha)
    rw [s4] at hk
    have := (List.mem_filter.1 hk).2
    exact hsym k a ((s5 k (by simpa using this)).symm.trans ha)
  obtain ⟨l, hl, _⟩ := (C31_fform_free_symbols Sympy.plain s2).1 hsub
  obtain ⟨f, d', h1, h2⟩ := C131_cost Sympy.plain expanding exRepr C (θ := ((1 / 2 : ℚ) : ℝ))
    (r := fun s => if s = realSym ['z'] then z else 1) (r' := fun s => if s = realSym ['z'] then z' else 1)
    (arguments := none) (l := l) hc hv hphi s1 (f1.trans hM.symm) (fun k hk _ => f2 k hk) (.inr ⟨rfl, hl⟩) false (by simp) none
    ⟨[], [], []⟩ (by simp [Expr.eval]) (by simp [Expr.eval]) (fun p q hpq => by
      have : p = .S ∧ q = .S := by
        cases p <;> cases q <;> simp [combo, Pol.char] at hpq ⊢
      obtain ⟨rfl, rfl⟩ := this
      refine ⟨fun i j k a _ _ => ?_, fun _ _ _ _ _ _ => rfl, fun _ _ _ _ _ _ _ _ => by
        simp [Crystal.symmetrized, crystalOf, value4, zerosNd, Expr.eval]⟩
      have hi : (i : ℕ) ≠ 2 := fun h => a (Fin.ext h)
      have hx : realSym ['x'] ≠ realSym ['z'] := by decide
      simp only [Crystal.symmetrized, crystalOf, value3, twoParameters, Option.map_some, Option.getD_some, List.cons.injEq, hi,
        false_and, if_false]
      split_ifs <;> simp [Expr.eval, realVal, hx])
  exact ⟨c, sub, fdat, l, f, d', hc, s1, .inr ⟨rfl, hl⟩, h1, h2⟩

end Shgpy
