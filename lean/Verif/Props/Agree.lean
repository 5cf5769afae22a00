import Verif.Props.Incidence

/-!
# When the two generators of Fourier formulas agree: C53
-/

namespace Shgpy
open Spec

section
variable (S : Sympy) (ex : Rewriting) (R : Repr)

/-- **C53, exactly.**  The two ways give the same Fourier formula if and only if the odd components of the formula of `formgen` are zero for
all real values of the symbols. -/
theorem C53_exact {theta : Expr} {chiD chiQ : Nd Expr} (hv : ValidTensors (some chiD) none (some chiQ))
    (hphi : ¬ OccursInSome (some chiD) none (some chiQ) phi) (hs : SupportedForms S ex theta chiD chiQ)
    {easy hard : FFormContainer} (he : EasyWay S ex theta chiD chiQ easy) (hh : HardWay S R chiD chiQ hard theta) :
    (∀ p q m, -16 ≤ m ∧ m ≤ 16 → ∃ f, RealComponent easy (combo p q) m f ∧ RealComponent hard (combo p q) m f) ↔
      ∀ p q m, -16 ≤ m ∧ m ≤ 16 → Odd m → RealComponent easy (combo p q) m (fun _ => 0) := by
  obtain ⟨_, _, h⟩ := C53_half_turn_partial S R ex hv hphi hs he hh
  constructor
  · intro hag p q m hm hodd
    obtain ⟨f, h1, h2⟩ := h p q m hm
    obtain ⟨g, h3, h4⟩ := hag p q m hm
    have e1 := realComponent_unique h1 h3
    subst e1
    have e2 := realComponent_unique h2 h4
    have : f = fun _ => 0 := by
      funext r
      have := congrFun e2 r
      rw [hodd.neg_one_zpow, neg_one_mul] at this
      exact self_eq_neg.1 this.symm
    rwa [this] at h1
  · intro hz p q m hm
    obtain ⟨f, h1, h2⟩ := h p q m hm
    refine ⟨f, h1, ?_⟩
    rcases Int.even_or_odd m with he | ho
    · simpa only [he.neg_one_zpow, one_mul] using h2
    · have e := realComponent_unique h1 (hz p q m hm ho)
      subst e
      simpa only [mul_zero] using h2

/-- **C53 at normal incidence.**  At normal incidence the two ways give the same Fourier formula. -/
theorem C53_normal_partial {theta : Expr} {chiD chiQ : Nd Expr} (hv : ValidTensors (some chiD) none (some chiQ))
    (hphi : ¬ OccursInSome (some chiD) none (some chiQ) phi) (h0 : ∀ r : Sym → ℝ, theta.eval (realVal r) = 0)
    (hs : SupportedForms S ex theta chiD chiQ)
    {easy hard : FFormContainer} (he : EasyWay S ex theta chiD chiQ easy) (hh : HardWay S R chiD chiQ hard theta) :
    easy.getKeys = hard.getKeys ∧ easy.getM = hard.getM ∧
    ∀ p q m, -16 ≤ m ∧ m ≤ 16 → ∃ f, RealComponent easy (combo p q) m f ∧ RealComponent hard (combo p q) m f :=
  C126_generators S ex R hv hphi (hard_components S R hv hh).1 (fun r => by rw [h0, neg_zero]) hs he hh

end

/-- The hypotheses can be met: the sample tensors at normal incidence, in both ways. -/
example : ∃ easy hard, SupportedForms expandingSympy expanding (.num 0) sampleTensor sampleQuadrupole ∧
    EasyWay expandingSympy expanding (.num 0) sampleTensor sampleQuadrupole easy ∧
    HardWay expandingSympy exRepr sampleTensor sampleQuadrupole hard (.num 0) ∧
    ∀ p q m, -16 ≤ m ∧ m ≤ 16 → Odd m → RealComponent easy (combo p q) m (fun _ => 0) := by
  have hs := C67_expanding (theta := .num 0) sample_valid' sample_no_phi' (by simp [Expr.free])
  obtain ⟨easy, he, _⟩ := C67_easy_way expandingSympy expanding sample_valid' sample_no_phi' (by simp [Expr.free])
    (θ := fun _ => ((0 : ℚ) : ℝ)) (fun r => by simp [Expr.eval]) hs
  obtain ⟨nfs', fs', g1, g2, _, hard, g3, _⟩ :=
    C52_components expandingSympy exRepr (fun _ => none) (fun _ => none) ['f'] ['s'] 0 sample_valid'
  have hh : HardWay expandingSympy exRepr sampleTensor sampleQuadrupole hard (.num 0) := .num g1 g2 g3
  exact ⟨easy, hard, hs, he, hh, (C53_exact expandingSympy expanding exRepr sample_valid' sample_no_phi' hs he hh).1
    (C53_normal_partial expandingSympy expanding exRepr sample_valid' sample_no_phi' (fun r => by simp [Expr.eval]) hs he hh).2.2⟩

end Shgpy
