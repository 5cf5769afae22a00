import Verif.Proofs.Spline
import Verif.Props.Cubic

/-!
# The default interpolation is the cubic spline: C137
-/

namespace Shgpy
open Spec

/-- The second derivatives of a spline solve the equations. -/
theorem momentEq_of_spline {pts : List (ℝ × ℝ)} (h4 : 4 ≤ pts.length) (hp : pts.Pairwise (fun p q => p.1 < q.1)) {f : ℝ → ℝ}
    (hs : IsSpline pts f) : MomentEq pts.length (fun i => (pts.getD i (0, 0)).1) (fun i => (pts.getD i (0, 0)).2)
      (fun i => if i < pts.length then deriv (deriv f) (pts.getD i (0, 0)).1 else 0) := by
  have hinc := incr_of_pairwise hp
  set n := pts.length with hn
  set x : ℕ → ℝ := fun i => (pts.getD i (0, 0)).1 with hx
  set y : ℕ → ℝ := fun i => (pts.getD i (0, 0)).2 with hy
  have hat : ∀ i, i < n → pts[i]? = some (pts.getD i (0, 0)) := fun i h => by
    rw [List.getElem?_eq_getElem h, getD_at h]
  have hval : ∀ i, i < n → f (x i) = y i := fun i h => hs.through _ (List.mem_of_getElem? (hat i h))
  have hslope : ∀ {u v a b c d : ℝ}, u < v → (∀ t ∈ Set.Icc u v, f t = a + b * t + c * t ^ 2 + d * t ^ 3) →
      deriv f u = (f v - f u) / (v - u) - (v - u) * (2 * deriv (deriv f) u + deriv (deriv f) v) / 6 ∧
      deriv f v = (f v - f u) / (v - u) + (v - u) * (deriv (deriv f) u + 2 * deriv (deriv f) v) / 6 := by
    intro u v a b c d huv h
    have hd := derivs_of_cubic hs.smooth huv h
    have hu : u ∈ Set.Icc u v := ⟨le_rfl, huv.le⟩
    have hv : v ∈ Set.Icc u v := ⟨huv.le, le_rfl⟩
    rw [(hd u hu).1, (hd u hu).2, (hd v hv).1, (hd v hv).2, h u hu, h v hv]
    have : v - u ≠ 0 := by linarith
    constructor
    · field_simp
      ring
    · field_simp
      ring
  have hthird : ∀ {u v w a b c d : ℝ}, u < v → v < w → (∀ t ∈ Set.Icc u w, f t = a + b * t + c * t ^ 2 + d * t ^ 3) →
      (w - v) * (deriv (deriv f) v - deriv (deriv f) u) = (v - u) * (deriv (deriv f) w - deriv (deriv f) v) := by
    intro u v w a b c d huv hvw h
    have hd := derivs_of_cubic hs.smooth (huv.trans hvw) h
    rw [(hd u ⟨le_rfl, (huv.trans hvw).le⟩).2, (hd v ⟨huv.le, hvw.le⟩).2, (hd w ⟨(huv.trans hvw).le, le_rfl⟩).2]
    ring
  refine ⟨fun i hi => ?_, ?_, ?_, fun i hi => if_neg (by omega)⟩
  · rw [if_pos (by omega), if_pos (by omega), if_pos hi]
    obtain ⟨a, b, c, d, h1⟩ := hs.cubic i _ _ (hat i (by omega)) (hat (i + 1) (by omega))
    obtain ⟨a', b', c', d', h2⟩ := hs.cubic (i + 1) _ _ (hat (i + 1) (by omega)) (hat (i + 2) hi)
    have l1 := hinc i (by omega)
    have l2 := hinc (i + 1) hi
    have s1 := (hslope l1 h1).2
    have s2 := (hslope l2 h2).1
    have v0 := hval i (by omega)
    have v1 := hval (i + 1) (by omega)
    have v2 := hval (i + 2) hi
    simp only [hx, hy] at l1 l2 s1 s2 v0 v1 v2 ⊢
    rw [v0, v1] at s1
    rw [v1, v2] at s2
    linear_combination 6 * s2 - 6 * s1
  · rw [if_pos (by omega), if_pos (by omega), if_pos (by omega)]
    obtain ⟨a, b, c, d, h1⟩ := hs.left _ (hat 2 (by omega))
    exact hthird (hinc 0 (by omega)) (hinc 1 (by omega)) (fun t ht => h1 t ht.2)
  · rw [if_pos (by omega), if_pos (by omega), if_pos (by omega)]
    obtain ⟨a, b, c, d, h1⟩ := hs.right _ (hat (n - 3) (by omega))
    have k1 := hinc (n - 3) (by omega)
    have k2 := hinc (n - 2) (by omega)
    rw [show n - 3 + 1 = n - 2 by omega] at k1
    rw [show n - 2 + 1 = n - 1 by omega] at k2
    have := hthird k1 k2 (fun t ht => h1 t ht.1)
    linarith

/-- **C137, the spline.**  For four points or more at increasing angles, the default interpolation is the only function that passes through
the points, is twice continuously differentiable, and is a polynomial of degree three at most between two successive angles, up to the
third angle, and from the last but two on. -/
theorem C137_spline {pts : List (ℝ × ℝ)} (h4 : 4 ≤ pts.length) (hp : pts.Pairwise (fun p q => p.1 < q.1)) :
    ∃ f, cubicInterp pts = .ok f ∧ IsSpline pts f ∧ ∀ g, IsSpline pts g → g = f := by
  have hinc := incr_of_pairwise hp
  have hM := moments_spec h4 hinc (fun i => (pts.getD i (0, 0)).2)
  have hat : ∀ i, i < pts.length → pts[i]? = some (pts.getD i (0, 0)) := fun i h => by
    rw [List.getElem?_eq_getElem h, getD_at h]
  obtain ⟨f, hf, hthrough⟩ := C137_interpolation.1 pts h4 hp
  have hft : ∀ t, ∃ i, i + 1 < pts.length ∧ ((pts.getD i (0, 0)).1 ≤ t ∨ i = 0) ∧ (t ≤ (pts.getD (i + 1) (0, 0)).1 ∨ i + 2 = pts.length) ∧
      f t = pieceAt (fun i => (pts.getD i (0, 0)).1) (fun i => (pts.getD i (0, 0)).2)
        (moments pts.length (fun i => (pts.getD i (0, 0)).1) (fun i => (pts.getD i (0, 0)).2)) i t := by
    intro t
    obtain ⟨i, p, q, hi, hpi, hqi, hl, hr⟩ := interval_spec (by omega) hp t
    rw [cubicInterp_ok h4 hp] at hf
    cases hf
    have hil : i + 1 < pts.length := (List.getElem?_eq_some_iff.1 hqi).1
    have ep : pts.getD i (0, 0) = p := by rw [List.getD_eq_getElem?_getD, hpi]; rfl
    have eq : pts.getD (i + 1) (0, 0) = q := by rw [List.getD_eq_getElem?_getD, hqi]; rfl
    refine ⟨i, hil, ?_, ?_, ?_⟩
    · rw [ep]; exact hl.imp_left le_of_lt
    · rw [eq]; exact hr
    · dsimp only
      rw [hi, Nat.add_sub_cancel]
      rfl
  have hfun : f = truncSum pts.length (fun i => (pts.getD i (0, 0)).1) (fun i => (pts.getD i (0, 0)).2)
      (moments pts.length (fun i => (pts.getD i (0, 0)).1) (fun i => (pts.getD i (0, 0)).2)) := by
    funext t
    obtain ⟨i, hi, hl, hr, e⟩ := hft t
    rw [e, truncSum_eq hinc hM hi hl hr]
  have hcub : ∀ i s, CubicOn s (pieceAt (fun i => (pts.getD i (0, 0)).1) (fun i => (pts.getD i (0, 0)).2)
      (moments pts.length (fun i => (pts.getD i (0, 0)).1) (fun i => (pts.getD i (0, 0)).2)) i) := fun i s => cubic_pieceAt i s
  refine ⟨f, hf, ⟨hthrough, ?_, ?_, ?_, ?_⟩, ?_⟩
  · rw [hfun]
    exact contDiff_truncSum
  · intro i p q hpi hqi
    have hil : i + 1 < pts.length := (List.getElem?_eq_some_iff.1 hqi).1
    have ep : pts.getD i (0, 0) = p := by rw [List.getD_eq_getElem?_getD, hpi]; rfl
    have eq : pts.getD (i + 1) (0, 0) = q := by rw [List.getD_eq_getElem?_getD, hqi]; rfl
    refine (hcub i _).congr (fun t ht => ?_)
    rw [hfun]
    refine truncSum_eq hinc hM hil (.inl ?_) (.inl ?_)
    · rw [ep]; exact ht.1
    · rw [eq]; exact ht.2
  · intro p h2
    have ep : pts.getD 2 (0, 0) = p := by rw [List.getD_eq_getElem?_getD, h2]; rfl
    refine (hcub 0 _).congr (fun t ht => ?_)
    rw [hfun]
    refine truncSum_left h4 hinc hM ?_
    rw [ep]; exact ht
  · intro p h3
    have ep : pts.getD (pts.length - 3) (0, 0) = p := by rw [List.getD_eq_getElem?_getD, h3]; rfl
    refine (hcub (pts.length - 3) _).congr (fun t ht => ?_)
    rw [hfun]
    refine truncSum_right h4 hinc hM ?_
    rw [ep]; exact ht
  · intro g hg
    have hMg := momentEq_of_spline h4 hp hg
    have huni := moments_unique h4 hinc hM hMg
    funext t
    obtain ⟨i, hi, hl, hr, e⟩ := hft t
    rw [e]
    have hlt := hinc i hi
    obtain ⟨a, b, c, d, h1, h2⟩ : ∃ a b c d : ℝ, (∀ s ∈ Set.Icc (pts.getD i (0, 0)).1 (pts.getD (i + 1) (0, 0)).1,
        g s = a + b * s + c * s ^ 2 + d * s ^ 3) ∧ g t = a + b * t + c * t ^ 2 + d * t ^ 3 := by
      by_cases h0 : i = 0
      · subst h0
        obtain ⟨a, b, c, d, h⟩ := hg.left _ (hat 2 (by omega))
        have l12 := hinc 1 (by omega)
        refine ⟨a, b, c, d, fun s hs => h s (hs.2.trans l12.le), h t ?_⟩
        rcases hr with hr | hr
        · exact hr.trans l12.le
        · omega
      by_cases hlast : i + 2 = pts.length
      · obtain ⟨a, b, c, d, h⟩ := hg.right _ (hat (pts.length - 3) (by omega))
        have l12 := hinc (pts.length - 3) (by omega)
        rw [show pts.length - 3 + 1 = i by omega] at l12
        refine ⟨a, b, c, d, fun s hs => h s (l12.le.trans hs.1), h t ?_⟩
        rcases hl with hl | hl
        · exact l12.le.trans hl
        · omega
      · obtain ⟨a, b, c, d, h⟩ := hg.cubic i _ _ (hat i (by omega)) (hat (i + 1) hi)
        exact ⟨a, b, c, d, h, h t ⟨hl.resolve_right h0, hr.resolve_right hlast⟩⟩
    have hd := derivs_of_cubic hg.smooth hlt h1
    have hu : (pts.getD i (0, 0)).1 ∈ Set.Icc (pts.getD i (0, 0)).1 (pts.getD (i + 1) (0, 0)).1 := ⟨le_rfl, hlt.le⟩
    have hv : (pts.getD (i + 1) (0, 0)).1 ∈ Set.Icc (pts.getD i (0, 0)).1 (pts.getD (i + 1) (0, 0)).1 := ⟨hlt.le, le_rfl⟩
    have y0 := (h1 _ hu).symm.trans (hg.through _ (List.mem_of_getElem? (hat i (by omega))))
    have y1 := (h1 _ hv).symm.trans (hg.through _ (List.mem_of_getElem? (hat (i + 1) hi)))
    rw [h2, cubic_eq_piece hlt t, huni]
    unfold pieceAt
    dsimp only
    rw [if_pos (by omega), if_pos hi, (hd _ hu).2, (hd _ hv).2, ← y0, ← y1]

/-- The hypotheses of `C137_spline` are met by the cosine, measured at the angles 0, 1, 3 and 5. -/
example : ∃ f, cubicInterp [(0, Real.cos 0), (1, Real.cos 1), (3, Real.cos 3), (5, Real.cos 5)] = .ok f ∧
    IsSpline [(0, Real.cos 0), (1, Real.cos 1), (3, Real.cos 3), (5, Real.cos 5)] f := by
  obtain ⟨f, h1, h2, _⟩ := C137_spline (pts := [(0, Real.cos 0), (1, Real.cos 1), (3, Real.cos 3), (5, Real.cos 5)]) (by simp)
    (by simp; norm_num)
  exact ⟨f, h1, h2⟩

end Shgpy
