import Verif.Props.Default
import Verif.Props.Linear

/-!
# The Fourier transform of data is linear with the default interpolation: C97

The interpolation of `C97_scale`, `C97_subtract_min` and `C97_combine` is `scipy.interpolate.interp1d(kind='cubic')` (Model/CubicInterp.lean),
and that the data can be transformed is said by the success of one call of `dat_to_fdat`.
-/

namespace Shgpy
open Spec

/-- Data that was once transformed with the default interpolation has two points or more in every combination, and they can be
interpolated. -/
theorem transformable_of_default {dat : DataContainer ℝ} (hd : dat.Reachable) {M : ℕ} {c : FDataContainer}
    (h : datToFdat cubicInterp dat M = .ok c) : Transformable cubicInterp dat := by
  intro k pts hk
  obtain ⟨h4, hnd⟩ := (C139_domain hd M).1.1 ⟨c, h⟩ k pts hk
  have hn : NormalForm pts := by
    obtain ⟨_, hn⟩ := reachable_normalForm hd
    rw [getPc_radians, Dict.get_ok_iff] at hk
    exact hn _ (Dict.mem_of_get? hk)
  exact ⟨by omega, _, cubicInterp_ok h4 ((pairwise_lt_iff hn).2 hnd)⟩

/-- **C97 with the default interpolation.**  `scale_data` and then `dat_to_fdat` is `dat_to_fdat` and then `scale_fdata`. -/
theorem C97_scale_default {dat : DataContainer ℝ} (hd : dat.Reachable) {M : ℕ} {c : FDataContainer}
    (h : datToFdat cubicInterp dat M = .ok c) {s : ℝ} (hs : 0 ≤ s) :
    ∃ c', datToFdat cubicInterp (DataContainer.step dat (.scale s)).1 M = .ok c' ∧
      c'.getKeys = (FDataContainer.step c (.scale s)).1.getKeys ∧ c'.getM = (FDataContainer.step c (.scale s)).1.getM ∧
      ∀ k m z, DRepresents (FDataContainer.step c (.scale s)).1 k m z → DRepresents c' k m z := by
  obtain ⟨c₀, c', h1, h2, h3⟩ := C97_scale C137_interpolation.2 hd (transformable_of_default hd h) hs M
  cases h.symm.trans h1
  exact ⟨c', h2, h3⟩

/-- **C97 with the default interpolation.**  `subtract_min` changes only the component of frequency 0, by the minimum, when the
combination has more than `M` points; otherwise the components at the multiples of the number of points. -/
theorem C97_subtract_min_default {dat : DataContainer ℝ} (hd : dat.Reachable) {M : ℕ} {c : FDataContainer}
    (h : datToFdat cubicInterp dat M = .ok c) {k₀ : Key} {y : ℝ} (hmin : dat.getMinval = .ok (some (k₀, y))) :
    ∃ c', datToFdat cubicInterp (DataContainer.step dat .subtractMin).1 M = .ok c' ∧
      c'.getKeys = c.getKeys ∧ c'.getM = c.getM ∧
      ∀ k m z, DRepresents c k m z → ∀ pts, dat.getPc k sRadians = .ok pts →
        ((M < pts.length → DRepresents c' k m (if m = 0 then z - y else z)) ∧
        DRepresents c' k m (if (pts.length : ℤ) ∣ m then z - y else z)) := by
  obtain ⟨c₀, c', h1, h2, h3⟩ := C97_subtract_min C137_interpolation.2 hd (transformable_of_default hd h) hmin M
  cases h.symm.trans h1
  exact ⟨c', h2, h3⟩

/-- **C97 with the default interpolation.**  Subtracting or adding data with the same angles subtracts or adds the Fourier components. -/
theorem C97_combine_default {d₁ d₂ : DataContainer ℝ} (h₁ : d₁.Reachable) (h₂ : d₂.Reachable) (hd : DistinctKeys d₁)
    (hc : Combinable d₁ d₂) {M : ℕ} {c₁ c₂ : FDataContainer} (ht₁ : datToFdat cubicInterp d₁ M = .ok c₁)
    (ht₂ : datToFdat cubicInterp d₂ M = .ok c₂)
    (hsame : ∀ k p₁ p₂, d₁.getPc k sRadians = .ok p₁ → d₂.getPc k sRadians = .ok p₂ → p₁.map Prod.fst = p₂.map Prod.fst) :
    ∃ diff sum cd cs, datSubtract d₁ d₂ = .ok (diff, []) ∧ datToFdat cubicInterp diff M = .ok cd ∧ datAdd d₁ d₂ = .ok (sum, []) ∧
      datToFdat cubicInterp sum M = .ok cs ∧ cd.getKeys = c₁.getKeys ∧ cs.getKeys = c₁.getKeys ∧
      ∀ k m z₁ z₂, DRepresents c₁ k m z₁ → DRepresents c₂ k m z₂ → DRepresents cd k m (z₁ - z₂) ∧ DRepresents cs k m (z₁ + z₂) := by
  obtain ⟨a₁, a₂, diff, sum, cd, cs, g1, g2, g3⟩ := C97_combine C137_interpolation.2 h₁ h₂ hd hc
    (transformable_of_default h₁ ht₁) (transformable_of_default h₂ ht₂) hsame M
  cases ht₁.symm.trans g1
  cases ht₂.symm.trans g2
  exact ⟨diff, sum, cd, cs, g3⟩

/-- The hypotheses are met: one combination at four directions. -/
example : ∃ (dat : DataContainer ℝ) (c : FDataContainer), dat.Reachable ∧ datToFdat cubicInterp dat 2 = .ok c ∧
    ∃ c', datToFdat cubicInterp (DataContainer.step dat (.scale 3)).1 2 = .ok c' := by
  obtain ⟨dat, w, h, hF⟩ := default_four_points
  obtain ⟨c, hc⟩ := hF [] 2
  have hd : dat.Reachable := ⟨_, _, _, _, _, [], h, rfl⟩
  obtain ⟨c', h', _⟩ := C97_scale_default hd hc (s := 3) (by norm_num)
  exact ⟨dat, c, hd, hc, c', h'⟩

end Shgpy
