import Verif.Spec.Linear
import Verif.Props.LeastSquares
import Verif.Props.DataArith

/-!
# The Fourier transform of data is linear (C97)
-/

namespace Shgpy
open Spec

theorem dft_mul (N : ℕ) (f : ℝ → ℝ) (s : ℝ) (m : ℤ) : dft N (fun x => s * f x) m = s * dft N f m := by
  unfold dft
  simp only [Complex.ofReal_mul, Finset.mul_sum]
  exact Finset.sum_congr rfl (fun j _ => by ring)

theorem dft_add (N : ℕ) (f g : ℝ → ℝ) (m : ℤ) : dft N (fun x => f x + g x) m = dft N f m + dft N g m := by
  unfold dft
  rw [← mul_add, ← Finset.sum_add_distrib]
  congr 1
  exact Finset.sum_congr rfl (fun j _ => by push_cast; ring)

theorem dft_const {N : ℕ} (hN : N ≠ 0) (b : ℝ) (m : ℤ) : dft N (fun _ => b) m = if (N : ℤ) ∣ m then (b : ℂ) else 0 := by
  rw [dft_eq, ← Finset.mul_sum, sum_harmonic _ hN]
  have hNc : (N : ℂ) ≠ 0 := by exact_mod_cast hN
  simp only [dvd_neg]
  split
  · field_simp
  · simp

theorem Spec.LinearInterp.mapVal {interp : Interp} (h : LinearInterp interp) {pts : List (ℝ × ℝ)} {f : ℝ → ℝ} (hf : interp pts = .ok f)
    (a b : ℝ) : interp (pts.map (fun p => (p.1, a * p.2 + b))) = .ok (fun x => a * f x + b) := by
  obtain ⟨w, hw⟩ := h.weights
  have hfst : pts.map Prod.fst = (pts.map (fun p : ℝ × ℝ => (p.1, a * p.2 + b))).map Prod.fst := by simp [Function.comp_def]
  obtain ⟨g, hg⟩ := h.raises _ _ f hfst hf
  rw [hg]
  congr 1
  funext x
  obtain ⟨h1, _⟩ := hw _ _ hg x
  obtain ⟨h2, h3⟩ := hw _ _ hf x
  rw [h1, h2, Finset.mul_sum, ← hfst, List.length_map]
  have hb : b = ∑ i ∈ Finset.range pts.length, w (pts.map Prod.fst) x i * b := by rw [← Finset.sum_mul, h3, one_mul]
  conv_rhs => rw [hb]
  rw [← Finset.sum_add_distrib]
  refine Finset.sum_congr rfl (fun i hi => ?_)
  have hi' := Finset.mem_range.1 hi
  simp only [List.getD_eq_getElem?_getD, List.getElem?_map, List.getElem?_eq_getElem hi', Option.map_some, Option.getD_some]
  ring

theorem Spec.LinearInterp.combine {interp : Interp} (h : LinearInterp interp) {pts qts : List (ℝ × ℝ)} {f g : ℝ → ℝ}
    (hfst : pts.map Prod.fst = qts.map Prod.fst) (hf : interp pts = .ok f) (hg : interp qts = .ok g) (s : ℝ) :
    interp (List.zipWith (fun p q => (p.1, p.2 + s * q.2)) pts qts) = .ok (fun x => f x + s * g x) := by
  obtain ⟨w, hw⟩ := h.weights
  have hlen : pts.length = qts.length := by simpa using congrArg List.length hfst
  have hz : pts.map Prod.fst = (List.zipWith (fun p q : ℝ × ℝ => (p.1, p.2 + s * q.2)) pts qts).map Prod.fst := by
    rw [List.map_zipWith]
    apply List.ext_getElem
    · simp [hlen]
    · intro i h1 h2
      simp
  obtain ⟨r, hr⟩ := h.raises _ _ f hz hf
  rw [hr]
  congr 1
  funext x
  rw [(hw _ _ hr x).1, (hw _ _ hf x).1, (hw _ _ hg x).1, ← hz, ← hfst, List.length_zipWith, ← hlen, min_self, Finset.mul_sum,
    ← Finset.sum_add_distrib]
  refine Finset.sum_congr rfl (fun i hi => ?_)
  have hi' := Finset.mem_range.1 hi
  simp only [List.getD_eq_getElem?_getD, List.getElem?_zipWith, List.getElem?_eq_getElem hi', List.getElem?_eq_getElem (hlen ▸ hi'),
    Option.getD_some]
  ring

/-- The transform of transformable data exists and is the discrete transform of the interpolating functions. -/
theorem transform_of {interp : Interp} {dat : DataContainer ℝ} (hd : dat.Reachable) (ht : Transformable interp dat) (M : ℕ) :
    ∃ c, datToFdat interp dat M = .ok c ∧ c.getKeys = dat.getKeys ∧ c.getM = M ∧
      ∀ k pts f, dat.getPc k sRadians = .ok pts → interp pts = .ok f → ∀ m z, DRepresents c k m z ↔
        (-(M : ℤ) ≤ m ∧ m ≤ M) ∧ z = dft pts.length f m := by
  let F : Key → ℝ → ℝ := fun k => match dat.getPc k sRadians with
    | .ok pts => match interp pts with | .ok f => f | .error _ => 0
    | .error _ => 0
  have hF : ∀ k pts, dat.getPc k sRadians = .ok pts → 2 ≤ pts.length ∧ interp pts = .ok (F k) := by
    intro k pts hk
    obtain ⟨h1, f, h2⟩ := ht k pts hk
    refine ⟨h1, ?_⟩
    simp only [F, hk, h2]
  obtain ⟨c, h1, _, h2, h3, h4⟩ := C89_transform hd M hF
  refine ⟨c, h1, h2, h3, ?_⟩
  intro k pts f hk hf m z
  have hff : f = F k := Except.ok.inj (hf.symm.trans (hF k pts hk).2)
  constructor
  · rintro ⟨v, e1, e2⟩
    have hb := e2.1
    rw [h3] at hb
    obtain ⟨v', e3, e4⟩ := h4 k pts hk m hb.1 hb.2
    rw [e1] at e3; cases e3
    exact ⟨hb, by rw [hff]; exact Option.some.inj (e2.2.symm.trans e4.2)⟩
  · rintro ⟨⟨b1, b2⟩, rfl⟩
    rw [hff]
    exact h4 k pts hk m b1 b2

/-- Every component of transformed data comes from a combination of the data. -/
theorem key_of_drep {c : FDataContainer} {dat : DataContainer ℝ} (hd : dat.Reachable) (hk : c.getKeys = dat.getKeys) {k : Key} {m : ℤ} {z : ℂ}
    (h : DRepresents c k m z) : ∃ pts, dat.getPc k sRadians = .ok pts := by
  obtain ⟨v, h1, _⟩ := h
  have : k ∈ dat.getKeys := hk ▸ Dict.mem_keys_of_mem (Dict.mem_of_get? (Dict.get_ok_iff.1 h1))
  obtain ⟨p, hp⟩ := Dict.mem_keys.1 this
  exact ⟨p, get_of_mem (reachable_normalForm hd).1 hp⟩

section
variable {interp : Interp}

/-- The transform after replacing all values `y` by `a * y + b`. -/
theorem transform_affine (hI : LinearInterp interp) {dat dat' : DataContainer ℝ} (hd : dat.Reachable) (hd' : dat'.Reachable)
    (ht : Transformable interp dat) (a b : ℝ) (hkeys : dat'.getKeys = dat.getKeys)
    (hpts : ∀ k pts, dat.getPc k sRadians = .ok pts → dat'.getPc k sRadians = .ok (pts.map (fun p => (p.1, a * p.2 + b)))) (M : ℕ) :
    ∃ c c', datToFdat interp dat M = .ok c ∧ datToFdat interp dat' M = .ok c' ∧ c'.getKeys = c.getKeys ∧ c'.getM = c.getM ∧
      ∀ k m z, DRepresents c k m z → ∀ pts, dat.getPc k sRadians = .ok pts →
        DRepresents c' k m (a * z + if (pts.length : ℤ) ∣ m then (b : ℂ) else 0) := by
  have hget : ∀ k pts', dat'.getPc k sRadians = .ok pts' → ∃ pts, dat.getPc k sRadians = .ok pts ∧
      pts' = pts.map (fun p => (p.1, a * p.2 + b)) := by
    intro k pts' hk
    have : k ∈ dat.getKeys := by
      rw [← hkeys]
      rw [getPc_radians] at hk
      exact Dict.mem_keys_of_mem (Dict.mem_of_get? (Dict.get_ok_iff.1 hk))
    obtain ⟨p, hp⟩ := Dict.mem_keys.1 this
    have hp' : dat.getPc k sRadians = .ok p := get_of_mem (reachable_normalForm hd).1 hp
    refine ⟨p, hp', ?_⟩
    have := hpts k p hp'
    rw [hk] at this
    exact Except.ok.inj this
  have ht' : Transformable interp dat' := by
    intro k pts' hk
    obtain ⟨pts, h1, rfl⟩ := hget k pts' hk
    obtain ⟨h2, f, h3⟩ := ht k pts h1
    exact ⟨by simpa using h2, _, hI.mapVal h3 a b⟩
  obtain ⟨c, h1, h2, h3, h4⟩ := transform_of hd ht M
  obtain ⟨c', h1', h2', h3', h4'⟩ := transform_of hd' ht' M
  refine ⟨c, c', h1, h1', by rw [h2, h2', hkeys], by rw [h3, h3'], ?_⟩
  intro k m z hz pts hk
  obtain ⟨hlen, f, hf⟩ := ht k pts hk
  obtain ⟨hb, rfl⟩ := (h4 k pts f hk hf m z).1 hz
  refine (h4' k _ _ (hpts k pts hk) (hI.mapVal hf a b) m _).2 ⟨hb, ?_⟩
  rw [List.length_map, dft_add, dft_mul, dft_const (by omega)]

/-- C97.  `scale_data` and then `dat_to_fdat` is `dat_to_fdat` and then `scale_fdata`. -/
theorem C97_scale (hI : LinearInterp interp) {dat : DataContainer ℝ} (hd : dat.Reachable) (ht : Transformable interp dat) {s : ℝ}
    (hs : 0 ≤ s) (M : ℕ) :
    ∃ c c', datToFdat interp dat M = .ok c ∧ datToFdat interp (DataContainer.step dat (.scale s)).1 M = .ok c' ∧
      c'.getKeys = (FDataContainer.step c (.scale s)).1.getKeys ∧ c'.getM = (FDataContainer.step c (.scale s)).1.getM ∧
      ∀ k m z, DRepresents (FDataContainer.step c (.scale s)).1 k m z → DRepresents c' k m z := by
  have hst : (DataContainer.step dat (.scale s)).1 = { dat with data := dat.data.mapVals (scalePts s), scale := dat.scale * s } := by
    rw [step_scale, (scaleData_ok (c := dat) (s := s)).2 ⟨hs, rfl⟩]
  obtain ⟨c, c', h1, h2, h3, h4, h5⟩ := transform_affine hI hd (reachable_step hd (.scale s)) ht s 0
    (by rw [hst]; simp [DataContainer.getKeys]) (by
      intro k pts hk
      rw [hst, getPc_radians, Dict.get_ok_iff, Dict.get?_mapVals]
      rw [getPc_radians, Dict.get_ok_iff] at hk
      rw [hk]
      simp [scalePts]) M
  refine ⟨c, c', h1, h2, ?_, ?_, ?_⟩
  · rw [h3, FDataContainer.step_scale, if_neg (not_lt.2 hs)]
    simp [FDataContainer.getKeys]
  · rw [h4, FDataContainer.step_scale, if_neg (not_lt.2 hs)]
    rfl
  · intro k m z hz
    rw [FDataContainer.step_scale, if_neg (not_lt.2 hs)] at hz
    obtain ⟨v, e1, hb, e2⟩ := hz
    change Dict.get (c.fdata.mapVals _) k = .ok v at e1
    rw [Dict.get_ok_iff, Dict.get?_mapVals] at e1
    cases hv : Dict.get? c.fdata k with
    | none => rw [hv] at e1; cases e1
    | some v0 =>
      rw [hv] at e1
      cases e1
      rw [List.getElem?_map] at e2
      cases hz0 : v0[(m + ((c.getM : ℕ) : ℤ)).toNat]? with
      | none => exact absurd (e2.symm.trans (by show Option.map _ (v0[(m + ((c.getM : ℕ) : ℤ)).toNat]?) = _; rw [hz0])) (by simp)
      | some z0 =>
        have hzz : z = s * z0 := by
          have : Option.map (fun z : ℂ => (s : ℂ) * z) (v0[(m + ((c.getM : ℕ) : ℤ)).toNat]?) = some z := e2
          rw [hz0] at this
          exact (Option.some.inj this).symm
        have hr : DRepresents c k m z0 := ⟨v0, Dict.get_ok_iff.2 hv, hb, hz0⟩
        obtain ⟨pts, hp⟩ := key_of_drep hd (by
          obtain ⟨c0, g1, g2, _⟩ := transform_of hd ht M
          rw [h1] at g1; cases g1
          exact g2) hr
        have := h5 k m z0 hr pts hp
        simpa [hzz] using this

/-- C97.  `subtract_min` changes only the component of frequency 0, by the minimum, when there are more points than frequencies `0 … M`;
with `n ≤ M` points in a combination it changes the components whose frequency is a multiple of `n`. -/
theorem C97_subtract_min (hI : LinearInterp interp) {dat : DataContainer ℝ} (hd : dat.Reachable) (ht : Transformable interp dat)
    {k₀ : Key} {y : ℝ} (hmin : dat.getMinval = .ok (some (k₀, y))) (M : ℕ) :
    ∃ c c', datToFdat interp dat M = .ok c ∧ datToFdat interp (DataContainer.step dat .subtractMin).1 M = .ok c' ∧
      c'.getKeys = c.getKeys ∧ c'.getM = c.getM ∧
      ∀ k m z, DRepresents c k m z → ∀ pts, dat.getPc k sRadians = .ok pts →
        ((M < pts.length → DRepresents c' k m (if m = 0 then z - y else z)) ∧
        DRepresents c' k m (if (pts.length : ℤ) ∣ m then z - y else z)) := by
  have hst : (DataContainer.step dat .subtractMin).1 =
      { dat with data := dat.data.mapVals (lowerPts y), offset := dat.offset.map (fun o => o - y) } := by
    have : dat.subtractMin = .ok { dat with data := dat.data.mapVals (lowerPts y), offset := dat.offset.map (fun o => o - y) } := by
      unfold DataContainer.subtractMin
      rw [hmin]
      rfl
    rw [step_subtractMin, this]
  obtain ⟨c, c', h1, h2, h3, h4, h5⟩ := transform_affine hI hd (reachable_step hd .subtractMin) ht 1 (-y)
    (by rw [hst]; simp [DataContainer.getKeys]) (by
      intro k pts hk
      rw [hst, getPc_radians, Dict.get_ok_iff, Dict.get?_mapVals]
      rw [getPc_radians, Dict.get_ok_iff] at hk
      rw [hk]
      simp [lowerPts, sub_eq_add_neg]) M
  refine ⟨c, c', h1, h2, h3, h4, ?_⟩
  intro k m z hz pts hk
  have h6 : DRepresents c' k m (if (pts.length : ℤ) ∣ m then z - y else z) := by
    have := h5 k m z hz pts hk
    split <;> rename_i hdv <;> simpa [hdv, sub_eq_add_neg] using this
  refine ⟨fun hM => ?_, h6⟩
  obtain ⟨c0, g1, _, g2, _⟩ := transform_of hd ht M
  rw [h1] at g1; cases g1
  have hb := hz.choose_spec.2.1
  rw [g2] at hb
  have hiff : ((pts.length : ℤ) ∣ m) ↔ m = 0 := by
    constructor
    · intro hdv
      exact Int.eq_zero_of_abs_lt_dvd hdv (by rw [abs_lt]; omega)
    · rintro rfl; simp
  simpa only [hiff] using h6

/-- C97.  Subtracting (`s = -1`) or adding (`s = 1`) data with the same angles subtracts or adds the Fourier components: the correction by
a dark measurement can be done before or after the transform. -/
theorem C97_combine (hI : LinearInterp interp) {d₁ d₂ : DataContainer ℝ} (h₁ : d₁.Reachable) (h₂ : d₂.Reachable) (hd : DistinctKeys d₁)
    (hc : Combinable d₁ d₂) (ht₁ : Transformable interp d₁) (ht₂ : Transformable interp d₂)
    (hsame : ∀ k p₁ p₂, d₁.getPc k sRadians = .ok p₁ → d₂.getPc k sRadians = .ok p₂ → p₁.map Prod.fst = p₂.map Prod.fst) (M : ℕ) :
    ∃ c₁ c₂ diff sum cd cs, datToFdat interp d₁ M = .ok c₁ ∧ datToFdat interp d₂ M = .ok c₂ ∧
      datSubtract d₁ d₂ = .ok (diff, []) ∧ datToFdat interp diff M = .ok cd ∧ datAdd d₁ d₂ = .ok (sum, []) ∧
      datToFdat interp sum M = .ok cs ∧ cd.getKeys = c₁.getKeys ∧ cs.getKeys = c₁.getKeys ∧
      ∀ k m z₁ z₂, DRepresents c₁ k m z₁ → DRepresents c₂ k m z₂ → DRepresents cd k m (z₁ - z₂) ∧ DRepresents cs k m (z₁ + z₂) := by
  have key : ∀ (op : ℝ → ℝ → ℝ) (s : ℝ), (∀ a b, op a b = a + s * b) → ∃ c cd, datCombine op d₁ d₂ = .ok (c, []) ∧
      datToFdat interp c M = .ok cd ∧ cd.getKeys = d₁.getKeys ∧ ∀ c₁ c₂, datToFdat interp d₁ M = .ok c₁ → datToFdat interp d₂ M = .ok c₂ →
        ∀ k m z₁ z₂, DRepresents c₁ k m z₁ → DRepresents c₂ k m z₂ → DRepresents cd k m (z₁ + s * z₂) := by
    intro op s hop
    obtain ⟨c, e1, e2, e3, e4⟩ := combine_ok op h₁ h₂ hd hc
    have hpc : ∀ k p₁ p₂, d₁.getPc k sRadians = .ok p₁ → d₂.getPc k sRadians = .ok p₂ →
        c.getPc k sRadians = .ok (List.zipWith (fun p q => (p.1, p.2 + s * q.2)) p₁ p₂) := by
      intro k p₁ p₂ g1 g2
      rw [e4 k p₁ p₂ g1 g2]
      have : expand p₁ p₂ = p₂ := by
        have := (ht₂ k p₂ g2).1
        match p₂ with
        | [] => rfl
        | [q] => simp at this
        | _ :: _ :: _ => rfl
      rw [this]
      simp only [hop]
    have hboth : ∀ k p, c.getPc k sRadians = .ok p → ∃ p₁ p₂, d₁.getPc k sRadians = .ok p₁ ∧ d₂.getPc k sRadians = .ok p₂ := by
      intro k p hk
      have hk1 : k ∈ d₁.getKeys := by
        rw [← e3]
        rw [getPc_radians] at hk
        exact Dict.mem_keys_of_mem (Dict.mem_of_get? (Dict.get_ok_iff.1 hk))
      obtain ⟨p₁, hp₁⟩ := Dict.mem_keys.1 hk1
      obtain ⟨p₂, hp₂⟩ := Dict.mem_keys.1 ((hc.1 k).1 hk1)
      exact ⟨p₁, p₂, get_of_mem (reachable_normalForm h₁).1 hp₁, get_of_mem (reachable_normalForm h₂).1 hp₂⟩
    have htc : Transformable interp c := by
      intro k p hk
      obtain ⟨p₁, p₂, g1, g2⟩ := hboth k p hk
      rw [hpc k p₁ p₂ g1 g2] at hk
      cases hk
      obtain ⟨l1, f, hf⟩ := ht₁ k p₁ g1
      obtain ⟨l2, g, hg⟩ := ht₂ k p₂ g2
      exact ⟨by simp [l1, l2], _, hI.combine (hsame k p₁ p₂ g1 g2) hf hg s⟩
    obtain ⟨cd, i1, i2, i3, i4⟩ := transform_of e2 htc M
    refine ⟨c, cd, e1, i1, i2.trans e3, ?_⟩
    intro c₁ c₂ j1 j2 k m z₁ z₂ r1 r2
    obtain ⟨c₁', a1, a2, _, a4⟩ := transform_of h₁ ht₁ M
    rw [j1] at a1; cases a1
    obtain ⟨c₂', b1, b2, _, b4⟩ := transform_of h₂ ht₂ M
    rw [j2] at b1; cases b1
    obtain ⟨p₁, g1⟩ := key_of_drep h₁ a2 r1
    obtain ⟨p₂, g2⟩ := key_of_drep h₂ b2 r2
    obtain ⟨l1, f, hf⟩ := ht₁ k p₁ g1
    obtain ⟨l2, g, hg⟩ := ht₂ k p₂ g2
    obtain ⟨hb, rfl⟩ := (a4 k p₁ f g1 hf m z₁).1 r1
    obtain ⟨_, rfl⟩ := (b4 k p₂ g g2 hg m z₂).1 r2
    have hs := hsame k p₁ p₂ g1 g2
    have hlen : p₁.length = p₂.length := by simpa using congrArg List.length hs
    refine (i4 k _ _ (hpc k p₁ p₂ g1 g2) (hI.combine hs hf hg s) m _).2 ⟨hb, ?_⟩
    rw [List.length_zipWith, ← hlen, min_self, dft_add, dft_mul]
  obtain ⟨diff, cd, k1, k2, k3, k4⟩ := key (fun a b => a - b) (-1) (fun a b => by ring)
  obtain ⟨sum, cs, l1, l2, l3, l4⟩ := key (fun a b => a + b) 1 (fun a b => by ring)
  obtain ⟨c₁, a1, a2, _⟩ := transform_of h₁ ht₁ M
  obtain ⟨c₂, b1, b2, _⟩ := transform_of h₂ ht₂ M
  refine ⟨c₁, c₂, diff, sum, cd, cs, a1, b1, k1, k2, l1, l2, k3.trans a2.symm, l3.trans a2.symm, ?_⟩
  intro k m z₁ z₂ r1 r2
  refine ⟨?_, ?_⟩
  · have := k4 c₁ c₂ a1 b1 k m z₁ z₂ r1 r2
    have e : z₁ + ((-1 : ℝ) : ℂ) * z₂ = z₁ - z₂ := by push_cast; ring
    rwa [e] at this
  · have := l4 c₁ c₂ a1 b1 k m z₁ z₂ r1 r2
    have e : z₁ + ((1 : ℝ) : ℂ) * z₂ = z₁ + z₂ := by push_cast; ring
    rwa [e] at this

end

/-- An interpolation of kind `'previous'`: the value of the last point whose angle is not larger, and of the first point before it. -/
noncomputable def previousInterp : Interp := fun pts =>
  if pts = [] then .error .valueError
  else .ok (fun x => (pts.getD ((pts.filter (fun p => p.1 ≤ x)).length - 1) (0, 0)).2)

theorem previousInterp_linear : LinearInterp previousInterp := by
  refine ⟨?_, fun xs x i => if i = (xs.filter (· ≤ x)).length - 1 then 1 else 0, ?_⟩
  · intro pts qts f h hf
    unfold previousInterp at hf ⊢
    have : qts ≠ [] := by
      rintro rfl
      have : pts = [] := by simpa using h
      rw [if_pos this] at hf
      cases hf
    rw [if_neg this]
    exact ⟨_, rfl⟩
  · intro pts f hf x
    unfold previousInterp at hf
    split at hf
    · cases hf
    · rename_i hne
      cases hf
      have hl : ((pts.map Prod.fst).filter (· ≤ x)).length = (pts.filter (fun p => p.1 ≤ x)).length := by
        rw [List.filter_map, List.length_map]
        rfl
      have hlt : (pts.filter (fun p => p.1 ≤ x)).length - 1 < pts.length := by
        have h1 := List.length_filter_le (fun p : ℝ × ℝ => decide (p.1 ≤ x)) pts
        have h2 : 0 < pts.length := List.length_pos_of_ne_nil hne
        omega
      simp only [hl]
      constructor
      · rw [Finset.sum_eq_single ((pts.filter (fun p => p.1 ≤ x)).length - 1)]
        · simp
        · intro i _ hi; simp [hi]
        · intro h; exact absurd (Finset.mem_range.2 hlt) h
      · rw [Finset.sum_ite_eq', if_pos (Finset.mem_range.2 hlt)]

/-- The hypotheses of C97 are met by this interpolation and all data with two points or more. -/
example {dat : DataContainer ℝ} (h : ∀ k pts, dat.getPc k sRadians = .ok pts → 2 ≤ pts.length) : Transformable previousInterp dat := by
  intro k pts hk
  refine ⟨h k pts hk, ?_⟩
  unfold previousInterp
  have : pts ≠ [] := by
    rintro rfl
    have := h k [] hk
    simp at this
  rw [if_neg this]
  exact ⟨_, rfl⟩

/-- All hypotheses of `C97_combine` are met by two measurements at the angles 0 and 1. -/
example : ∃ d₁ d₂ : DataContainer ℝ, d₁.Reachable ∧ d₂.Reachable ∧ DistinctKeys d₁ ∧ Combinable d₁ d₂ ∧
    Transformable previousInterp d₁ ∧ Transformable previousInterp d₂ ∧ d₁.getPc kPP sRadians = .ok [(0, 5), (1, 7)] ∧
    d₂.getPc kPP sRadians = .ok [(0, 1), (1, 2)] ∧
    ∀ k p₁ p₂, d₁.getPc k sRadians = .ok p₁ → d₂.getPc k sRadians = .ok p₂ → p₁.map Prod.fst = p₂.map Prod.fst := by
  have hpi : (3 : ℝ) < HasPi.pi := Real.pi_gt_three
  have hnf : ∀ y y' : ℝ, NormalForm [(0, y), (1, y')] := by
    intro y y'
    refine ⟨by simp, ?_, by simp⟩
    intro p hp
    simp only [List.mem_cons, List.not_mem_nil, or_false] at hp
    rcases hp with rfl | rfl
    · exact ⟨le_rfl, by linarith⟩
    · exact ⟨by norm_num, by simp only; linarith⟩
  let mk : ℝ → ℝ → DataContainer ℝ := fun a b => ⟨[(kPP, [(0, a), (1, b)])], 1, 0, some 0, false, sRadians⟩
  have hr : ∀ a b, (mk a b).Reachable := by
    intro a b
    refine ⟨_, _, _, _, _, [], init_items (items := [(kPP, [(0, a), (1, b)])]) ?_ ?_ ?_, rfl⟩
    · simp [Dict.WF]
    · intro it hit
      rw [List.mem_singleton.1 hit]
      exact hnf _ _
    · intro it hit
      rw [List.mem_singleton.1 hit]
      simp
  have hpc : ∀ a b k pts, (mk a b).getPc k sRadians = .ok pts → pts = [(0, a), (1, b)] := by
    intro a b k pts hk
    have := Dict.mem_of_get? (Dict.get_ok_iff.1 hk)
    exact (Prod.mk.inj (List.mem_singleton.1 this)).2
  have htr : ∀ a b, Transformable previousInterp (mk a b) := by
    intro a b k pts hk
    rw [hpc a b k pts hk]
    exact ⟨le_rfl, _, by unfold previousInterp; rw [if_neg (by simp)]⟩
  refine ⟨mk 5 7, mk 1 2, hr _ _, hr _ _, ?_, ⟨fun k => Iff.rfl, by simp [mk, DataContainer.getKeys, Dict.keys], ?_, ?_⟩, htr _ _,
    htr _ _, rfl, rfl, ?_⟩
  · intro k pts hk
    rw [hpc _ _ k pts hk]
    simp
  · intro v₁ v₂ r₁ r₂ g1 g2
    cases g1; cases g2; rfl
  · intro k p₁ p₂ g1 g2
    rw [hpc _ _ k p₁ g1, hpc _ _ k p₂ g2]
    exact .cons (close_self _) (.cons (close_self _) .nil)
  · intro k p₁ p₂ g1 g2
    rw [hpc _ _ k p₁ g1, hpc _ _ k p₂ g2]
    rfl

end Shgpy
