import Verif.Props.DataOps

/-!
# C07: the exact law of the recorded offset
-/

set_option linter.unusedSectionVars false

namespace Shgpy
open Spec

variable {K : Type} [Field K] [LinearOrder K] [IsStrictOrderedRing K] [FloorRing K] [HasPi K]

/-- `q` is the point `p` moved by the angle `a`, lowered by `u` and then scaled by `s`. -/
def LoweredBy (a s u : K) (p q : K × K) : Prop := AngleEq q.1 (p.1 + a) ∧ q.2 = s * (p.2 - u)

/-- Item-wise correspondence of two dictionaries. -/
def ItemsMatched (R : K × K → K × K → Prop) (d d' : Dict Key (List (K × K))) : Prop :=
  List.Forall₂ (fun p q => q.1 = p.1 ∧ Matched R p.2 q.2) d d'

theorem ItemsMatched.mapVals {R S T : K × K → K × K → Prop} {d d' : Dict Key (List (K × K))} (h : ItemsMatched R d d')
    {f : List (K × K) → List (K × K)} (hf : ∀ v, Matched S v (f v)) (hT : ∀ p q r, R p q → S q r → T p r) :
    ItemsMatched T d (d'.mapVals f) := by
  unfold ItemsMatched Dict.mapVals at *
  rw [List.forall₂_map_right_iff]
  exact h.imp (fun p q hpq => ⟨hpq.1, hpq.2.trans hT (hf q.2)⟩)

theorem ItemsMatched.mono {R S : K × K → K × K → Prop} {d d' : Dict Key (List (K × K))} (h : ItemsMatched R d d')
    (hS : ∀ p q, R p q → S p q) : ItemsMatched S d d' := by
  unfold ItemsMatched at *
  exact h.imp (fun p q hpq => ⟨hpq.1, hpq.2.mono hS⟩)

theorem ItemsMatched.get {R : K × K → K × K → Prop} {d d' : Dict Key (List (K × K))} (h : ItemsMatched R d d') {k : Key}
    {v : List (K × K)} (hv : Dict.get d k = .ok v) : ∃ v', Dict.get d' k = .ok v' ∧ Matched R v v' := by
  rw [Dict.get_ok_iff] at hv
  suffices ∃ v', Dict.get? d' k = some v' ∧ Matched R v v' by
    obtain ⟨v', h1, h2⟩ := this
    exact ⟨v', Dict.get_ok_iff.2 h1, h2⟩
  unfold ItemsMatched at h
  induction h with
  | nil => cases hv
  | @cons p q _ _ h _ ih =>
    obtain ⟨pk, pv⟩ := p
    obtain ⟨qk, qv⟩ := q
    obtain ⟨h1, h2⟩ := h
    simp only at h1 h2
    subst h1
    simp only [Dict.get?] at hv ⊢
    split
    · next hk => rw [if_pos hk] at hv; cases hv; exact ⟨_, rfl, h2⟩
    · next hk => rw [if_neg hk] at hv; exact ih hv

theorem matched_mem_left {α β : Type} {R : α → β → Prop} {l : List α} {l' : List β} (h : Matched R l l') {a : α} (ha : a ∈ l) :
    ∃ b ∈ l', R a b := by
  obtain ⟨m, hm, hp⟩ := h
  obtain ⟨b, hb, hab⟩ := forall₂_mem_left hm ha
  exact ⟨b, hp.mem_iff.2 hb, hab⟩

theorem matched_mem_right {α β : Type} {R : α → β → Prop} {l : List α} {l' : List β} (h : Matched R l l') {b : β} (hb : b ∈ l') :
    ∃ a ∈ l, R a b := by
  obtain ⟨m, hm, hp⟩ := h
  exact forall₂_mem_right hm (hp.mem_iff.1 hb)

/-- The minimum of a container whose points are the lowered and scaled ones of another. -/
theorem min_lowered {d d' : Dict Key (List (K × K))} {a s u m₀ m : K} {k₀ k : Key} (hs : 0 ≤ s)
    (h : ItemsMatched (LoweredBy a s u) d d') (h₀ : FirstExtremum (fun x y : K => x < y) d k₀ m₀)
    (h' : FirstExtremum (fun x y : K => x < y) d' k m) : m = s * (m₀ - u) := by
  have hall : ∀ {d : Dict Key (List (K × K))} {k : Key} {m : K}, FirstExtremum (fun x y : K => x < y) d k m →
      (∃ it ∈ d, ∃ p ∈ it.2, p.2 = m) ∧ ∀ it ∈ d, ∀ p ∈ it.2, m ≤ p.2 := by
    rintro d k m ⟨pre, pts, post, rfl, ⟨p, hp, hm⟩, h1, h2, h3⟩
    refine ⟨⟨(k, pts), by simp, p, hp, hm⟩, ?_⟩
    intro it hit q hq
    rcases List.mem_append.1 hit with hit | hit
    · exact (h2 it hit q hq).le
    · rcases List.mem_cons.1 hit with rfl | hit
      · exact not_lt.1 (h1 q hq)
      · exact not_lt.1 (h3 it hit q hq)
  obtain ⟨⟨it₀, hit₀, p₀, hp₀, rfl⟩, hm₀⟩ := hall h₀
  obtain ⟨⟨it, hit, p, hp, rfl⟩, hm⟩ := hall h'
  apply le_antisymm
  · obtain ⟨it', hit', _, hmt⟩ := forall₂_mem_left h hit₀
    obtain ⟨q, hq, _, e⟩ := matched_mem_left hmt hp₀
    exact (hm it' hit' q hq).trans_eq e
  · obtain ⟨it', hit', _, hmt⟩ := forall₂_mem_right h hit
    obtain ⟨q, hq, _, e⟩ := matched_mem_right hmt hp
    rw [e]
    exact mul_le_mul_of_nonneg_left (sub_le_sub_right (hm₀ it' hit' q hq) _) hs

/-- What is known of the container `c'` relative to the constructed one `c`. -/
def Recorded (c c' : DataContainer K) (u o : K) : Prop :=
  c'.Reachable ∧ 0 ≤ c'.scale ∧ c'.offset = some o ∧ ItemsMatched (LoweredBy c'.phaseShift c'.scale u) c.data c'.data

theorem recorded_scale {c c' : DataContainer K} {u o s : K} (h : Recorded c c' u o) (hs : 0 ≤ s)
    (hr : ({ c' with data := c'.data.mapVals (scalePts s), scale := c'.scale * s } : DataContainer K).Reachable) :
    Recorded c { c' with data := c'.data.mapVals (scalePts s), scale := c'.scale * s } u o := by
  obtain ⟨_, h2, h3, h4⟩ := h
  refine ⟨hr, mul_nonneg h2 hs, h3, h4.mapVals (matched_scalePts s) ?_⟩
  rintro p q r ⟨e1, e2⟩ ⟨e3, e4⟩
  refine ⟨?_, ?_⟩
  · rw [add_zero] at e3
    exact e3.trans e1
  · rw [e4, e2]
    show _ = c'.scale * s * (p.2 - u)
    ring

theorem recorded_step {c c' : DataContainer K} {u o : K} (h : Recorded c c' u o) {op : DataContainer.Op K} (hop : ScalesOrShifts op) :
    Recorded c (DataContainer.step c' op).1 u o := by
  have hr := reachable_step h.1 op
  cases op with
  | scale s =>
    rw [step_scale] at hr ⊢
    cases hs : c'.scaleData s with
    | error e => exact h
    | ok c'' =>
      rw [hs] at hr
      obtain ⟨h0, rfl⟩ := scaleData_ok.1 hs
      exact recorded_scale h h0 hr
  | subtractMin => cases hop
  | normalize d =>
    rw [step_normalize] at hr ⊢
    cases hs : c'.normalizeData d with
    | error e => exact h
    | ok c'' =>
      rw [hs] at hr
      obtain ⟨s, hs⟩ := normalizeData_ok hs
      obtain ⟨h0, rfl⟩ := scaleData_ok.1 hs
      exact recorded_scale h h0 hr
  | phaseShift a w =>
    rw [step_phaseShift] at hr ⊢
    cases hs : c'.phaseShiftData a w with
    | error e => exact h
    | ok c'' =>
      rw [hs] at hr
      obtain ⟨r, _, rfl⟩ := phaseShiftData_ok hs
      obtain ⟨_, h2, h3, h4⟩ := h
      refine ⟨hr, h2, h3, h4.mapVals (matched_shiftPts r) ?_⟩
      rintro p q t ⟨e1, e2⟩ ⟨e3, e4⟩
      refine ⟨?_, ?_⟩
      · have := e3.trans (e1.add_right r)
        rwa [add_assoc] at this
      · rw [e4, e2, one_mul]
  | filter f => cases hop

theorem recorded_subtract {c c' : DataContainer K} {u o m₀ : K} {k₀ : Key} (h : Recorded c c' u o)
    (h₀ : FirstExtremum (fun x y : K => x < y) c.data k₀ m₀) :
    Recorded c (DataContainer.step c' .subtractMin).1 m₀ (o - c'.scale * (m₀ - u)) ∧
    (DataContainer.step c' .subtractMin).1.scale = c'.scale := by
  have hr := reachable_step h.1 .subtractMin
  obtain ⟨h1, h2, h3, h4⟩ := h
  rcases getMinval_spec (reachable_ne_nil h1) with ⟨h0, _⟩ | ⟨k, m, hm, hx⟩
  · rw [h0] at h4
    obtain ⟨pre, pts, post, e, _⟩ := h₀
    have hl := h4.length_eq
    rw [e] at hl
    simp at hl
  · obtain rfl := min_lowered h2 h4 h₀ hx
    have hst : (DataContainer.step c' .subtractMin).1 = { c' with
        data := c'.data.mapVals (lowerPts (c'.scale * (m₀ - u))), offset := c'.offset.map (fun o => o - c'.scale * (m₀ - u)) } := by
      rw [step_subtractMin]
      unfold DataContainer.subtractMin
      rw [hm]
      rfl
    rw [hst] at hr ⊢
    refine ⟨⟨hr, h2, by rw [h3]; rfl, h4.mapVals (S := fun p q => q.1 = p.1 ∧ q.2 = p.2 - c'.scale * (m₀ - u)) ?_ ?_⟩, rfl⟩
    · intro v
      apply Matched.of_forall₂
      unfold lowerPts
      rw [List.forall₂_map_right_iff, List.forall₂_same]
      exact fun p _ => ⟨rfl, rfl⟩
    · rintro p q r ⟨e1, e2⟩ ⟨e3, e4⟩
      refine ⟨e3 ▸ e1, ?_⟩
      rw [e4, e2]
      show _ = c'.scale * (p.2 - m₀)
      ring

/-- C07, exact.  Take any history of scalings, normalizations, phase shifts and subtractions of the minimum, in which the first
subtraction comes after `ops₁`.  The values are then the original ones, minus their minimum, times `get_scale()`; but `get_offset()` is
minus the minimum times the scale *at the first subtraction*. -/
theorem C07_exact {iter : List (RawKey × RawVal K)} {units : Key} {b : Bool}
    {c : DataContainer K} {w : List Key} (h : DataContainer.init iter units b = .ok (c, w))
    {k₀ : Key} {m₀ : K} (hm : c.getMinval = .ok (some (k₀, m₀))) (ops₁ ops₂ : List (DataContainer.Op K))
    (h₁ : ∀ op ∈ ops₁, ScalesOrShifts op) (h₂ : ∀ op ∈ ops₂, ScalesOrShifts op ∨ op = .subtractMin) :
    let c' := DataContainer.run c (ops₁ ++ .subtractMin :: ops₂)
    c'.getOffset = some (-((DataContainer.run c ops₁).getScale * m₀)) ∧
    ∃ a, c'.getPhaseShift sRadians = .ok a ∧ ∀ k pts, c.getPc k sRadians = .ok pts →
      ∃ pts', c'.getPc k sRadians = .ok pts' ∧
        Matched (fun p q => AngleEq q.1 (p.1 + a) ∧ q.2 = c'.getScale * (p.2 - m₀)) pts pts' := by
  have hr : c.Reachable := ⟨iter, units, b, c, w, [], h, rfl⟩
  obtain ⟨_, _, _, _, _, _, hc, _⟩ := init_ok h
  have h₀ : FirstExtremum (fun x y : K => x < y) c.data k₀ m₀ := by
    rcases getMinval_spec (reachable_ne_nil hr) with ⟨_, h0⟩ | ⟨k, m, hm', hx⟩
    · rw [hm] at h0; cases h0
    · rw [hm] at hm'; cases hm'; exact hx
  have start : Recorded c c 0 0 := by
    refine ⟨hr, by rw [hc]; exact zero_le_one, by rw [hc], ?_⟩
    unfold ItemsMatched
    rw [List.forall₂_same]
    refine fun p _ => ⟨rfl, Matched.refl (fun q => ?_) _⟩
    have e1 : c.phaseShift = 0 := by rw [hc]
    have e2 : c.scale = 1 := by rw [hc]
    rw [e1, e2]
    exact ⟨by rw [add_zero]; exact AngleEq.refl _, by simp⟩
  have first : ∀ (ops : List (DataContainer.Op K)) (c' : DataContainer K) (u o : K), (∀ op ∈ ops, ScalesOrShifts op) →
      Recorded c c' u o → Recorded c (DataContainer.run c' ops) u o := by
    intro ops
    induction ops with
    | nil => exact fun c' u o _ hh => hh
    | cons op ops ih =>
      intro c' u o ho hh
      exact ih _ u o (fun q hq => ho q (List.mem_cons_of_mem _ hq)) (recorded_step hh (ho op (by simp)))
  have second : ∀ (ops : List (DataContainer.Op K)) (c' : DataContainer K) (o : K),
      (∀ op ∈ ops, ScalesOrShifts op ∨ op = .subtractMin) →
      Recorded c c' m₀ o → Recorded c (DataContainer.run c' ops) m₀ o := by
    intro ops
    induction ops with
    | nil => exact fun c' o _ hh => hh
    | cons op ops ih =>
      intro c' o ho hh
      refine ih _ o (fun q hq => ho q (List.mem_cons_of_mem _ hq)) ?_
      rcases ho op (by simp) with hop | rfl
      · exact recorded_step hh hop
      · have := (recorded_subtract hh h₀).1
        simpa using this
  have r1 := first ops₁ c 0 0 h₁ start
  have r2 := (recorded_subtract r1 h₀).1
  have r3 := second ops₂ _ _ h₂ r2
  have e : DataContainer.run c (ops₁ ++ .subtractMin :: ops₂) =
      DataContainer.run (DataContainer.step (DataContainer.run c ops₁) .subtractMin).1 ops₂ := by
    simp [DataContainer.run]
  intro c'
  have e' : c' = DataContainer.run (DataContainer.step (DataContainer.run c ops₁) .subtractMin).1 ops₂ := e
  rw [← e'] at r3
  obtain ⟨_, _, q3, q4⟩ := r3
  refine ⟨?_, c'.phaseShift, rfl, ?_⟩
  · unfold DataContainer.getOffset DataContainer.getScale
    rw [q3, sub_zero, zero_sub]
  · intro k pts hk
    rw [getPc_radians] at hk ⊢
    exact q4.get hk

theorem matched_sum {l l' : List (K × K)} {f : K → K} {R : K × K → K × K → Prop} (hR : ∀ p q, R p q → q.2 = f p.2)
    (h : Matched R l l') : (l'.map Prod.snd).sum = (l.map (fun p => f p.2)).sum := by
  obtain ⟨m, hm, hp⟩ := h
  rw [(hp.map Prod.snd).sum_eq]
  congr 1
  clear hp
  induction hm with
  | nil => rfl
  | cons h _ ih => rw [List.map_cons, List.map_cons, ih, hR _ _ h]

/-- C07, when the bookkeeping is right.  After such a history every value is `get_scale() * y + get_offset()` exactly when the smallest
original value is zero or the scale is the same as at the first subtraction. -/
theorem C07_right_iff {iter : List (RawKey × RawVal K)} {units : Key} {b : Bool}
    {c : DataContainer K} {w : List Key} (h : DataContainer.init iter units b = .ok (c, w))
    {k₀ : Key} {m₀ : K} (hm : c.getMinval = .ok (some (k₀, m₀))) (ops₁ ops₂ : List (DataContainer.Op K))
    (h₁ : ∀ op ∈ ops₁, ScalesOrShifts op) (h₂ : ∀ op ∈ ops₂, ScalesOrShifts op ∨ op = .subtractMin) :
    let c' := DataContainer.run c (ops₁ ++ .subtractMin :: ops₂)
    (∃ a o, c'.getPhaseShift sRadians = .ok a ∧ c'.getOffset = some o ∧ ∀ k pts, c.getPc k sRadians = .ok pts →
      ∃ pts', c'.getPc k sRadians = .ok pts' ∧
        Matched (fun p q => AngleEq q.1 (p.1 + a) ∧ q.2 = c'.getScale * p.2 + o) pts pts') ↔
    m₀ = 0 ∨ c'.getScale = (DataContainer.run c ops₁).getScale := by
  obtain ⟨g1, a, g2, g3⟩ := C07_exact h hm ops₁ ops₂ h₁ h₂
  intro c'
  have hr : c.Reachable := ⟨iter, units, b, c, w, [], h, rfl⟩
  constructor
  · rintro ⟨a', o, _, e2, e3⟩
    rw [g1] at e2
    cases e2
    obtain ⟨k, pts, hk, hne⟩ : ∃ k pts, c.getPc k sRadians = .ok pts ∧ pts ≠ [] := by
      rcases getMinval_spec (reachable_ne_nil hr) with ⟨_, h0⟩ | ⟨k, m, hm', pre, pts, post, e, ⟨p, hp, _⟩, _⟩
      · rw [hm] at h0; cases h0
      · obtain ⟨items, hi, hi', hi'', _⟩ := C01_construction_normal_form h
        rw [getItems_radians] at hi
        cases hi
        refine ⟨k, pts, ?_, List.ne_nil_of_mem hp⟩
        rw [getPc_radians]
        exact get_of_mem hi'' (by rw [e]; simp)
    obtain ⟨p1, f1, f2⟩ := g3 k pts hk
    obtain ⟨p2, f3, f4⟩ := e3 k pts hk
    rw [f1] at f3
    cases f3
    have s1 := matched_sum (f := fun y => c'.getScale * (y - m₀)) (fun p q hpq => hpq.2) f2
    have s2 := matched_sum (f := fun y => c'.getScale * y + -((DataContainer.run c ops₁).getScale * m₀)) (fun p q hpq => hpq.2) f4
    rw [s1] at s2
    have : (pts.length : K) * ((c'.getScale - (DataContainer.run c ops₁).getScale) * m₀) = 0 := by
      have hlin : ∀ l : List (K × K), (l.length : K) * ((c'.getScale - (DataContainer.run c ops₁).getScale) * m₀) =
          (l.map (fun p => c'.getScale * p.2 + -((DataContainer.run c ops₁).getScale * m₀))).sum -
            (l.map (fun p => c'.getScale * (p.2 - m₀))).sum := by
        intro l
        induction l with
        | nil => simp
        | cons p l ih =>
          simp only [List.length_cons, List.map_cons, List.sum_cons, Nat.cast_add, Nat.cast_one, add_mul, ih]
          ring
      rw [hlin, s2, sub_self]
    rcases mul_eq_zero.1 this with hz | hz
    · exact absurd (List.length_eq_zero_iff.1 (by exact_mod_cast hz)) hne
    · rcases mul_eq_zero.1 hz with hz | hz
      · exact Or.inr (sub_eq_zero.1 hz)
      · exact Or.inl hz
  · intro hh
    refine ⟨a, _, g2, g1, fun k pts hk => ?_⟩
    obtain ⟨p1, f1, f2⟩ := g3 k pts hk
    refine ⟨p1, f1, f2.mono fun p q hpq => ⟨hpq.1, ?_⟩⟩
    rw [hpq.2]
    rcases hh with rfl | hh
    · show c'.getScale * (p.2 - 0) = c'.getScale * p.2 + -((DataContainer.run c ops₁).getScale * 0)
      ring
    · show c'.getScale * (p.2 - m₀) = c'.getScale * p.2 + -((DataContainer.run c ops₁).getScale * m₀)
      rw [← hh]; ring

/-- The hypotheses of `C07_exact` and `C07_right_iff` are met, with a smallest value that is not zero. -/
example : ∃ (c : DataContainer ℚ) (w : List Key) (k₀ : Key) (m₀ : ℚ),
    DataContainer.init [(.str kPP, .arr2 .float [[0, 1], [1, 3]])] sRadians false = .ok (c, w) ∧
    c.getMinval = .ok (some (k₀, m₀)) ∧ m₀ ≠ 0 ∧
    (∀ op ∈ [DataContainer.Op.scale (2 : ℚ), .phaseShift 1 sRadians], ScalesOrShifts op) ∧
    ∀ op ∈ [DataContainer.Op.normalize (2 : ℚ), .subtractMin], ScalesOrShifts op ∨ op = .subtractMin := by
  refine ⟨⟨[(kPP, [(0, 1), (1, 3)])], 1, 0, some 0, false, sRadians⟩, [], kPP, 1, ?_, ?_, by norm_num, ?_, ?_⟩
  · have h0 : pmod (0 : ℚ) = 0 := pmod_of_inTurn ⟨le_rfl, by have := HasPi.pi_pos (K := ℚ); linarith⟩
    have h1 : pmod (1 : ℚ) = 1 := pmod_of_inTurn ⟨by norm_num, by unfold HasPi.pi instHasPiRat; norm_num⟩
    have hs : sortPts [((0 : ℚ), (1 : ℚ)), (1, 3)] = [(0, 1), (1, 3)] := sortPts_of_sorted (by simp)
    rw [init_eq, if_pos (Or.inl rfl)]
    simp [Dict.ofPairs, Dict.set, checkIterable, checkVal, radDict, sRadians, sDegrees, Dict.mapVals,
      finalPts, dedupFrom, duplicateWarnings, h0, h1, hs]
  · simp [DataContainer.getMinval, DataContainer.minLoop, DataContainer.pyMin, bind, Except.bind]
  · simp [ScalesOrShifts]
  · simp [ScalesOrShifts]

end Shgpy
