import Verif.Proofs.Readers
import Verif.Props.Interrupt

/-!
# Threads that read a container while another thread changes it: C138

`trace ops` are the states of the instance while one thread makes the calls `ops`.  A thread that reads the container sees the state at one
moment, and then the state at the same or at a later moment.
-/

set_option linter.unusedSectionVars false

namespace Shgpy
open Spec

section
variable {K : Type} [Field K] [LinearOrder K] [IsStrictOrderedRing K] [FloorRing K] [HasPi K]

/-- **C138, one combination.**  For each combination there is a number of calls for each moment, which never decreases and is the number of
calls finished or one more, such that what a reader gets at that moment are the points of the combination after that many calls, in some
order. -/
theorem C138_combination_partial {c : DataContainer K} (hc : c.Reachable) (ops : List (DataContainer.Op K)) (k : Key) :
    ∃ ν : ℕ → ℕ, Monotone ν ∧ ∀ i c', (c.trace ops)[i]? = some c' →
      c.finished ops i ≤ ν i ∧ ν i ≤ c.finished ops i + 1 ∧ ν i ≤ ops.length ∧
      ∀ pts, (DataContainer.run c (ops.take (ν i))).getPc k sRadians = .ok pts →
        ∃ pts', c'.getPc k sRadians = .ok pts' ∧ pts'.Perm pts :=
  assemble (SamePoints.refl k) ops (fun op _ _ hc => cut_points hc op k) hc

/-- **C138, the recorded numbers.**  The scale, the offset and the phase shift are together those after a number of calls that never
decreases and is the number of calls finished or one more. -/
theorem C138_record {c : DataContainer K} (hc : c.Reachable) (ops : List (DataContainer.Op K)) :
    ∃ ν : ℕ → ℕ, Monotone ν ∧ ∀ i c', (c.trace ops)[i]? = some c' →
      c.finished ops i ≤ ν i ∧ ν i ≤ c.finished ops i + 1 ∧ ν i ≤ ops.length ∧
      c'.getScale = (DataContainer.run c (ops.take (ν i))).getScale ∧
      c'.getOffset = (DataContainer.run c (ops.take (ν i))).getOffset ∧
      c'.getPhaseShift sRadians = (DataContainer.run c (ops.take (ν i))).getPhaseShift sRadians :=
  assemble SameRecord.refl ops (fun op _ _ hc => cut_record hc op) hc

/-- **C138, all combinations, without `subtract_min` and `filter`.**  If the thread calls only `scale_data`, `normalize_data` and
`phase_shift_data`, the number of calls is the same for all combinations. -/
theorem C138_whole_partial {c : DataContainer K} (hc : c.Reachable) {ops : List (DataContainer.Op K)} (hops : ∀ op ∈ ops, ScalesOrShifts op) :
    ∃ ν : ℕ → ℕ, Monotone ν ∧ ∀ i c', (c.trace ops)[i]? = some c' →
      c.finished ops i ≤ ν i ∧ ν i ≤ c.finished ops i + 1 ∧ ν i ≤ ops.length ∧
      ∀ k pts, (DataContainer.run c (ops.take (ν i))).getPc k sRadians = .ok pts →
        ∃ pts', c'.getPc k sRadians = .ok pts' ∧ pts'.Perm pts := by
  refine assemble (R := fun c' c => ∀ k, SamePoints k c' c) (fun c k => SamePoints.refl k c) ops (fun op hop c hc => ?_) hc
  have hwf := (reachable_normalForm hc).1
  have hm : ∀ {p}, (∀ k, Cut (SamePoints k) c op p) → Cut (fun c' c => ∀ k, SamePoints k c' c) c op p :=
    fun h i c' hi => ⟨fun hip k => (h k i c' hi).1 hip, fun hip k => (h k i c' hi).2 hip⟩
  have ho := hops op hop
  cases op with
  | scale s =>
    obtain ⟨⟨p, h⟩, _⟩ := cut_scale (c := c) (.inl ⟨s, rfl⟩)
    exact ⟨p, hm (fun k => (h k).mono (fun _ _ => SamePoints.of_eq))⟩
  | normalize d =>
    obtain ⟨⟨p, h⟩, _⟩ := cut_scale (c := c) (.inr ⟨d, rfl⟩)
    exact ⟨p, hm (fun k => (h k).mono (fun _ _ => SamePoints.of_eq))⟩
  | phaseShift a u =>
    obtain ⟨⟨p, h⟩, _⟩ := cut_shift hwf a u
    exact ⟨p, hm h⟩
  | subtractMin => exact absurd ho id
  | filter f => exact absurd ho id

/-- **C138, only scales.**  If the thread calls only `scale_data` and `normalize_data`, what a reader gets from `get_items`, in any units, is
exactly what it would get after that number of calls. -/
theorem C138_scales {c : DataContainer K} (hc : c.Reachable) {ops : List (DataContainer.Op K)}
    (hops : ∀ op ∈ ops, (∃ s, op = .scale s) ∨ ∃ d, op = .normalize d) :
    ∃ ν : ℕ → ℕ, Monotone ν ∧ ∀ i c', (c.trace ops)[i]? = some c' →
      c.finished ops i ≤ ν i ∧ ν i ≤ c.finished ops i + 1 ∧ ν i ≤ ops.length ∧
      ∀ u, c'.getItems u = (DataContainer.run c (ops.take (ν i))).getItems u := by
  refine assemble (R := fun c' c => ∀ u, c'.getItems u = c.getItems u) (fun c u => rfl) ops (fun op hop c hc => ?_) hc
  rcases scale_like c op (hops op hop) with ⟨h1, h2⟩ | ⟨s, h1, h2⟩
  · exact ⟨0, cut_one (R := fun c' c => ∀ u, c'.getItems u = c.getItems u) (fun _ _ => rfl) h1 h2⟩
  · refine ⟨1, fun i c' hi => ?_⟩
    rw [h1] at hi
    rw [h2]
    match i, hi with
    | 0, hi => cases hi; exact ⟨fun _ _ => rfl, fun h => absurd h (by omega)⟩
    | 1, hi => cases hi; exact ⟨fun h => absurd h (by omega), fun _ _ => rfl⟩
    | 2, hi => cases hi; exact ⟨fun h => absurd h (by omega), fun _ _ => rfl⟩
    | i + 3, hi => exact absurd hi (by simp)

/-- **C138, after the last call.**  The last moment is the state after all the calls. -/
theorem C138_last (c : DataContainer K) (ops : List (DataContainer.Op K)) :
    (c.trace ops).getLast? = some (DataContainer.run c ops) := by
  induction ops generalizing c with
  | nil => rfl
  | cons op l ih =>
    unfold DataContainer.trace
    rw [List.getLast?_append, ih]
    rfl

/-! ### What a reader can get -/

theorem not_perm_sub {v : List (K × K)} (hv : v ≠ []) {m : K} (hm : m ≠ 0) : ¬ (v.map (fun p : K × K => (p.1, p.2 - m))).Perm v := by
  intro h
  have h1 := (h.map Prod.snd).sum_eq
  rw [List.map_map] at h1
  have h2 : ∀ w : List (K × K), (w.map (Prod.snd ∘ fun p : K × K => (p.1, p.2 - m))).sum = (w.map Prod.snd).sum - w.length * m := by
    intro w
    induction w with
    | nil => simp
    | cons p w ih =>
      simp only [List.map_cons, List.sum_cons, ih, Function.comp_apply, List.length_cons]
      push_cast
      ring
  rw [h2] at h1
  have h3 : (v.length : K) * m = 0 := by linarith
  rcases mul_eq_zero.1 h3 with h4 | h4
  · exact hv (List.length_eq_zero_iff.1 (by exact_mod_cast h4))
  · exact hm h4

/-- **C138 is false for all combinations when `subtract_min` is called.**  If the minimum is not 0 there is a moment at which the first
combination is the one after the call and the second the one before it: no number of calls gives what a reader gets, whatever the order of
the points. -/
theorem C138_subtract_broken {c : DataContainer K} (hc : c.Reachable) {k₁ k₂ k : Key} {v₁ v₂ : List (K × K)}
    {rest : List (Key × List (K × K))} (hi : c.getItems sRadians = .ok ((k₁, v₁) :: (k₂, v₂) :: rest)) {m : K}
    (hm : c.getMinval = .ok (some (k, m))) (h0 : m ≠ 0) :
    ∃ (i : ℕ) (c' : DataContainer K), (c.trace [.subtractMin])[i]? = some c' ∧
      c'.getPc k₁ sRadians = (DataContainer.step c .subtractMin).1.getPc k₁ sRadians ∧ c'.getPc k₂ sRadians = c.getPc k₂ sRadians ∧
      ∀ n, ¬ ∀ k pts, (DataContainer.run c ([.subtractMin].take n)).getPc k sRadians = .ok pts →
        ∃ pts', c'.getPc k sRadians = .ok pts' ∧ pts'.Perm pts := by
  obtain ⟨hwf, hn⟩ := reachable_normalForm hc
  rw [getItems_radians] at hi
  have hd : c.data = (k₁, v₁) :: (k₂, v₂) :: rest := Except.ok.inj hi
  have hne : k₂ ≠ k₁ := by
    intro he
    unfold Dict.WF at hwf
    rw [hd, Dict.keys_cons, Dict.keys_cons, he] at hwf
    exact absurd hwf (by simp)
  have hv₁ : v₁ ≠ [] := (hn (k₁, v₁) (by rw [hd]; simp)).1
  have hv₂ : v₂ ≠ [] := (hn (k₂, v₂) (by rw [hd]; simp)).1
  obtain ⟨c', hc', -, items, hitems, hitems'⟩ := C134_subtract_broken hc hm (n := 1) (by
    unfold DataContainer.getKeys
    rw [hd]
    simp [Dict.keys])
  rw [getItems_radians] at hitems hitems'
  have hd' := Except.ok.inj hitems'
  rw [← Except.ok.inj hitems, hd] at hd'
  simp only [partly, List.map_cons, List.take_succ_cons, List.take_zero, List.drop_succ_cons, List.drop_zero, List.singleton_append] at hd'
  have hst : (DataContainer.step c .subtractMin).1.data = c.data.mapVals (fun v => v.map (fun p => (p.1, p.2 - m))) := by
    rw [step_subtractMin]
    unfold DataContainer.subtractMin
    rw [hm]
    rfl
  have g1 : Dict.get? c.data k₁ = some v₁ := by rw [hd]; simp [Dict.get?]
  have g2 : Dict.get? c.data k₂ = some v₂ := by rw [hd]; simp [Dict.get?, hne.symm]
  have g1' : c'.getPc k₁ sRadians = .ok (v₁.map (fun p => (p.1, p.2 - m))) := by
    rw [getPc_radians, Dict.get_ok_iff, hd']; simp [Dict.get?]
  have g2' : c'.getPc k₂ sRadians = .ok v₂ := by
    rw [getPc_radians, Dict.get_ok_iff, hd']; simp [Dict.get?, hne.symm]
  have s1 : (DataContainer.step c .subtractMin).1.getPc k₁ sRadians = .ok (v₁.map (fun p => (p.1, p.2 - m))) := by
    rw [getPc_radians, Dict.get_ok_iff, hst, Dict.get?_mapVals, g1]; rfl
  have s2 : (DataContainer.step c .subtractMin).1.getPc k₂ sRadians = .ok (v₂.map (fun p => (p.1, p.2 - m))) := by
    rw [getPc_radians, Dict.get_ok_iff, hst, Dict.get?_mapVals, g2]; rfl
  have c1 : c.getPc k₁ sRadians = .ok v₁ := by rw [getPc_radians, Dict.get_ok_iff, g1]
  have c2 : c.getPc k₂ sRadians = .ok v₂ := by rw [getPc_radians, Dict.get_ok_iff, g2]
  obtain ⟨i, hi'⟩ := List.mem_iff_getElem?.1 (List.mem_append_left ((DataContainer.step c .subtractMin).1.trace []) hc')
  refine ⟨i, c', hi', g1'.trans s1.symm, g2'.trans c2.symm, fun n h => ?_⟩
  cases n with
  | zero =>
    obtain ⟨pts', e, hp⟩ := h k₁ v₁ c1
    rw [g1'] at e
    cases e
    exact not_perm_sub hv₁ h0 hp
  | succ n =>
    rw [List.take_succ_cons, List.take_nil] at h
    obtain ⟨pts', e, hp⟩ := h k₂ _ s2
    rw [g2'] at e
    cases e
    exact not_perm_sub hv₂ h0 hp.symm

/-- **C138 is false for data and scale together.**  While `scale_data` is called there is a moment at which a reader gets the scaled data with
the scale before the call. -/
theorem C138_scale_broken {c : DataContainer K} {s : K} (hs : 0 ≤ s) (h1 : s ≠ 1) (h0 : c.getScale ≠ 0)
    (hd : ∃ k pts, c.getPc k sRadians = .ok pts ∧ ∃ p ∈ pts, p.2 ≠ 0) :
    ∃ (i : ℕ) (c' : DataContainer K), (c.trace [.scale s])[i]? = some c' ∧
      ∀ n, ¬ (c'.getItems sRadians = (DataContainer.run c ([.scale s].take n)).getItems sRadians ∧
        c'.getScale = (DataContainer.run c ([.scale s].take n)).getScale) := by
  obtain ⟨c', hc', hi, hsc, -⟩ := C134_scale_broken (c := c) hs
  have hst : (DataContainer.step c (.scale s)).1 =
      { c with data := c.data.mapVals (fun v => v.map (fun p => (p.1, s * p.2))), scale := c.scale * s } := by
    rw [step_scale]
    unfold DataContainer.scaleData
    rw [if_neg (not_lt.2 hs)]
  obtain ⟨i, hi'⟩ := List.mem_iff_getElem?.1 (List.mem_append_left ((DataContainer.step c (.scale s)).1.trace []) hc')
  refine ⟨i, c', hi', fun n h => ?_⟩
  cases n with
  | zero =>
    obtain ⟨k, pts, hk, p, hp, hp0⟩ := hd
    have h2 := hi.symm.trans h.1
    rw [getItems_radians, hst] at h2
    have hd : c.data.mapVals (fun v => v.map (fun p : K × K => (p.1, s * p.2))) = c.data := Except.ok.inj h2
    rw [getPc_radians, Dict.get_ok_iff] at hk
    have := congrArg (fun d => Dict.get? d k) hd
    rw [Dict.get?_mapVals, hk] at this
    have hm : pts.map (fun p : K × K => (p.1, s * p.2)) = pts := Option.some.inj this
    have := (List.map_inj_left (g := id)).1 (hm.trans (List.map_id _).symm) p hp
    have h2 : s * p.2 = p.2 := congrArg Prod.snd this
    exact h1 (mul_right_cancel₀ hp0 (h2.trans (one_mul _).symm))
  | succ n =>
    rw [List.take_succ_cons, List.take_nil] at h
    have h2 := hsc.symm.trans h.2
    have h3 : c.scale = (DataContainer.step c (.scale s)).1.scale := h2
    rw [hst] at h3
    exact h1 (mul_left_cancel₀ (show c.scale ≠ 0 from h0) (h3.symm.trans (mul_one _).symm))

/-- **C138 is false for the order of the points.**  While `phase_shift_data` is called there is a moment at which the points of a combination
are not in order. -/
theorem C138_order_broken {c : DataContainer K} (hc : c.Reachable) {k : Key} {pts : List (K × K)} (hk : c.getPc k sRadians = .ok pts)
    {p q : K × K} (hp : p ∈ pts) (hq : q ∈ pts) (hpq : p.1 < q.1) :
    ∃ (a : K) (i : ℕ) (c' : DataContainer K), (c.trace [.phaseShift a sRadians])[i]? = some c' ∧ ∃ pts', c'.getPc k sRadians = .ok pts' ∧ ¬ NormalForm pts' := by
  obtain ⟨a, c', hc', -, pts', h1, h2⟩ := C134_shift_broken hc hk hp hq hpq
  obtain ⟨i, hi'⟩ := List.mem_iff_getElem?.1
    (List.mem_append_left ((DataContainer.step c (.phaseShift a sRadians)).1.trace []) hc')
  exact ⟨a, i, c', hi', pts', h1, h2⟩

end

/-! ### Concrete cases -/

/-- A container that meets the hypotheses of the theorems; it has two combinations, and its minimum is 1. -/
example : ∃ c : DataContainer ℚ, c.Reachable ∧
    c.getItems sRadians = .ok [(kPP, [(0, 1), (1, 2)]), (kSS, [(0, 3), (1, 4)])] ∧ c.getScale = 1 ∧
    c.getMinval = .ok (some (kPP, 1)) ∧ (c.trace [.scale 2, .subtractMin]).length = 8 := by
  have hpi : (3 : ℚ) < HasPi.pi := by unfold HasPi.pi instHasPiRat; norm_num
  have hnf : ∀ y y' : ℚ, NormalForm [(0, y), (1, y')] := by
    intro y y'
    refine ⟨by simp, ?_, by simp⟩
    intro p hp
    simp only [List.mem_cons, List.not_mem_nil, or_false] at hp
    rcases hp with rfl | rfl
    · exact ⟨le_rfl, by linarith⟩
    · exact ⟨by norm_num, by simp only; linarith⟩
  refine ⟨⟨[(kPP, [(0, 1), (1, 2)]), (kSS, [(0, 3), (1, 4)])], 1, 0, some 0, false, sRadians⟩,
    ⟨_, _, _, _, _, [], init_items (items := [(kPP, [(0, 1), (1, 2)]), (kSS, [(0, 3), (1, 4)])]) ?_ ?_ ?_, rfl⟩, rfl, rfl, ?_, ?_⟩
  · simp [Dict.WF]; decide
  · intro it hit
    simp only [List.mem_cons, List.not_mem_nil, or_false] at hit
    rcases hit with rfl | rfl <;> exact hnf _ _
  · intro it hit
    simp only [List.mem_cons, List.not_mem_nil, or_false] at hit
    rcases hit with rfl | rfl <;> simp
  · norm_num [DataContainer.getMinval, DataContainer.minLoop, DataContainer.pyMin, bind, Except.bind]
  · norm_num [DataContainer.trace, DataContainer.moments, DataContainer.scaleMoments, DataContainer.subtractMoments, step_scale,
      DataContainer.scaleData, DataContainer.getMinval, DataContainer.minLoop, DataContainer.pyMin, bind, Except.bind, Dict.mapVals,
      loopStates]

end Shgpy
