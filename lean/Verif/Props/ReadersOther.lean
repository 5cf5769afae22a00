import Verif.Proofs.ReadersOther
import Verif.Props.Interrupt

/-!
# Threads that read Fourier data or formulas while another thread changes them: C140

`trace ops` are the states of the instance while one thread makes the calls `ops`.  A thread that reads the container sees the state at one
moment, and then the state at the same or at a later moment.
-/

namespace Shgpy
open Spec

/-! ### Fourier data -/

/-- **C140, one combination of Fourier data.**  For each combination there is a number of calls for each moment, which never decreases and is
the number of calls finished or one more, such that what a reader gets at that moment is exactly the combination after that many calls. -/
theorem C140_fdata_partial {c : FDataContainer} (hc : c.Reachable) (ops : List FDataContainer.Op) (k : Key) :
    ∃ ν : ℕ → ℕ, Monotone ν ∧ ∀ i c', (c.trace ops)[i]? = some c' →
      c.finished ops i ≤ ν i ∧ ν i ≤ c.finished ops i + 1 ∧ ν i ≤ ops.length ∧
      c'.getPc k = (FDataContainer.run c (ops.take (ν i))).getPc k := by
  obtain ⟨ν, h1, h2⟩ := assembleOf (moments := FDataContainer.moments) (step := fun c op => (FDataContainer.step c op).1)
    (P := FDataContainer.Reachable) (fun c op h => h.step op)
    (R := fun c' c => Dict.get? c'.fdata k = Dict.get? c.fdata k) (fun _ _ => rfl) ops (fun op _ c hc => fdata_cut hc op k) hc
  refine ⟨ν, h1, fun i c' hi => ?_⟩
  obtain ⟨h3, h4, h5, h6⟩ := h2 i c' hi
  refine ⟨h3, h4, h5, ?_⟩
  unfold FDataContainer.getPc Dict.get
  rw [h6]
  rfl

/-- **C140, the recorded numbers of Fourier data.**  The scale and the phase shift are together those after a number of calls that never
decreases and is the number of calls finished or one more. -/
theorem C140_record {c : FDataContainer} (hc : c.Reachable) (ops : List FDataContainer.Op) :
    ∃ ν : ℕ → ℕ, Monotone ν ∧ ∀ i c', (c.trace ops)[i]? = some c' →
      c.finished ops i ≤ ν i ∧ ν i ≤ c.finished ops i + 1 ∧ ν i ≤ ops.length ∧
      c'.getScale = (FDataContainer.run c (ops.take (ν i))).getScale ∧
      ∀ u, c'.getPhaseShift u = (FDataContainer.run c (ops.take (ν i))).getPhaseShift u :=
  assembleOf (moments := FDataContainer.moments) (step := fun c op => (FDataContainer.step c op).1)
    (P := FDataContainer.Reachable) (fun _ op h => h.step op)
    (R := fun c' c => c'.getScale = c.getScale ∧ ∀ u, c'.getPhaseShift u = c.getPhaseShift u) (fun _ _ => ⟨rfl, fun _ => rfl⟩) ops
    (fun op _ _ hc => fdata_cut_record hc op) hc

/-- **C140, only scales.**  If the thread calls only `scale_fdata` and `normalize_fdata`, what a reader gets from `get_items` is exactly what
it would get after that number of calls. -/
theorem C140_scales {c : FDataContainer} (hc : c.Reachable) {ops : List FDataContainer.Op}
    (hops : ∀ op ∈ ops, (∃ s, op = .scale s) ∨ ∃ d, op = .normalize d) :
    ∃ ν : ℕ → ℕ, Monotone ν ∧ ∀ i c', (c.trace ops)[i]? = some c' →
      c.finished ops i ≤ ν i ∧ ν i ≤ c.finished ops i + 1 ∧ ν i ≤ ops.length ∧
      c'.getItems = (FDataContainer.run c (ops.take (ν i))).getItems := by
  refine assembleOf (moments := FDataContainer.moments) (step := fun c op => (FDataContainer.step c op).1)
    (P := FDataContainer.Reachable) (fun c op h => h.step op)
    (R := fun c' c => c'.getItems = c.getItems) (fun _ _ => rfl) ops (fun op hop c hc => ?_) hc
  rcases fscale_like c (hops op hop) with h | ⟨s, h1, h2⟩
  · exact cutOf_pair (R := fun c' c : FDataContainer => c'.getItems = c.getItems) rfl rfl (.inr h)
  · refine ⟨1, fun i c' hi => ?_⟩
    rw [h1] at hi
    dsimp only
    rw [h2]
    match i, hi with
    | 0, hi => cases hi; exact ⟨fun _ => rfl, fun h => absurd h (by omega)⟩
    | 1, hi => cases hi; exact ⟨fun h => absurd h (by omega), fun _ => rfl⟩
    | 2, hi => cases hi; exact ⟨fun h => absurd h (by omega), fun _ => rfl⟩
    | i + 3, hi => exact absurd hi (by simp)

/-- **C140, the frequencies.**  A reader of Fourier data always gets the same number of frequencies, the same combinations, and arrays of the
same length. -/
theorem C140_shape {c : FDataContainer} (hc : c.Reachable) (ops : List FDataContainer.Op) {i : ℕ} {c' : FDataContainer}
    (h : (c.trace ops)[i]? = some c') :
    c'.getM = c.getM ∧ ∀ k, (∀ v, c.getPc k = .ok v → ∃ v', c'.getPc k = .ok v' ∧ v'.length = 2 * c.getM + 1) ∧
      (∀ e, c.getPc k = .error e → c'.getPc k = .error e) := by
  have hM : ∀ (ops : List FDataContainer.Op) (c : FDataContainer), c.Reachable → ∀ c' ∈ c.trace ops, c'.getM = c.getM := by
    intro ops
    induction ops with
    | nil => intro c _ c' h; rw [List.mem_singleton.1 h]
    | cons op l ih =>
      intro c hc c' h
      rcases List.mem_append.1 h with h | h
      · exact (fdata_M hc op h).1
      · have h0 : (FDataContainer.step c op).1 ∈ c.moments op := List.mem_of_getLast? (fdata_last hc.good op)
        exact (ih _ (hc.step op) c' h).trans (fdata_M hc op h0).2
  refine ⟨hM ops c hc c' (List.mem_of_getElem? h), fun k => ?_⟩
  obtain ⟨ν, _, hν⟩ := C140_fdata_partial hc ops k
  have he := (hν i c' h).2.2.2
  have hr : ∀ (l : List FDataContainer.Op) (c : FDataContainer), c.Reachable →
      (FDataContainer.run c l).Reachable ∧ (FDataContainer.run c l).M = c.M ∧ (FDataContainer.run c l).fdata.keys = c.fdata.keys := by
    intro l
    induction l with
    | nil => intro c hc; exact ⟨hc, rfl, rfl⟩
    | cons op l ih =>
      intro c hc
      have h0 : (FDataContainer.step c op).1 ∈ c.moments op := List.mem_of_getLast? (fdata_last hc.good op)
      obtain ⟨h1, h2, h3⟩ := ih _ (hc.step op)
      refine ⟨h1, h2.trans (fdata_M hc op h0).2, h3.trans ?_⟩
      cases op with
      | scale s => rcases fscale_like c (.inl ⟨s, rfl⟩) with ⟨_, h2⟩ | ⟨s, _, h2⟩ <;> rw [h2]; exact Dict.keys_mapVals _ _
      | normalize d => rcases fscale_like c (.inr ⟨d, rfl⟩) with ⟨_, h2⟩ | ⟨s, _, h2⟩ <;> rw [h2]; exact Dict.keys_mapVals _ _
      | phaseShift a u => rcases fshift_moments hc.good a u with ⟨_, h2⟩ | ⟨h2, _⟩ <;> rw [h2]
  obtain ⟨h1, h2, h3⟩ := hr (ops.take (ν i)) c hc
  rw [he]
  constructor
  · intro v hv
    cases hd : Dict.get? (FDataContainer.run c (ops.take (ν i))).fdata k with
    | none =>
      rw [Dict.get?_eq_none, h3] at hd
      exact absurd (List.mem_map_of_mem (f := Prod.fst) (Dict.mem_of_get? (Dict.get_ok_iff.1 hv))) hd
    | some w =>
      exact ⟨w, Dict.get_ok_iff.2 hd, by rw [h1.good.len _ (Dict.mem_of_get? hd), h2]; rfl⟩
  · intro e hv
    unfold FDataContainer.getPc Dict.get at hv ⊢
    cases hd : Dict.get? c.fdata k with
    | some w => rw [hd] at hv; cases hv
    | none =>
      rw [hd] at hv
      rw [Dict.get?_eq_none, ← h3, ← Dict.get?_eq_none] at hd
      rw [hd]
      exact hv

/-- **C140 is false for all combinations of Fourier data when `phase_shift_fdata` is called.**  When two combinations have a first harmonic
and the angle is not a whole number of turns, there is a moment at which no number of calls gives what a reader gets from `get_items`. -/
theorem C140_fdata_broken {c : FDataContainer} (hc : c.Reachable) {k₁ k₂ : Key} {v₁ v₂ : List ℂ} {rest : Dict Key (List ℂ)}
    (hi : c.getItems = (k₁, v₁) :: (k₂, v₂) :: rest) {z w : ℂ} (hz : Component v₁ c.getM 1 z) (hz0 : z ≠ 0)
    (hw : Component v₂ c.getM 1 w) (hw0 : w ≠ 0) {a : ℝ} (ha : harmonic 1 a ≠ 1) :
    ∃ (i : ℕ) (c' : FDataContainer), (c.trace [.phaseShift a sRadians])[i]? = some c' ∧
      ∀ n, c'.getItems ≠ (FDataContainer.run c ([.phaseShift a sRadians].take n)).getItems := by
  obtain ⟨c', h1, h2⟩ := C134_fdata_broken hc hi hz hz0 hw hw0 ha
  obtain ⟨i, hi'⟩ := List.mem_iff_getElem?.1 (List.mem_append_left
    (traceOf FDataContainer.moments (fun c op => (FDataContainer.step c op).1) (FDataContainer.step c (.phaseShift a sRadians)).1 []) h1)
  refine ⟨i, c', hi', fun n he => ?_⟩
  cases n with
  | zero =>
    refine h2 0 [] ?_
    rw [FDataContainer.step_phaseShift hc.good.wf hc.good.len, if_neg (by decide)]
    exact he.symm
  | succ n =>
    rw [List.take_succ_cons, List.take_nil] at he
    exact h2 a sRadians he.symm

/-! ### Formulas -/

/-- **C140, one combination of a formula.**  The same for the formulas of both kinds of containers. -/
theorem C140_formula_partial {S : Sympy} :
    (∀ {c : FFormContainer}, c.Reachable S → ∀ (ops : List FFormContainer.Op) (k : Key),
      ∃ ν : ℕ → ℕ, Monotone ν ∧ ∀ i c', (c.trace S ops)[i]? = some c' →
        c.finished S ops i ≤ ν i ∧ ν i ≤ c.finished S ops i + 1 ∧ ν i ≤ ops.length ∧
        c'.getPc k = (FFormContainer.run S c (ops.take (ν i))).getPc k) ∧
    (∀ {c : FormContainer}, c.Reachable S → ∀ (ops : List FormContainer.Op) (k : Key),
      ∃ ν : ℕ → ℕ, Monotone ν ∧ ∀ i c', (c.trace S ops)[i]? = some c' →
        c.finished S ops i ≤ ν i ∧ ν i ≤ c.finished S ops i + 1 ∧ ν i ≤ ops.length ∧
        c'.getPc k = (FormContainer.run S c (ops.take (ν i))).getPc k) := by
  constructor
  · intro c hc ops k
    obtain ⟨ν, h1, h2⟩ := assembleOf (moments := FFormContainer.moments S) (step := fun c op => (FFormContainer.step S c op).1)
      (P := FFormContainer.Reachable S) (fun c op h => h.step op)
      (R := fun c' c => Dict.get? c'.fform k = Dict.get? c.fform k) (fun _ _ => rfl) ops (fun op _ c hc => fform_cut hc op k) hc
    refine ⟨ν, h1, fun i c' hi => ?_⟩
    obtain ⟨h3, h4, h5, h6⟩ := h2 i c' hi
    refine ⟨h3, h4, h5, ?_⟩
    unfold FFormContainer.getPc Dict.get
    rw [h6]
    rfl
  · intro c hc ops k
    obtain ⟨ν, h1, h2⟩ := assembleOf (moments := FormContainer.moments S) (step := fun c op => (FormContainer.step S c op).1)
      (P := FormContainer.Reachable S) (fun c op h => h.step op)
      (R := fun c' c => Dict.get? c'.form k = Dict.get? c.form k) (fun _ _ => rfl) ops (fun op _ c hc => form_cut hc op k) hc
    refine ⟨ν, h1, fun i c' hi => ?_⟩
    obtain ⟨h3, h4, h5, h6⟩ := h2 i c' hi
    refine ⟨h3, h4, h5, ?_⟩
    unfold FormContainer.getPc Dict.get
    rw [h6]
    rfl

/-- **C140, substitutions and phase shifts of formulas.**  If the thread calls only `subs` and `apply_phase_shift`, the whole container is at
each moment the one after that number of calls. -/
theorem C140_formula_whole {S : Sympy} :
    (∀ {c : FFormContainer}, c.Reachable S → ∀ {ops : List FFormContainer.Op}, (∀ op ∈ ops, ∀ s, op ≠ .scale s) →
      ∃ ν : ℕ → ℕ, Monotone ν ∧ ∀ i c', (c.trace S ops)[i]? = some c' →
        c.finished S ops i ≤ ν i ∧ ν i ≤ c.finished S ops i + 1 ∧ ν i ≤ ops.length ∧ c' = FFormContainer.run S c (ops.take (ν i))) ∧
    (∀ {c : FormContainer}, c.Reachable S → ∀ {ops : List FormContainer.Op},
      (∀ op ∈ ops, (∃ p, op = .subs p) ∨ ∃ a v, op = .phaseShift a v) →
      ∃ ν : ℕ → ℕ, Monotone ν ∧ ∀ i c', (c.trace S ops)[i]? = some c' →
        c.finished S ops i ≤ ν i ∧ ν i ≤ c.finished S ops i + 1 ∧ ν i ≤ ops.length ∧ c' = FormContainer.run S c (ops.take (ν i))) := by
  constructor
  · intro c hc ops hops
    exact assembleOf (moments := FFormContainer.moments S) (step := fun c op => (FFormContainer.step S c op).1)
      (P := FFormContainer.Reachable S) (fun c op h => h.step op)
      (R := fun c' c => c' = c) (fun _ _ => rfl) ops (fun op hop c hc => cutOf_pair rfl rfl (fform_atOnce hc (hops op hop))) hc
  · intro c hc ops hops
    exact assembleOf (moments := FormContainer.moments S) (step := fun c op => (FormContainer.step S c op).1)
      (P := FormContainer.Reachable S) (fun c op h => h.step op)
      (R := fun c' c => c' = c) (fun _ _ => rfl) ops (fun op hop c hc => cutOf_pair rfl rfl (.inl (form_atOnce hc (hops op hop)))) hc

/-- **C140, simplified formulas.**  If the thread also calls `simplify` and `expand`, the values of all the formulas are at each moment those
after that number of calls. -/
theorem C140_rewrite {S : Sympy} {c : FormContainer} (hc : c.Reachable S) {ops : List FormContainer.Op} (hops : ∀ op ∈ ops, ∀ s, op ≠ .scale s) :
    ∃ ν : ℕ → ℕ, Monotone ν ∧ ∀ i c', (c.trace S ops)[i]? = some c' →
      c.finished S ops i ≤ ν i ∧ ν i ≤ c.finished S ops i + 1 ∧ ν i ≤ ops.length ∧
      c'.getKeys = (FormContainer.run S c (ops.take (ν i))).getKeys ∧
      ∀ k e, (FormContainer.run S c (ops.take (ν i))).getPc k = .ok e → ∃ e', c'.getPc k = .ok e' ∧ ∀ σ, e'.eval σ = e.eval σ := by
  let R : FormContainer → FormContainer → Prop := fun c' c => c'.getKeys = c.getKeys ∧
    ∀ k e, c.getPc k = .ok e → ∃ e', c'.getPc k = .ok e' ∧ ∀ σ, e'.eval σ = e.eval σ
  have hR : ∀ c, R c c := fun c => ⟨rfl, fun k e h => ⟨e, h, fun _ => rfl⟩⟩
  refine assembleOf (moments := FormContainer.moments S) (step := fun c op => (FormContainer.step S c op).1)
    (P := FormContainer.Reachable S) (fun c op h => h.step op) (R := R) (fun c _ => hR c) ops (fun op hop c hc => ?_) hc
  have hpair : ((∃ p, op = .subs p) ∨ ∃ a v, op = .phaseShift a v) →
      ∃ p, CutOf (FormContainer.moments S) (fun c op => (FormContainer.step S c op).1) R c op p :=
    fun h => cutOf_pair (hR _) (hR _) (.inl (form_atOnce hc h))
  cases op with
  | subs p => exact hpair (.inl ⟨p, rfl⟩)
  | phaseShift a v => exact hpair (.inr ⟨a, v, rfl⟩)
  | scale s => exact absurd rfl (hops _ hop s)
  | rewrite r =>
    refine ⟨(c.moments S (.rewrite r)).length, fun i c' hi => ⟨fun _ => C134_rewrite hc r (List.mem_of_getElem? hi), fun h => ?_⟩⟩
    rw [List.getElem?_eq_none h] at hi
    exact absurd hi (by simp)

/-- **C140 is false for all combinations of a formula when `apply_arbitrary_scale` is called.**  Two combinations have the same formula,
which is not zero; there is a moment at which no number of calls gives what a reader gets. -/
theorem C140_scale_broken {S : Sympy} {c : FormContainer} (hc : c.Reachable S) {k₁ k₂ : Key} {e : Expr} {rest : Dict Key Expr}
    (hi : c.getItems = (k₁, e) :: (k₂, e) :: rest) {s : Expr} {σ : Valuation} (hs : s.eval σ ≠ 1) (he : e.eval σ ≠ 0) :
    ∃ (i : ℕ) (c' : FormContainer), (c.trace S [.scale s])[i]? = some c' ∧
      ∀ n, c'.getItems ≠ (FormContainer.run S c ([.scale s].take n)).getItems := by
  obtain ⟨c', h1, e₁, e₂, h2, h3, h4⟩ := C134_formula_scale_broken hc hi hs he
  have hi' : c.form = (k₁, e) :: (k₂, e) :: rest := hi
  have hne : k₁ ≠ k₂ := by
    have := hc.wf
    rw [hi'] at this
    unfold Dict.WF Dict.keys at this
    simp at this
    exact this.1.1
  obtain ⟨i, hi''⟩ := List.mem_iff_getElem?.1 (List.mem_append_left
    (traceOf (FormContainer.moments S) (fun c op => (FormContainer.step S c op).1) (FormContainer.step S c (.scale s)).1 []) h1)
  refine ⟨i, c', hi'', fun n hn => ?_⟩
  have key : ∀ f : Expr, c'.form = (k₁, f) :: (k₂, f) :: (c'.form.drop 2) → False := by
    intro f hf
    unfold FormContainer.getPc at h2 h3
    rw [hf] at h2 h3
    simp [Dict.get, Dict.get?, hne] at h2 h3
    exact h4 (by rw [← h2, ← h3])
  have hn' : c'.form = (FormContainer.run S c ([.scale s].take n)).form := hn
  cases n with
  | zero =>
    refine key e ?_
    have : c'.form = c.form := hn'
    rw [this, hi']
    rfl
  | succ n =>
    refine key (S.mul s e) ?_
    rw [List.take_succ_cons, List.take_nil] at hn'
    have : c'.form = (FormContainer.step S c (.scale s)).1.form := hn'
    rw [FormContainer.step_eq S hc.wf, hi'] at this
    rw [this]
    rfl

/-- **C140, after the last call.**  The last moment is the state after all the calls. -/
theorem C140_last :
    (∀ (c : FDataContainer) ops, (c.trace ops).getLast? = some (FDataContainer.run c ops)) ∧
    (∀ S (c : FFormContainer) ops, (c.trace S ops).getLast? = some (FFormContainer.run S c ops)) ∧
    (∀ S (c : FormContainer) ops, (c.trace S ops).getLast? = some (FormContainer.run S c ops)) :=
  ⟨fun c ops => traceOf_last c ops, fun _ c ops => traceOf_last c ops, fun _ c ops => traceOf_last c ops⟩

/-! ### Concrete cases -/

/-- The hypotheses of `C140_fdata_broken` are met, and so its conclusion is reached; the container has two combinations. -/
example : ∃ c : FDataContainer, c.Reachable ∧ c.getKeys = [kPP, kSS] ∧ ∃ (i : ℕ) (c' : FDataContainer),
    (c.trace [.phaseShift Real.pi sRadians])[i]? = some c' ∧
    ∀ n, c'.getItems ≠ (FDataContainer.run c ([.phaseShift Real.pi sRadians].take n)).getItems := by
  have hi : FDataContainer.init [(.str kPP, .arr1 .complex128 [1, 2, 1]), (.str kSS, .arr1 .complex128 [Complex.I, 0, -Complex.I])] 1 =
      .ok ⟨[(kPP, [1, 2, 1]), (kSS, [Complex.I, 0, -Complex.I])], 1, 1, .num 0⟩ := by
    rfl
  have hc : FDataContainer.Reachable ⟨[(kPP, [1, 2, 1]), (kSS, [Complex.I, 0, -Complex.I])], 1, 1, .num 0⟩ := ⟨_, _, _, [], hi, rfl⟩
  refine ⟨_, hc, rfl, C140_fdata_broken hc (k₁ := kPP) (k₂ := kSS) (rest := []) rfl (z := 1)
    ⟨⟨by norm_num [FDataContainer.getM], by norm_num [FDataContainer.getM]⟩, rfl⟩ (by simp)
    (w := -Complex.I) ⟨⟨by norm_num [FDataContainer.getM], by norm_num [FDataContainer.getM]⟩, rfl⟩ (by simp) ?_⟩
  unfold harmonic
  rw [show Complex.I * (((1 : ℤ) : ℂ) * (Real.pi : ℂ)) = Real.pi * Complex.I by push_cast; ring, Complex.exp_pi_mul_I]
  norm_num

/-- The moments of a call of `apply_arbitrary_scale` on two combinations, between a substitution and the end. -/
example : ∃ c : FormContainer, c.Reachable Sympy.plain ∧ c.getItems = [(kPP, .sym symX), (kSS, .sym symX)] ∧
    (c.trace Sympy.plain [.scale (.num 2)]).length = 4 ∧
    (Expr.num 2).eval (fun _ => 1) ≠ 1 ∧ (Expr.sym symX).eval (fun _ => 1) ≠ 0 := by
  refine ⟨⟨[(kPP, .sym symX), (kSS, .sym symX)]⟩, ⟨[(.str kPP, .sy (.sym symX)), (.str kSS, .sy (.sym symX))], _, [], rfl, rfl⟩, rfl, rfl, ?_, ?_⟩
  · norm_num [Expr.eval]
  · norm_num [Expr.eval]

end Shgpy
