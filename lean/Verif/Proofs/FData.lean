import Verif.Model.FData
import Verif.Spec.Fourier
import Verif.Proofs.Arr
import Verif.Proofs.DataExt
import Verif.Proofs.DataInit2

/-! Lemmas about `fDataContainer`. -/

set_option linter.unusedSectionVars false
set_option linter.unusedSimpArgs false

namespace Shgpy
open Spec

theorem harmonic_eq (m : ℤ) (x : ℝ) :
    ((Real.cos (m * x) : ℂ) + Complex.I * (Real.sin (m * x) : ℂ)) = harmonic m x := by
  unfold harmonic
  rw [mul_comm Complex.I (m * x : ℂ), Complex.exp_mul_I]
  push_cast
  ring

theorem harmonic_add (m : ℤ) (x y : ℝ) : harmonic m (x + y) = harmonic m x * harmonic m y := by
  unfold harmonic
  rw [← Complex.exp_add]
  congr 1
  push_cast
  ring

theorem harmonic_zero (m : ℤ) : harmonic m 0 = 1 := by simp [harmonic]

theorem norm_harmonic (m : ℤ) (x : ℝ) : ‖harmonic m x‖ = 1 := by
  have : Complex.I * (m * x) = ((m * x : ℝ) : ℂ) * Complex.I := by push_cast; ring
  rw [harmonic, this, Complex.norm_exp_ofReal_mul_I]

/-- Multiply component `m` by `g m`. -/
noncomputable def mulComp (M : ℕ) (g : ℤ → ℂ) (v : List ℂ) : List ℂ :=
  (freqs M).map (fun m : ℤ => v.getD (m + (M : ℤ)).toNat 0 * g m)

theorem length_mulComp (M : ℕ) (g : ℤ → ℂ) (v : List ℂ) : (mulComp M g v).length = 2 * M + 1 := by
  simp [mulComp, length_freqs]

theorem getElem?_mulComp {M : ℕ} {g : ℤ → ℂ} {v : List ℂ} {i : ℕ} (hi : i < 2 * M + 1) :
    (mulComp M g v)[i]? = some (v.getD i 0 * g ((i : ℤ) - M)) := by
  unfold mulComp
  rw [List.getElem?_map, getElem?_freqs hi]
  simp

theorem mulComp_mulComp (M : ℕ) (g g' : ℤ → ℂ) (v : List ℂ) :
    mulComp M g' (mulComp M g v) = mulComp M (fun m => g m * g' m) v := by
  apply List.ext_getElem?
  intro i
  by_cases hi : i < 2 * M + 1
  · rw [getElem?_mulComp hi, getElem?_mulComp hi, List.getD_eq_getElem?_getD, getElem?_mulComp hi]
    simp [mul_assoc]
  · rw [List.getElem?_eq_none (by rw [length_mulComp]; omega), List.getElem?_eq_none (by rw [length_mulComp]; omega)]

theorem mulComp_one {M : ℕ} {v : List ℂ} (hv : v.length = 2 * M + 1) : mulComp M (fun _ => 1) v = v := by
  apply List.ext_getElem?
  intro i
  by_cases hi : i < 2 * M + 1
  · rw [getElem?_mulComp hi, List.getElem?_eq_getElem (by omega)]
    simp [List.getD_eq_getElem?_getD, List.getElem?_eq_getElem (show i < v.length by omega)]
  · rw [List.getElem?_eq_none (by rw [length_mulComp]; omega), List.getElem?_eq_none (by omega)]

theorem mulComp_const {M : ℕ} {v : List ℂ} (hv : v.length = 2 * M + 1) (s : ℂ) :
    mulComp M (fun _ => s) v = v.map (fun z => s * z) := by
  apply List.ext_getElem?
  intro i
  by_cases hi : i < 2 * M + 1
  · rw [getElem?_mulComp hi, List.getElem?_map, List.getElem?_eq_getElem (by omega)]
    simp [List.getD_eq_getElem?_getD, List.getElem?_eq_getElem (show i < v.length by omega), mul_comm]
  · rw [List.getElem?_eq_none (by rw [length_mulComp]; omega), List.getElem?_eq_none (by simp; omega)]

theorem shiftArr_ok {M : ℕ} {v : List ℂ} (hv : v.length = 2 * M + 1) (a : ℝ) :
    FDataContainer.shiftArr M a v = .ok (mulComp M (fun m => harmonic m a) v) := by
  unfold FDataContainer.shiftArr mulComp
  rw [hv]
  apply fillFreqs_ok
  intro m hm
  obtain ⟨z, h1, h2⟩ := pyGet_n2i_ok hv hm
  simp only [h1, bind, Except.bind, pure, Except.pure]
  rw [harmonic_eq, List.getD_eq_getElem?_getD, h2]
  rfl

/-- The invariant of `fDataContainer` instances that were not copied. -/
structure FDataContainer.Good (c : FDataContainer) : Prop where
  wf : Dict.WF c.fdata
  len : ∀ it ∈ c.fdata, it.2.length = 2 * c.M + 1
  num : ∃ a, c.phaseShift = .num a

theorem Dict.set_append_of_notMem {κ α : Type} [DecidableEq κ] {pre post : Dict κ α} {k : κ} {v v' : α}
    (h : k ∉ Dict.keys pre) : Dict.set (pre ++ (k, v) :: post) k v' = pre ++ (k, v') :: post := by
  induction pre with
  | nil => simp [Dict.set]
  | cons p pre ih =>
    obtain ⟨k₀, v₀⟩ := p
    simp only [Dict.keys_cons, List.mem_cons, not_or] at h
    simp only [List.cons_append, Dict.set]
    rw [if_neg (fun e => h.1 e.symm), ih h.2]

theorem Dict.get_append_of_notMem {κ α : Type} [DecidableEq κ] {pre post : Dict κ α} {k : κ} {v : α}
    (h : k ∉ Dict.keys pre) : Dict.get (pre ++ (k, v) :: post) k = .ok v := by
  induction pre with
  | nil => simp [Dict.get, Dict.get?]
  | cons p pre ih =>
    obtain ⟨k₀, v₀⟩ := p
    simp only [Dict.keys_cons, List.mem_cons, not_or] at h
    have := ih h.2
    rw [Dict.get_ok_iff] at this ⊢
    simp only [List.cons_append, Dict.get?]
    rw [if_neg (fun e => h.1 e.symm), this]

theorem shiftLoop_ok (a : ℝ) (M : ℕ) (s : ℝ) (ph : Phase) (post : Dict Key (List ℂ)) :
    ∀ (pre : Dict Key (List ℂ)), (Dict.keys (pre ++ post)).Nodup → (∀ it ∈ post, it.2.length = 2 * M + 1) →
      FDataContainer.shiftLoop a (Dict.keys post) ⟨pre ++ post, M, s, ph⟩ =
        (.ok (), ⟨pre ++ Dict.mapVals (mulComp M (fun m => harmonic m a)) post, M, s, ph⟩) := by
  induction post with
  | nil => intro pre _ _; simp [FDataContainer.shiftLoop]; rfl
  | cons it post ih =>
    obtain ⟨k, v⟩ := it
    intro pre hnd hlen
    have hk : k ∉ Dict.keys pre := by
      simp only [Dict.keys, List.map_append, List.map_cons, List.nodup_append, List.mem_cons] at hnd
      intro hk
      exact hnd.2.2 k hk k (Or.inl rfl) rfl
    have hget : Dict.get (pre ++ (k, v) :: post) k = .ok v := Dict.get_append_of_notMem hk
    have hset : Dict.set (pre ++ (k, v) :: post) k (mulComp M (fun m => harmonic m a) v) =
        (pre ++ [(k, mulComp M (fun m => harmonic m a) v)]) ++ post := by
      rw [Dict.set_append_of_notMem hk]; simp
    have harr := shiftArr_ok (hlen (k, v) List.mem_cons_self) a
    have := ih (pre ++ [(k, mulComp M (fun m => harmonic m a) v)])
      (by
        simp only [Dict.keys, List.map_append, List.map_cons, List.append_assoc, List.map_nil, List.cons_append,
          List.nil_append] at hnd ⊢
        exact hnd)
      (fun it hit => hlen it (List.mem_cons_of_mem _ hit))
    simp only [List.append_assoc, List.cons_append, List.nil_append] at this hset
    simp only [Dict.keys_cons, FDataContainer.shiftLoop, bind, ExceptT.bind, ExceptT.mk, ExceptT.bindCont, get,
      getThe, MonadStateOf.get, liftM, monadLift, MonadLift.monadLift, ExceptT.lift, StateT.get, StateT.bind,
      DataContainer.liftE, pure, StateT.pure, Functor.map, StateT.map, hget, harr]
    simp only [modify, modifyGet, MonadStateOf.modifyGet, liftM, monadLift, MonadLift.monadLift, ExceptT.lift,
      ExceptT.mk, Functor.map, StateT.map, StateT.modifyGet, pure, bind, StateT.bind, hset]
    rw [Dict.mapVals_cons]
    exact this

namespace FDataContainer

theorem step_scale (c : FDataContainer) (s : ℝ) : step c (.scale s) =
    if s < 0 then (c, some .valueError) else
      ({ c with fdata := c.fdata.mapVals (fun v => v.map (fun z => (s : ℂ) * z)), scale := c.scale * s }, none) := by
  by_cases hs : s < 0
  · simp only [step, Op.body, scaleFdataM, hs, if_true]; rfl
  · simp only [step, Op.body, scaleFdataM, hs, if_false]; rfl

theorem step_normalize (c : FDataContainer) (d : ℝ) : step c (.normalize d) =
    match c.getMaxval with
    | .error e => (c, some e)
    | .ok none => step c (.scale 0)
    | .ok (some (_, m)) =>
      if m = 0 then (c, some (if d < 0 then .valueError else .nonFinite)) else step c (.scale (d / m)) := by
  conv_lhs => unfold step Op.body normalizeFdataM
  simp only [bind, ExceptT.bind, ExceptT.mk, ExceptT.bindCont, get, getThe, MonadStateOf.get, liftM, monadLift,
    MonadLift.monadLift, ExceptT.lift, StateT.get, StateT.bind, DataContainer.liftE, pure, StateT.pure, Functor.map,
    StateT.map, Except.bind, Except.pure]
  cases h : c.getMaxval with
  | error e => rfl
  | ok o => cases o with
    | none => rfl
    | some km =>
      simp only
      by_cases hm : km.2 = 0
      · simp only [hm, if_true]
        by_cases hd : d < 0
        · simp only [hd, if_true]; rfl
        · simp only [hd, if_false]; rfl
      · simp only [hm, if_false]
        rfl

/-- The angle in radians. -/
noncomputable def angle (a : ℝ) (u : Key) : ℝ := if lower u = sDegrees then deg2rad a else a

theorem step_phaseShift {c : FDataContainer} (hwf : Dict.WF c.fdata)
    (hlen : ∀ it ∈ c.fdata, it.2.length = 2 * c.M + 1) (a : ℝ) (u : Key) :
    step c (.phaseShift a u) =
    if lower u = sRadians ∨ lower u = sDegrees then
      match c.phaseShift with
      | .num p => ({ c with
          fdata := c.fdata.mapVals (mulComp c.M (fun m => harmonic m (angle a u))),
          phaseShift := .num (p + angle a u) }, none)
      | _ => ({ c with
          fdata := c.fdata.mapVals (mulComp c.M (fun m => harmonic m (angle a u))) }, some .typeError)
    else (c, some .valueError) := by
  obtain ⟨d, M, s, ph⟩ := c
  by_cases hu : lower u = sRadians ∨ lower u = sDegrees
  · rw [if_pos hu]
    have hc : checkAngleUnits (lower u) = .ok () := by unfold checkAngleUnits; rw [if_pos hu]
    have hl := shiftLoop_ok (angle a u) M s ph d [] (by simpa [Dict.WF] using hwf) (by simpa using hlen)
    simp only [List.nil_append] at hl
    unfold step Op.body phaseShiftFdataM
    have hang : (if lower u = sDegrees then deg2rad a else a) = angle a u := rfl
    simp only [bind, ExceptT.bind, ExceptT.mk, ExceptT.bindCont, get, getThe, MonadStateOf.get, liftM, monadLift,
      MonadLift.monadLift, ExceptT.lift, StateT.get, StateT.bind, DataContainer.liftE, pure, StateT.pure,
      Functor.map, StateT.map, Except.bind, Except.pure, hc, hang, getKeys, hl]
    cases ph <;> rfl
  · rw [if_neg hu]
    have hc : checkAngleUnits (lower u) = .error .valueError := by unfold checkAngleUnits; rw [if_neg hu]
    unfold step Op.body phaseShiftFdataM
    simp only [bind, ExceptT.bind, ExceptT.mk, ExceptT.bindCont, StateT.bind, DataContainer.liftE, hc]
    rfl

end FDataContainer

/-! ### Validation -/

theorem checkFVal_some {M : ℕ} {v : RawFVal} {a : List ℂ} : checkFVal M v = some a ↔
    ∃ dt, v = .arr1 dt a ∧ a.length = 2 * M + 1 ∧ (dt = .complex64 ∨ dt = .complex128) := by
  cases v with
  | other => simp [checkFVal]
  | arr1 dt w =>
    by_cases h : w.length = 2 * M + 1 ∧ (dt = .complex64 ∨ dt = .complex128)
    · simp only [checkFVal, h, and_self, if_true, Option.some.injEq]
      constructor
      · rintro rfl
        exact ⟨dt, rfl, h⟩
      · rintro ⟨dt', e, h'⟩
        cases e
        rfl
    · simp only [checkFVal, h, if_false]
      constructor
      · intro e; cases e
      · rintro ⟨dt', e, h'⟩
        cases e
        exact absurd h' h

theorem checkFIterable_ok {M : ℕ} {d : Dict RawKey RawFVal} {d' : Dict Key (List ℂ)}
    (h : checkFIterable M d = .ok d') :
    List.Forall₂ (fun p q => p.1 = RawKey.str q.1 ∧ checkFVal M p.2 = some q.2) d d' := by
  induction d generalizing d' with
  | nil => cases h; exact .nil
  | cons p d ih =>
    obtain ⟨k, v⟩ := p
    simp only [checkFIterable] at h
    split at h
    · rename_i s a r' h1 h2
      cases h
      exact .cons ⟨rfl, h1⟩ (ih h2)
    · cases h

theorem checkFIterable_of {M : ℕ} {d : Dict RawKey RawFVal}
    (h : ∀ p ∈ d, ∃ s a, p.1 = RawKey.str s ∧ checkFVal M p.2 = some a) :
    ∃ d', checkFIterable M d = .ok d' := by
  induction d with
  | nil => exact ⟨[], rfl⟩
  | cons p d ih =>
    obtain ⟨k, v⟩ := p
    obtain ⟨r, hr⟩ := ih (fun q hq => h q (List.mem_cons_of_mem _ hq))
    obtain ⟨s, a, h1, h2⟩ := h _ List.mem_cons_self
    simp only at h1 h2
    subst h1
    exact ⟨(s, a) :: r, by simp only [checkFIterable, h2, hr]⟩

theorem checkFIterable_error {M : ℕ} {d : Dict RawKey RawFVal} {e : Err} (h : checkFIterable M d = .error e) :
    e = .valueError := by
  cases d with
  | nil => cases h
  | cons p d =>
    obtain ⟨k, v⟩ := p
    simp only [checkFIterable] at h
    split at h
    · cases h
    · cases h; rfl

theorem keys_of_forall₂ {α β : Type} {R : α → β → Prop} {d : Dict RawKey α} {d' : Dict Key β}
    (h : List.Forall₂ (fun p q => p.1 = RawKey.str q.1 ∧ R p.2 q.2) d d') :
    Dict.keys d = (Dict.keys d').map RawKey.str := by
  induction h with
  | nil => rfl
  | cons h _ ih => simp only [Dict.keys_cons, List.map_cons, h.1, ih]

theorem WF_of_forall₂ {α β : Type} {R : α → β → Prop} {d : Dict RawKey α} {d' : Dict Key β}
    (h : List.Forall₂ (fun p q => p.1 = RawKey.str q.1 ∧ R p.2 q.2) d d') (hwf : Dict.WF d) : Dict.WF d' := by
  unfold Dict.WF at *
  rw [keys_of_forall₂ h] at hwf
  exact hwf.of_map _

namespace FDataContainer

theorem init_good {iter : List (RawKey × RawFVal)} {M : ℕ} {c : FDataContainer} (h : init iter M = .ok c) :
    c.Good ∧ c.M = M ∧ c.scale = 1 ∧ c.phaseShift = .num 0 ∧
    List.Forall₂ (fun p q => p.1 = RawKey.str q.1 ∧ checkFVal M p.2 = some q.2) (Dict.ofPairs iter) c.fdata := by
  unfold init at h
  cases hc : checkFIterable M (Dict.ofPairs iter) with
  | error e => rw [hc] at h; cases h
  | ok d =>
    rw [hc] at h
    cases h
    have hf := checkFIterable_ok hc
    refine ⟨⟨WF_of_forall₂ (R := fun a b => checkFVal M a = some b) hf (Dict.WF_ofPairs _), ?_, 0, rfl⟩, rfl, rfl, rfl, hf⟩
    intro it hit
    obtain ⟨p, _, _, hp⟩ := forall₂_mem_right hf hit
    obtain ⟨_, _, hl, _⟩ := checkFVal_some.1 hp
    exact hl

/-- The closed form of a history. -/
theorem run_closed {c₀ : FDataContainer} (hg : c₀.Good) (ops : List Op) :
    ∃ s a p₀, c₀.phaseShift = .num p₀ ∧ (run c₀ ops).Good ∧ (run c₀ ops).M = c₀.M ∧
      (run c₀ ops).scale = c₀.scale * s ∧ (run c₀ ops).phaseShift = .num (p₀ + a) ∧
      (run c₀ ops).fdata = c₀.fdata.mapVals (mulComp c₀.M (fun m => (s : ℂ) * harmonic m a)) := by
  obtain ⟨p₀, hp₀⟩ := hg.num
  have key : ∀ c op, c.Good → ∃ s a p, c.phaseShift = .num p ∧ (step c op).1.Good ∧ (step c op).1.M = c.M ∧
      (step c op).1.scale = c.scale * s ∧ (step c op).1.phaseShift = .num (p + a) ∧
      (step c op).1.fdata = c.fdata.mapVals (mulComp c.M (fun m => (s : ℂ) * harmonic m a)) := by
    intro c op hc
    obtain ⟨p, hp⟩ := hc.num
    have same : ∃ s a p, c.phaseShift = .num p ∧ c.Good ∧ c.M = c.M ∧
        c.scale = c.scale * s ∧ c.phaseShift = .num (p + a) ∧
        c.fdata = c.fdata.mapVals (mulComp c.M (fun m => (s : ℂ) * harmonic m a)) := by
      refine ⟨1, 0, p, hp, hc, rfl, by simp, by simpa using hp, ?_⟩
      simp only [harmonic_zero, Complex.ofReal_one, mul_one]
      symm
      calc _ = c.fdata.mapVals (fun v => v) :=
            Dict.mapVals_congr (fun it hit => mulComp_one (hc.len it hit))
        _ = c.fdata := Dict.mapVals_id _
    have hscale : ∀ s, ∃ s' a p, c.phaseShift = .num p ∧ (step c (.scale s)).1.Good ∧ (step c (.scale s)).1.M = c.M ∧
        (step c (.scale s)).1.scale = c.scale * s' ∧ (step c (.scale s)).1.phaseShift = .num (p + a) ∧
        (step c (.scale s)).1.fdata = c.fdata.mapVals (mulComp c.M (fun m => (s' : ℂ) * harmonic m a)) := by
      intro s
      rw [step_scale]
      split
      · exact same
      · refine ⟨s, 0, p, hp, ⟨?_, ?_, p, hp⟩, rfl, rfl, by simpa using hp, ?_⟩
        · simpa [Dict.WF] using hc.wf
        · intro it hit
          obtain ⟨k, v⟩ := it
          obtain ⟨v', hv', rfl⟩ := Dict.mem_mapVals.1 hit
          simpa using hc.len _ hv'
        · apply Dict.mapVals_congr
          intro it hit
          simp only [harmonic_zero, mul_one]
          rw [mulComp_const (hc.len it hit)]
    cases op with
    | scale s => exact hscale s
    | normalize d =>
      rw [step_normalize]
      split
      · exact same
      · exact hscale 0
      · split
        · exact same
        · exact hscale _
    | phaseShift a u =>
      rw [step_phaseShift hc.wf hc.len]
      split
      · rw [hp]
        refine ⟨1, angle a u, p, rfl, ⟨?_, ?_, _, rfl⟩, rfl, by simp, rfl, ?_⟩
        · simpa [Dict.WF] using hc.wf
        · intro it hit
          obtain ⟨k, v⟩ := it
          obtain ⟨v', hv', rfl⟩ := Dict.mem_mapVals.1 hit
          exact length_mulComp _ _ _
        · simp only [Complex.ofReal_one, one_mul]
      · exact same
  induction ops using List.reverseRecOn with
  | nil =>
    refine ⟨1, 0, p₀, hp₀, hg, rfl, by simp [run], by simpa [run] using hp₀, ?_⟩
    simp only [harmonic_zero, Complex.ofReal_one, mul_one]
    symm
    calc _ = c₀.fdata.mapVals (fun v => v) :=
          Dict.mapVals_congr (fun it hit => mulComp_one (hg.len it hit))
      _ = c₀.fdata := Dict.mapVals_id _
  | append_singleton ops op ih =>
    obtain ⟨s, a, p, h1, h2, h3, h4, h5, h6⟩ := ih
    have hrun : run c₀ (ops ++ [op]) = (step (run c₀ ops) op).1 := by simp [run]
    rw [hrun]
    obtain ⟨s', a', p', g1, g2, g3, g4, g5, g6⟩ := key _ op h2
    have hpp : p' = p + a := by rw [h5] at g1; cases g1; rfl
    refine ⟨s * s', a + a', p, h1, g2, g3.trans h3, ?_, ?_, ?_⟩
    · rw [g4, h4]; ring
    · rw [g5, hpp, add_assoc]
    · rw [g6, h6, h3, Dict.mapVals_mapVals]
      apply Dict.mapVals_congr
      intro it _
      rw [mulComp_mulComp]
      congr 1
      funext m
      rw [harmonic_add]
      push_cast
      ring

/-! ### Extremum -/

/-- The magnitudes of an array as points of a `DataContainer`. -/
noncomputable def mags (v : List ℂ) : List (ℝ × ℝ) := v.map (fun z => (0, ‖z‖))

theorem maxLoop_eq (b : Option (Key × ℝ)) (d : Dict Key (List ℂ)) :
    maxLoop b d = DataContainer.maxLoop b (d.mapVals mags) := by
  induction d generalizing b with
  | nil => rfl
  | cons it d ih =>
    obtain ⟨k, v⟩ := it
    have : (mags v).map Prod.snd = v.map (fun z => ‖z‖) := by
      unfold mags; rw [List.map_map]; rfl
    simp only [maxLoop, DataContainer.maxLoop, Dict.mapVals_cons, this, bind, Except.bind]
    cases DataContainer.pyMax (v.map (fun z => ‖z‖)) with
    | error e => rfl
    | ok m =>
      simp only
      cases b with
      | none => exact ih _
      | some km =>
        simp only
        split
        · exact ih _
        · exact ih _

theorem getMaxval_spec {c : FDataContainer} (hlen : ∀ it ∈ c.fdata, it.2.length = 2 * c.M + 1) :
    (c.fdata = [] ∧ c.getMaxval = .ok none) ∨
    ∃ k m, c.getMaxval = .ok (some (k, m)) ∧
      ∃ pre v post, c.fdata = pre ++ (k, v) :: post ∧ (∃ z ∈ v, ‖z‖ = m) ∧ (∀ z ∈ v, ‖z‖ ≤ m) ∧
        (∀ it ∈ pre, ∀ z ∈ it.2, ‖z‖ < m) ∧ (∀ it ∈ post, ∀ z ∈ it.2, ‖z‖ ≤ m) := by
  have := Shgpy.getMaxval_spec (c := (⟨c.fdata.mapVals mags, 1, 0, some 0, false, []⟩ : DataContainer ℝ)) (by
    intro it hit
    obtain ⟨k, v⟩ := it
    obtain ⟨v', hv', rfl⟩ := Dict.mem_mapVals.1 hit
    have := hlen _ hv'
    simp only at this
    unfold mags
    intro h
    have h2 := congrArg List.length h
    simp at h2
    rw [h2] at this
    simp at this)
  unfold DataContainer.getMaxval at this
  unfold getMaxval
  rw [maxLoop_eq]
  rcases this with ⟨h1, h2⟩ | ⟨k, m, h1, pre, pts, post, h2, h3, h4, h5, h6⟩
  · left
    refine ⟨?_, h2⟩
    have h3 := congrArg List.length h1
    simp [Dict.mapVals] at h3
    exact h3
  · right
    refine ⟨k, m, h1, ?_⟩
    simp only [Dict.mapVals] at h2
    obtain ⟨pre', rest, e1, e2, e3⟩ := List.map_eq_append_iff.1 h2
    obtain ⟨it, post', e4, e5, e6⟩ := List.map_eq_cons_iff.1 e3
    obtain ⟨k', v⟩ := it
    simp only [Prod.mk.injEq] at e5
    obtain ⟨rfl, rfl⟩ := e5
    subst e4 e2 e6
    refine ⟨pre', v, post', e1, ?_, ?_, ?_, ?_⟩
    · obtain ⟨p, hp, hpm⟩ := h3
      obtain ⟨z, hz, rfl⟩ := List.mem_map.1 hp
      exact ⟨z, hz, hpm⟩
    · intro z hz
      exact not_lt.1 (h4 (0, ‖z‖) (List.mem_map.2 ⟨z, hz, rfl⟩))
    · intro it hit z hz
      exact h5 (it.1, mags it.2) (List.mem_map.2 ⟨it, hit, rfl⟩) (0, ‖z‖) (List.mem_map.2 ⟨z, hz, rfl⟩)
    · intro it hit z hz
      exact not_lt.1 (h6 (it.1, mags it.2) (List.mem_map.2 ⟨it, hit, rfl⟩) (0, ‖z‖) (List.mem_map.2 ⟨z, hz, rfl⟩))

theorem maxLoop_scale {s : ℝ} (hs : 0 < s) (b : Option (Key × ℝ)) (d : Dict Key (List ℂ)) :
    maxLoop (b.map (fun km => (km.1, s * km.2))) (d.mapVals (fun v => v.map (fun z => (s : ℂ) * z))) =
      (maxLoop b d).map (fun o => o.map (fun km => (km.1, s * km.2))) := by
  rw [maxLoop_eq, maxLoop_eq, Dict.mapVals_mapVals]
  have := maxLoop_mapY (g := fun y : ℝ => s * y) (fun a b h => mul_lt_mul_of_pos_left h hs) b (d.mapVals mags)
  rw [Dict.mapVals_mapVals] at this
  rw [← this]
  congr 1
  apply Dict.mapVals_congr
  intro it _
  unfold mags
  simp [List.map_map, Function.comp_def, abs_of_pos hs, mapY]

end FDataContainer
end Shgpy
