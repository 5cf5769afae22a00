import Verif.Spec.ComplexInput
import Verif.Props.DataInit

/-!
# Property C123: complex arrays given to `DataContainer`
-/

set_option linter.unusedSectionVars false

namespace Shgpy
open Spec

variable {K : Type} [Field K] [LinearOrder K] [IsStrictOrderedRing K] [FloorRing K] [HasPi K]

/-- The validated array with complex numbers replaced by their real parts. -/
def NArrC.re : NArrC K → NArr K
  | .real a => a
  | .cplx pts => ⟨false, pts.map (fun p => (p.1.1, p.2.1))⟩

/-- A complex array with points. -/
def NArrC.Bad : NArrC K → Prop
  | .real _ => False
  | .cplx pts => pts ≠ []

theorem set_mapVals {κ α β : Type} [DecidableEq κ] (g : α → β) (d : Dict κ α) (k : κ) (v : α) :
    Dict.set (d.mapVals g) k (g v) = (Dict.set d k v).mapVals g := by
  induction d with
  | nil => rfl
  | cons p d ih =>
    obtain ⟨k', v'⟩ := p
    simp only [Dict.mapVals, List.map_cons, Dict.set] at ih ⊢
    split <;> simp [ih]

theorem ofPairs_mapVals {κ α β : Type} [DecidableEq κ] (g : α → β) (l : List (κ × α)) :
    Dict.ofPairs (l.map (fun kv => (kv.1, g kv.2))) = (Dict.ofPairs l).mapVals g := by
  unfold Dict.ofPairs
  suffices ∀ d : Dict κ α, (l.map (fun kv => (kv.1, g kv.2))).foldl (fun d p => Dict.set d p.1 p.2) (d.mapVals g) =
      Dict.mapVals g (l.foldl (fun d p => Dict.set d p.1 p.2) d) from this []
  intro d
  induction l generalizing d with
  | nil => rfl
  | cons p l ih => simp only [List.map_cons, List.foldl_cons, set_mapVals, ih]

theorem mem_set {κ α : Type} [DecidableEq κ] {d : Dict κ α} {k : κ} {v : α} {p : κ × α} (h : p ∈ Dict.set d k v) :
    p = (k, v) ∨ p ∈ d := by
  induction d with
  | nil => simpa [Dict.set] using h
  | cons q d ih =>
    obtain ⟨k', v'⟩ := q
    simp only [Dict.set] at h
    split at h
    · rcases List.mem_cons.1 h with h | h
      · exact .inl h
      · exact .inr (List.mem_cons_of_mem _ h)
    · rcases List.mem_cons.1 h with h | h
      · exact .inr (by rw [h]; simp)
      · rcases ih h with h | h
        · exact .inl h
        · exact .inr (List.mem_cons_of_mem _ h)

theorem mem_set_of_ne {κ α : Type} [DecidableEq κ] {d : Dict κ α} {k : κ} {v : α} {p : κ × α} (h : p ∈ d)
    (hk : p.1 ≠ k) : p ∈ Dict.set d k v := by
  induction d with
  | nil => simp at h
  | cons q d ih =>
    obtain ⟨k', v'⟩ := q
    simp only [Dict.set]
    split
    · next e =>
      rcases List.mem_cons.1 h with h | h
      · subst h; exact absurd e hk
      · exact List.mem_cons_of_mem _ h
    · rcases List.mem_cons.1 h with h | h
      · rw [h]; simp
      · exact List.mem_cons_of_mem _ (ih h)

/-! ### The tests -/

theorem checkValC_re (v : RawValC K) : (checkValC v).map NArrC.re = checkVal (onlyReal v) := by
  cases v with
  | real v =>
    simp only [checkValC, onlyReal, Option.map_map]
    cases checkVal v <;> rfl
  | cplx rows =>
    match rows with
    | [] => rfl
    | [_] => rfl
    | r0 :: r1 :: rest =>
      simp only [checkValC, onlyReal, List.map_cons, checkVal, List.length_map]
      by_cases h : r0.length = r1.length
      · simp [h, NArrC.re, List.zip_map]
      · simp [h]

theorem checkIterableC_re (d : Dict RawKey (RawValC K)) :
    (checkIterableC d).map (Dict.mapVals NArrC.re) = checkIterable (d.mapVals onlyReal) := by
  induction d with
  | nil => rfl
  | cons p d ih =>
    obtain ⟨k, v⟩ := p
    simp only [Dict.mapVals_cons, checkIterable, checkIterableC, ← ih, ← checkValC_re v]
    cases k with
    | other n => rfl
    | str s =>
      cases checkValC v with
      | none => rfl
      | some a =>
        cases checkIterableC d <;> rfl

theorem checkIterableC_ok {d : Dict RawKey (RawValC K)} {d' : Dict Key (NArrC K)}
    (h : checkIterableC d = .ok d') :
    List.Forall₂ (fun p q => p.1 = .str q.1 ∧ checkValC p.2 = some q.2) d d' := by
  induction d generalizing d' with
  | nil => simp [checkIterableC] at h; subst h; exact .nil
  | cons p d ih =>
    obtain ⟨k, v⟩ := p
    simp only [checkIterableC] at h
    split at h
    · next s a r' hv hr =>
      cases h
      exact .cons ⟨rfl, hv⟩ (ih hr)
    · cases h

theorem bad_iff {v : RawValC K} {a : NArrC K} (h : checkValC v = some a) : a.Bad ↔ HasComplexAngle v := by
  cases v with
  | real v =>
    simp only [checkValC, Option.map_eq_some_iff] at h
    obtain ⟨b, _, rfl⟩ := h
    simp [NArrC.Bad, HasComplexAngle]
  | cplx rows =>
    match rows with
    | [] => simp [checkValC] at h
    | [_] => simp [checkValC] at h
    | r0 :: r1 :: rest =>
      simp only [checkValC] at h
      split at h
      · next hl =>
        cases h
        cases r0 with
        | nil => simp [NArrC.Bad, HasComplexAngle]
        | cons x xs =>
          cases r1 with
          | nil => simp at hl
          | cons y ys => simp [NArrC.Bad, HasComplexAngle]
      · cases h

theorem isComplex_iff {v : RawValC K} {a : NArrC K} (h : checkValC v = some a) :
    (∃ pts, a = .cplx pts) ↔ IsComplex v := by
  cases v with
  | real v =>
    simp only [checkValC, Option.map_eq_some_iff] at h
    obtain ⟨b, _, rfl⟩ := h
    simp [IsComplex]
  | cplx rows =>
    match rows with
    | [] => simp [checkValC] at h
    | [_] => simp [checkValC] at h
    | r0 :: r1 :: rest =>
      simp only [checkValC] at h
      split at h
      · cases h
        simp [IsComplex]
      · cases h

/-! ### The steps -/

/-- No complex array of the dictionary has points. -/
def Fine (d : Dict Key (NArrC K)) : Prop := ∀ p ∈ d, ¬ p.2.Bad

theorem rotateC_fine {v : NArrC K} (h : ¬ v.Bad) : ∃ v', rotateC v = .ok v' ∧ v'.re = rot90 v.re ∧ ¬ v'.Bad := by
  cases v with
  | real a => exact ⟨_, rfl, rfl, fun h => h⟩
  | cplx pts =>
    have : pts = [] := by simpa [NArrC.Bad] using h
    subst this
    exact ⟨_, rfl, rfl, h⟩

theorem rotateC_bad {v : NArrC K} (h : v.Bad) : rotateC v = .error .typeError := by
  cases v with
  | real a => exact h.elim
  | cplx pts =>
    cases pts with
    | nil => exact absurd rfl h
    | cons _ _ => rfl

theorem get_re (d : Dict Key (NArrC K)) (k : Key) :
    Dict.get (d.mapVals NArrC.re) k = (Dict.get d k).map NArrC.re := by
  unfold Dict.get
  rw [Dict.get?_mapVals]
  cases Dict.get? d k <;> rfl

theorem fillLeftover_cons (d : Dict Key (NArr K)) (k : Key) (r : List Key) :
    fillLeftover d (k :: r) = (Dict.get d (copyPc k)).bind (fun v => fillLeftover (Dict.set d k (rot90 v)) r) := rfl

theorem fillLeftoverC_cons (d : Dict Key (NArrC K)) (k : Key) (r : List Key) :
    fillLeftoverC d (k :: r) = (Dict.get d (copyPc k)).bind (fun v =>
      (rotateC v).bind (fun v' => fillLeftoverC (Dict.set d k v') r)) := rfl

theorem fillLeftoverC_fine {d : Dict Key (NArrC K)} (hd : Fine d) (ks : List Key) :
    (fillLeftoverC d ks).map (Dict.mapVals NArrC.re) = fillLeftover (d.mapVals NArrC.re) ks ∧
    ∀ d', fillLeftoverC d ks = .ok d' → Fine d' := by
  induction ks generalizing d with
  | nil => exact ⟨rfl, by rintro d' h; cases h; exact hd⟩
  | cons k r ih =>
    rw [fillLeftover_cons, fillLeftoverC_cons, get_re]
    cases hg : Dict.get d (copyPc k) with
    | error e => exact ⟨rfl, by rintro d' h; cases h⟩
    | ok v =>
      obtain ⟨v', h1, h2, h3⟩ := rotateC_fine (hd _ (Dict.mem_of_get? (Dict.get_ok_iff.1 hg)))
      have hf : Fine (Dict.set d k v') := by
        intro p hp
        rcases mem_set hp with rfl | hp
        · exact h3
        · exact hd p hp
      simp only [Except.bind, Except.map, h1, ← h2, set_mapVals]
      exact ih hf

theorem fillLeftoverC_bad {d : Dict Key (NArrC K)} {ks : List Key} {p : Key × NArrC K} (hp : p ∈ d)
    (hk : p.1 ∉ ks) {d₁ : Dict Key (NArr K)} (h : fillLeftover (d.mapVals NArrC.re) ks = .ok d₁) :
    fillLeftoverC d ks = .error .typeError ∨ ∃ d', fillLeftoverC d ks = .ok d' ∧ p ∈ d' := by
  induction ks generalizing d with
  | nil => exact .inr ⟨d, rfl, hp⟩
  | cons k r ih =>
    rw [fillLeftover_cons, get_re] at h
    rw [fillLeftoverC_cons]
    cases hg : Dict.get d (copyPc k) with
    | error e => rw [hg] at h; cases h
    | ok v =>
      rw [hg] at h
      by_cases hv : v.Bad
      · exact .inl (by simp only [Except.bind, rotateC_bad hv])
      · obtain ⟨v', h1, h2, h3⟩ := rotateC_fine hv
        simp only [Except.bind, Except.map, h1, ← h2, set_mapVals] at h ⊢
        exact ih (mem_set_of_ne hp (fun e => hk (by simp [e]))) (fun e => hk (List.mem_cons_of_mem _ e)) h

/-- The dictionary with normalized keys. -/
def renamedC (d : Dict Key (NArrC K)) : Dict Key (NArrC K) :=
  Dict.ofPairs (d.map (fun p => (normKey p.1, p.2)))

theorem renamedC_re (d : Dict Key (NArrC K)) : (renamedC d).mapVals NArrC.re = renamed (d.mapVals NArrC.re) := by
  unfold renamedC renamed
  rw [← ofPairs_mapVals, List.map_map, Dict.mapVals, List.map_map]
  rfl

theorem foldl_erase_notMem {ks l : List Key} (hl : l.Nodup) {k : Key} (hk : k ∈ ks) :
    k ∉ ks.foldl (fun l k => l.erase k) l := by
  have sub : ∀ (ks l : List Key), (ks.foldl (fun l k => l.erase k) l).Sublist l := by
    intro ks
    induction ks with
    | nil => exact fun l => List.Sublist.refl l
    | cons a ks ih => exact fun l => (ih (l.erase a)).trans List.erase_sublist
  induction ks generalizing l with
  | nil => simp at hk
  | cons a ks ih =>
    rw [List.foldl_cons]
    rcases List.mem_cons.1 hk with rfl | hk
    · exact fun h => hl.not_mem_erase ((sub _ _).subset h)
    · exact ih (hl.erase a) hk

theorem coerceObliqueC_eq (d : Dict Key (NArrC K)) :
    coerceObliqueC d =
      if setEq ((Dict.keys d).map normKey) [kPP, kPS, kSP, kSS] then .ok (renamedC d)
      else if setEq ((Dict.keys d).map normKey) [kPP, kPS] || setEq ((Dict.keys d).map normKey) [kPP, kSP] ||
          setEq ((Dict.keys d).map normKey) [kSS, kPS] || setEq ((Dict.keys d).map normKey) [kSS, kSP] then
        fillLeftoverC (renamedC d)
          ((Dict.keys (renamedC d)).foldl (fun l k => l.erase k) [kPP, kPS, kSP, kSS])
      else .error .valueError := rfl

theorem coerceOblique_eq (d : Dict Key (NArr K)) :
    coerceOblique d =
      if setEq ((Dict.keys d).map normKey) [kPP, kPS, kSP, kSS] then .ok (renamed d)
      else if setEq ((Dict.keys d).map normKey) [kPP, kPS] || setEq ((Dict.keys d).map normKey) [kPP, kSP] ||
          setEq ((Dict.keys d).map normKey) [kSS, kPS] || setEq ((Dict.keys d).map normKey) [kSS, kSP] then
        fillLeftover (renamed d)
          ((Dict.keys (renamed d)).foldl (fun l k => l.erase k) [kPP, kPS, kSP, kSS])
      else .error .valueError := rfl

theorem coerceObliqueC_fine {d : Dict Key (NArrC K)} (hd : Fine (renamedC d)) :
    (coerceObliqueC d).map (Dict.mapVals NArrC.re) = coerceOblique (d.mapVals NArrC.re) ∧
    ∀ d', coerceObliqueC d = .ok d' → Fine d' := by
  rw [coerceObliqueC_eq, coerceOblique_eq, ← renamedC_re, Dict.keys_mapVals, Dict.keys_mapVals]
  split
  · exact ⟨rfl, by rintro d' h; cases h; exact hd⟩
  · split
    · exact fillLeftoverC_fine hd _
    · exact ⟨rfl, by rintro d' h; cases h⟩

theorem coerceObliqueC_bad {d : Dict Key (NArrC K)} (hd : ¬ Fine (renamedC d)) :
    (ObliqueKeys ((Dict.keys d).map normKey) ∧
      (coerceObliqueC d = .error .typeError ∨ ∃ d', coerceObliqueC d = .ok d' ∧ ¬ Fine d')) ∨
    (¬ ObliqueKeys ((Dict.keys d).map normKey) ∧ coerceObliqueC d = .error .valueError) := by
  simp only [Fine, not_forall, not_not] at hd
  obtain ⟨p, hp, hb⟩ := hd
  have hcases := coerceOblique_cases (d.mapVals NArrC.re)
  rw [Dict.keys_mapVals] at hcases
  by_cases hk : ObliqueKeys ((Dict.keys d).map normKey)
  · refine .inl ⟨hk, ?_⟩
    have hok : ∃ d₁, coerceOblique (d.mapVals NArrC.re) = .ok d₁ := by
      rcases hcases with ⟨_, h⟩ | ⟨_, _, _, _, _, _, _, _, _, _, h⟩ | ⟨h, _⟩
      · exact ⟨_, h⟩
      · exact ⟨_, h⟩
      · exact absurd hk h
    obtain ⟨d₁, h₁⟩ := hok
    rw [coerceOblique_eq, ← renamedC_re, Dict.keys_mapVals, Dict.keys_mapVals] at h₁
    rw [coerceObliqueC_eq]
    split at h₁
    · next h => rw [if_pos h]; exact .inr ⟨_, rfl, fun hf => hf p hp hb⟩
    · next h =>
      rw [if_neg h]
      split at h₁
      · next h' =>
        rw [if_pos h']
        rcases fillLeftoverC_bad hp (foldl_erase_notMem (by decide) (Dict.mem_keys_of_mem hp)) h₁ with h | ⟨d', h, hm⟩
        · exact .inl h
        · exact .inr ⟨d', h, fun hf => hf p hm hb⟩
      · cases h₁
  · refine .inr ⟨hk, ?_⟩
    have h1 : coerceOblique (d.mapVals NArrC.re) = .error .valueError := by
      rcases hcases with ⟨h, _⟩ | ⟨a, b, _, _, _, ha, hb, h, _⟩ | ⟨_, h⟩
      · exact absurd (.inl h) hk
      · exact absurd (.inr ⟨a, b, ha, hb, h⟩) hk
      · exact h
    rw [coerceObliqueC_eq]
    rw [if_neg, if_neg]
    · simp only [Bool.or_eq_true, setEq_pair]
      rintro (((h | h) | h) | h)
      · exact hk (.inr ⟨kPP, kPS, .inl rfl, .inl rfl, h⟩)
      · exact hk (.inr ⟨kPP, kSP, .inl rfl, .inr rfl, h⟩)
      · exact hk (.inr ⟨kSS, kPS, .inr rfl, .inl rfl, h⟩)
      · exact hk (.inr ⟨kSS, kSP, .inr rfl, .inr rfl, h⟩)
    · intro h
      exact hk (.inl (by simpa using setEq_iff.1 h))

/-- The statements of the constructor after the coercion. -/
def finishC (units : Key) (b : Bool) (d : Dict Key (NArrC K)) : Except Err (DataContainer K × List Key) := do
  let w := (d.filter (fun p => warnsC p.2)).map Prod.fst
  let d ← d.mapValsM removeDuplicatesC
  let d ← d.mapValsM modulateC
  let d := d.mapVals (fun v => sortPts v.pts)
  return (⟨d, 1, 0, some 0, b, units⟩, w)

/-- The same for real arrays. -/
def finishR (units : Key) (b : Bool) (d : Dict Key (NArr K)) : Except Err (DataContainer K × List Key) := do
  let w := duplicateWarnings d
  let d := removeDuplicates d
  let d ← d.mapValsM modulate
  let d := d.mapVals (fun v => sortPts v.pts)
  return (⟨d, 1, 0, some 0, b, units⟩, w)

theorem initC_eq (iter : List (RawKey × RawValC K)) (units : Key) (b : Bool) :
    DataContainer.initC iter units b = (checkAngleUnits units).bind (fun _ =>
      (checkIterableC (Dict.ofPairs iter)).bind (fun d =>
        (if units = sDegrees then d.mapValsM toRadiansC else .ok d).bind (fun d =>
          (if b then coerceObliqueC d else .ok d).bind (finishC units b)))) := by
  unfold DataContainer.initC
  cases checkAngleUnits units with
  | error e => rfl
  | ok u =>
    cases checkIterableC (Dict.ofPairs iter) with
    | error e => rfl
    | ok d =>
      simp only [bind, Except.bind]
      by_cases hu : units = sDegrees
      · simp only [if_pos hu]
        cases d.mapValsM toRadiansC with
        | error e => rfl
        | ok d =>
          cases b with
          | false => rfl
          | true =>
            simp only [if_true]
            cases coerceObliqueC d <;> rfl
      · simp only [if_neg hu]
        cases b with
        | false => rfl
        | true =>
          simp only [if_true]
          cases coerceObliqueC d <;> rfl

theorem init_eq_finish (iter : List (RawKey × RawVal K)) (units : Key) (b : Bool) :
    DataContainer.init iter units b = (checkAngleUnits units).bind (fun _ =>
      (checkIterable (Dict.ofPairs iter)).bind (fun d =>
        (if b then coerceOblique (radDict units d) else .ok (radDict units d)).bind (finishR units b))) := by
  unfold DataContainer.init
  cases checkAngleUnits units with
  | error e => rfl
  | ok u =>
    cases checkIterable (Dict.ofPairs iter) with
    | error e => rfl
    | ok d =>
      cases b with
      | false => rfl
      | true =>
        simp only [bind, Except.bind, if_true, radDict]
        generalize coerceOblique (if units = sDegrees then toRadians d else d) = x
        cases x <;> rfl

theorem mapValsM_typeError {α β : Type} {f : α → Except Err β} {d : Dict Key α}
    (hf : ∀ p ∈ d, ∀ e, f p.2 = .error e → e = .typeError) (h : ∃ p ∈ d, f p.2 = .error .typeError) :
    d.mapValsM f = .error .typeError := by
  cases hm : d.mapValsM f with
  | error e =>
    obtain ⟨p, hp, he⟩ := Dict.mapValsM_error hm
    rw [hf p hp e he]
  | ok d' =>
    obtain ⟨p, hp, he⟩ := h
    obtain ⟨q, _, _, h2⟩ := forall₂_mem_left (Dict.mapValsM_ok hm) hp
    rw [he] at h2; cases h2

theorem finishC_bad {d : Dict Key (NArrC K)} (h : ¬ Fine d) (units : Key) (b : Bool) :
    finishC units b d = .error .typeError := by
  simp only [Fine, not_forall, not_not] at h
  obtain ⟨p, hp, hb⟩ := h
  have : d.mapValsM removeDuplicatesC = .error .typeError := by
    apply mapValsM_typeError
    · intro q _ e he
      revert he
      cases q.2 with
      | real a => intro h; cases h
      | cplx pts =>
        cases pts with
        | nil => intro h; cases h
        | cons _ _ => intro h; cases h; rfl
    · refine ⟨p, hp, ?_⟩
      revert hb
      cases p.2 with
      | real a => exact fun h => h.elim
      | cplx pts =>
        cases pts with
        | nil => exact fun h => absurd rfl h
        | cons _ _ => exact fun _ => rfl
  unfold finishC
  simp [this, bind, Except.bind]

theorem finishC_fine {d : Dict Key (NArrC K)} (h : Fine d) (units : Key) (b : Bool) :
    finishC units b d = finishR units b (d.mapVals NArrC.re) := by
  have hw : (d.filter (fun p => warnsC p.2)).map Prod.fst = duplicateWarnings (d.mapVals NArrC.re) := by
    unfold duplicateWarnings
    induction d with
    | nil => rfl
    | cons p d ih =>
      obtain ⟨k, v⟩ := p
      have e : warnsC v = ((dedupFrom [] v.re.pts).length != v.re.pts.length) := by
        have := h (k, v) (by simp)
        cases v with
        | real a => rfl
        | cplx pts =>
          have : pts = [] := by simpa [NArrC.Bad] using this
          subst this
          rfl
      have ih := ih (fun q hq => h q (List.mem_cons_of_mem _ hq))
      simp only [Dict.mapVals_cons, List.filter_cons, e]
      split <;> simp [ih]
  have hm : (d.mapValsM removeDuplicatesC).bind (Dict.mapValsM modulateC) =
      Dict.mapValsM modulate (removeDuplicates (d.mapVals NArrC.re)) := by
    have h1 : d.mapValsM removeDuplicatesC = .ok (d.mapVals (fun v => match v with
        | .real v => .real ⟨v.isInt, dedupFrom [] v.pts⟩
        | .cplx _ => .cplx [])) := by
      apply Dict.mapValsM_of_forall
      intro p hp
      have := h p hp
      revert this
      cases p.2 with
      | real a => exact fun _ => rfl
      | cplx pts =>
        intro this
        have : pts = [] := by simpa [NArrC.Bad] using this
        subst this
        rfl
    rw [h1]
    simp only [Except.bind, removeDuplicates]
    clear h1 hw
    induction d with
    | nil => rfl
    | cons p d ih =>
      obtain ⟨k, v⟩ := p
      have ih := ih (fun q hq => h q (List.mem_cons_of_mem _ hq))
      have := h (k, v) (by simp)
      simp only [Dict.mapVals_cons, Dict.mapValsM, ih]
      cases v with
      | real a => rfl
      | cplx pts =>
        have : pts = [] := by simpa [NArrC.Bad] using this
        subst this
        rfl
  unfold finishC finishR
  simp only [hw, ← hm]
  cases d.mapValsM removeDuplicatesC <;> rfl

theorem toRadiansC_all {d : Dict Key (NArrC K)} (h : ∀ p ∈ d, ∀ pts, p.2 ≠ .cplx pts) :
    ∃ d', d.mapValsM toRadiansC = .ok d' ∧ d'.mapVals NArrC.re = toRadians (d.mapVals NArrC.re) ∧
      ∀ p ∈ d', ∀ pts, p.2 ≠ .cplx pts := by
  induction d with
  | nil => exact ⟨[], rfl, rfl, by simp⟩
  | cons p d ih =>
    obtain ⟨k, v⟩ := p
    obtain ⟨d', h1, h2, h3⟩ := ih (fun q hq => h q (List.mem_cons_of_mem _ hq))
    cases v with
    | cplx pts => exact absurd rfl (h (k, .cplx pts) (by simp) pts)
    | real a =>
      refine ⟨_, by simp only [Dict.mapValsM, toRadiansC, h1]; rfl, ?_, ?_⟩
      · simp only [Dict.mapVals_cons, h2]; rfl
      · intro q hq
        rcases List.mem_cons.1 hq with rfl | hq
        · intro pts e; cases e
        · exact h3 q hq

theorem fine_renamedC_iff {iter : List (RawKey × RawValC K)} {d : Dict Key (NArrC K)}
    (hc : checkIterableC (Dict.ofPairs iter) = .ok d) :
    ¬ Fine (renamedC d) ↔ ∃ k v, LastForC (Dict.ofPairs iter) k v ∧ HasComplexAngle v := by
  have hf := checkIterableC_ok hc
  have hpcs : ∀ {l : Dict RawKey (RawValC K)} {l' : Dict Key (NArrC K)},
      List.Forall₂ (fun p q => p.1 = RawKey.str q.1 ∧ checkValC p.2 = some q.2) l l' →
      pcs (onlyReals l) = l'.map (fun p => normKey p.1) := by
    intro l l' h
    induction h with
    | nil => rfl
    | @cons p q l l' h _ ih =>
      obtain ⟨k, v⟩ := p
      simp only at h
      simp only [onlyReals, pcs, List.map_cons, List.filterMap_cons, h.1] at ih ⊢
      rw [ih]; rfl
  simp only [Fine, not_forall, not_not, renamedC]
  constructor
  · rintro ⟨⟨X, a⟩, hp, hb⟩
    obtain ⟨pre, post, e, hn⟩ := (mem_ofPairs_iff _ X a).1 hp
    obtain ⟨pre', l2, rfl, h2, h3⟩ := List.map_eq_append_iff.1 e
    obtain ⟨q, post', rfl, e2, e3⟩ := List.map_eq_cons_iff.1 h3
    obtain ⟨s, a'⟩ := q
    cases e2
    obtain ⟨pr, ⟨k, v⟩, po, h1, ⟨h2, h3⟩, h4⟩ := forall₂_split_right hf
    simp only at h2 h3
    subst h2
    refine ⟨s, v, ⟨pr, po, h1, ?_⟩, (bad_iff h3).1 hb⟩
    rw [hpcs h4]
    intro hm
    apply hn
    rw [← e3]
    have hk : pcOf s = normKey s := rfl
    rw [hk] at hm
    simpa [Function.comp_def] using hm
  · rintro ⟨s, v, ⟨pre, post, e, hn⟩, hv⟩
    rw [e] at hf
    obtain ⟨pre', ⟨s', a⟩, post', rfl, ⟨h1, h2⟩, h3⟩ := forall₂_split_left hf
    cases h1
    refine ⟨(normKey s', a), (mem_ofPairs_iff _ _ _).2 ⟨pre'.map (fun p => (normKey p.1, p.2)),
      post'.map (fun p => (normKey p.1, p.2)), by simp, ?_⟩, (bad_iff h2).2 hv⟩
    have hk : pcOf s' = normKey s' := rfl
    simp only at hn
    rw [hpcs h3, hk] at hn
    simpa [Function.comp_def] using hn

/-- **C123.** When no angle of a complex array is needed, the constructor does what it does for the real parts. -/
theorem C123_unused (iter : List (RawKey × RawValC K)) (units : Key) (b : Bool)
    (h : ¬ ComplexAngleUsed (Dict.ofPairs iter) units b) :
    DataContainer.initC iter units b = DataContainer.init (onlyReals iter) units b := by
  rw [initC_eq, init_eq_finish]
  have ho : Dict.ofPairs (onlyReals iter) = (Dict.ofPairs iter).mapVals onlyReal := ofPairs_mapVals onlyReal iter
  rw [ho, ← checkIterableC_re]
  cases checkAngleUnits units with
  | error e => rfl
  | ok u =>
    cases hc : checkIterableC (Dict.ofPairs iter) with
    | error e => rfl
    | ok d =>
      have hf := checkIterableC_ok hc
      simp only [Except.bind, Except.map]
      have hstep : ∃ d', (if units = sDegrees then d.mapValsM toRadiansC else .ok d) = .ok d' ∧
          d'.mapVals NArrC.re = radDict units (d.mapVals NArrC.re) ∧ Fine (if b then renamedC d' else d') := by
        by_cases hu : units = sDegrees
        · rw [ComplexAngleUsed, if_pos hu] at h
          have hall : ∀ p ∈ d, ∀ pts, p.2 ≠ .cplx pts := by
            rintro ⟨s, a⟩ hp pts rfl
            obtain ⟨⟨k, v⟩, hq, h1, h2⟩ := forall₂_mem_right hf hp
            exact h ⟨k, v, hq, (isComplex_iff h2).1 ⟨pts, rfl⟩⟩
          obtain ⟨d', h1, h2, h3⟩ := toRadiansC_all hall
          refine ⟨d', by rw [if_pos hu, h1], by rw [h2, radDict, if_pos hu], ?_⟩
          have key : ∀ p : Key × NArrC K, (∀ pts, p.2 ≠ .cplx pts) → ¬ p.2.Bad := by
            rintro ⟨k, v⟩ hv hb
            cases v with
            | real a => exact hb
            | cplx pts => exact hv pts rfl
          cases b with
          | false => exact fun p hp => key p (h3 p hp)
          | true =>
            intro p hp
            obtain ⟨pre, post, e, _⟩ := (mem_ofPairs_iff _ p.1 p.2).1 hp
            have : (p.1, p.2) ∈ d'.map (fun p => (normKey p.1, p.2)) := by rw [e]; simp
            obtain ⟨q, hq, e⟩ := List.mem_map.1 this
            have := key q (h3 q hq)
            have e2 : q.2 = p.2 := (Prod.mk.inj e).2
            rwa [e2] at this
        · rw [ComplexAngleUsed, if_neg hu] at h
          refine ⟨d, if_neg hu, by rw [radDict, if_neg hu], ?_⟩
          cases b with
          | false =>
            simp only [Bool.false_eq_true, if_false] at h ⊢
            rintro ⟨s, a⟩ hp hb
            obtain ⟨⟨k, v⟩, hq, h1, h2⟩ := forall₂_mem_right hf hp
            exact h ⟨k, v, hq, (bad_iff h2).1 hb⟩
          | true =>
            simp only [if_true] at h ⊢
            rw [← fine_renamedC_iff hc, not_not] at h
            exact h
      obtain ⟨d', h1, h2, h3⟩ := hstep
      rw [h1, ← h2]
      cases b with
      | false => exact finishC_fine h3 units false
      | true =>
        simp only [if_true] at h3 ⊢
        obtain ⟨h4, h5⟩ := coerceObliqueC_fine h3
        rw [← h4]
        cases hk : coerceObliqueC d' with
        | error e => rfl
        | ok d'' => exact finishC_fine (h5 _ hk) units true

/-- **C123.** When an angle of a complex array is needed, the constructor raises: `ValueError` when a test that
comes before fails, otherwise `TypeError`. -/
theorem C123_used (iter : List (RawKey × RawValC K)) (units : Key) (b : Bool)
    (h : ComplexAngleUsed (Dict.ofPairs iter) units b) :
    (PassesTests (Dict.ofPairs (onlyReals iter)) units b → DataContainer.initC iter units b = .error .typeError) ∧
    (¬ PassesTests (Dict.ofPairs (onlyReals iter)) units b →
      DataContainer.initC iter units b = .error .valueError) := by
  rw [initC_eq]
  have ho : Dict.ofPairs (onlyReals iter) = (Dict.ofPairs iter).mapVals onlyReal := ofPairs_mapVals onlyReal iter
  unfold PassesTests
  by_cases hu : units = sRadians ∨ units = sDegrees
  swap
  · rw [checkAngleUnits_error.2 ⟨hu, rfl⟩]
    exact ⟨fun hp => absurd hp.1 hu, fun _ => rfl⟩
  rw [checkAngleUnits_ok.2 hu, and_iff_right hu]
  have hre := checkIterableC_re (Dict.ofPairs iter)
  rw [← ho] at hre
  cases hc : checkIterableC (Dict.ofPairs iter) with
  | error e =>
    rw [hc] at hre
    have he := checkIterable_error hre.symm
    have hno : ¬ ∃ d', checkIterable (Dict.ofPairs (onlyReals iter)) = .ok d' := by
      rintro ⟨d', h'⟩; rw [← hre] at h'; cases h'
    rw [checkIterable_ok_iff] at hno
    exact ⟨fun hp => absurd hp.1 hno, fun _ => by rw [he]; rfl⟩
  | ok d =>
    rw [hc] at hre
    have hyes := checkIterable_ok_iff.1 ⟨_, hre.symm⟩
    have hf := checkIterableC_ok hc
    rw [and_iff_right hyes]
    simp only [Except.bind]
    by_cases hdeg : units = sDegrees
    · rw [ComplexAngleUsed, if_pos hdeg] at h
      have hne : units ≠ sRadians := by rw [hdeg]; decide
      refine ⟨fun _ => ?_, fun hn => absurd (fun e => absurd e hne) hn⟩
      obtain ⟨k, v, hm, hv⟩ := h
      obtain ⟨⟨s, a⟩, hq, h1, h2⟩ := forall₂_mem_left hf hm
      obtain ⟨pts, hpts⟩ := (isComplex_iff h2).2 hv
      simp only at hpts
      rw [if_pos hdeg, mapValsM_typeError]
      · intro q _ e he
        revert he
        cases q.2 with
        | real a => intro h; cases h
        | cplx pts => intro h; cases h; rfl
      · exact ⟨(s, a), hq, by simp only [hpts]; rfl⟩
    · rw [ComplexAngleUsed, if_neg hdeg] at h
      have hrad : units = sRadians := hu.resolve_right hdeg
      rw [if_neg hdeg]
      cases b with
      | false =>
        simp only [Bool.false_eq_true, if_false] at h ⊢
        refine ⟨fun _ => ?_, fun hn => absurd (fun _ e => absurd e (by simp)) hn⟩
        apply finishC_bad
        intro hfine
        obtain ⟨k, v, hm, hv⟩ := h
        obtain ⟨⟨s, a⟩, hq, h1, h2⟩ := forall₂_mem_left hf hm
        exact hfine _ hq ((bad_iff h2).2 hv)
      | true =>
        simp only [if_true] at h ⊢
        rw [← fine_renamedC_iff hc] at h
        have hpcs : (Dict.keys d).map normKey = pcs (Dict.ofPairs (onlyReals iter)) := by
          rw [pcs_eq (checkIterable_ok hre.symm), Dict.keys_mapVals]
        rcases coerceObliqueC_bad h with ⟨h1, h2⟩ | ⟨h1, h2⟩
        · rw [hpcs] at h1
          refine ⟨fun _ => ?_, fun hn => absurd (fun _ _ => h1) hn⟩
          rcases h2 with h2 | ⟨d', h2, h3⟩
          · rw [h2]
          · rw [h2]; exact finishC_bad h3 units true
        · rw [hpcs] at h1
          exact ⟨fun hp => absurd (hp hrad trivial) h1, fun _ => by rw [h2]⟩

/-- **C123.** A container is only ever built from real arrays: when the constructor succeeds, an item with a complex
array was overridden by a later item for the same combination, under `normal_to_oblique` in radians, and the
container is the one that the real parts give. -/
theorem C123_container {iter : List (RawKey × RawValC K)} {units : Key} {b : Bool} {r : DataContainer K × List Key}
    (h : DataContainer.initC iter units b = .ok r) :
    DataContainer.init (onlyReals iter) units b = .ok r ∧
    ∀ k v, (k, v) ∈ Dict.ofPairs iter → IsComplex v →
      units = sRadians ∧ b = true ∧ ∃ s, k = .str s ∧ ¬ LastForC (Dict.ofPairs iter) s v := by
  have hn : ¬ ComplexAngleUsed (Dict.ofPairs iter) units b := by
    intro hu
    obtain ⟨h1, h2⟩ := C123_used iter units b hu
    by_cases hp : PassesTests (Dict.ofPairs (onlyReals iter)) units b
    · rw [h1 hp] at h; cases h
    · rw [h2 hp] at h; cases h
  have hr := C123_unused iter units b hn
  rw [h] at hr
  refine ⟨hr.symm, ?_⟩
  have ho : Dict.ofPairs (onlyReals iter) = (Dict.ofPairs iter).mapVals onlyReal := ofPairs_mapVals onlyReal iter
  have hacc := (C04_acceptance (onlyReals iter) units b).1.1 ⟨r.1, r.2, hr.symm⟩
  obtain ⟨hu, hx, hpts⟩ := hacc
  intro k v hm hv
  have hm' : (k, onlyReal v) ∈ Dict.ofPairs (onlyReals iter) := by rw [ho]; exact Dict.mem_mapVals.2 ⟨v, hm, rfl⟩
  obtain ⟨⟨s, rfl⟩, dt, xs, ys, hxy⟩ := hx k _ hm'
  have hang : xs ≠ [] → HasComplexAngle v := by
    intro hne
    obtain ⟨rows, rfl⟩ := hv
    obtain ⟨rest, e, _⟩ := hxy
    match rows with
    | [] => simp [onlyReal] at e
    | [] :: _ =>
      simp only [onlyReal, List.map_cons, List.map_nil, RawVal.arr2.injEq, List.cons.injEq] at e
      exact absurd e.2.1.symm hne
    | (x :: r) :: rest => exact ⟨x, r, rest, rfl⟩
  have hnd : units ≠ sDegrees := by
    intro e
    exact hn (by rw [ComplexAngleUsed, if_pos e]; exact ⟨_, v, hm, hv⟩)
  rw [ComplexAngleUsed, if_neg hnd] at hn
  refine ⟨hu.resolve_right hnd, ?_⟩
  cases b with
  | false =>
    simp only [Bool.false_eq_true, if_false] at hn hpts
    exact absurd ⟨_, v, hm, hang (hpts _ _ dt xs ys hm' hxy)⟩ hn
  | true =>
    simp only [if_true] at hn hpts
    refine ⟨rfl, s, rfl, fun hl => hn ⟨s, v, hl, hang (hpts.2 s _ dt xs ys ?_ hxy)⟩⟩
    obtain ⟨pre, post, e, hp⟩ := hl
    rw [ho, e]
    exact ⟨onlyReals pre, onlyReals post, by simp [Dict.mapVals, onlyReals], hp⟩

/-! ### Concrete cases meeting the hypotheses -/

section Examples

/-- A complex array under `'PP'`. -/
def exComplex : List (RawKey × RawValC ℚ) :=
  [(.str kPP, .cplx [[(1, 0)], [(2, 3)]]), (.str kPS, .real (.arr2 .float [[1], [2]]))]

/-- The tests pass, and a complex angle is needed: `TypeError`, in both units, with and without
`normal_to_oblique`. -/
example (units : Key) (hu : units = sRadians ∨ units = sDegrees) (b : Bool) :
    DataContainer.initC exComplex units b = .error .typeError := by
  refine (C123_used exComplex units b ?_).1 ⟨hu, ?_, ?_⟩
  · unfold ComplexAngleUsed
    have hm : (RawKey.str kPP, (.cplx [[(1, 0)], [(2, 3)]] : RawValC ℚ)) ∈ Dict.ofPairs exComplex := List.mem_cons_self
    split
    · exact ⟨_, _, hm, _, rfl⟩
    · split
      · exact ⟨kPP, _, ⟨[], [(.str kPS, .real (.arr2 .float [[1], [2]]))], rfl, by decide⟩, _, _, _, rfl⟩
      · exact ⟨_, _, hm, _, _, _, rfl⟩
  · intro k v hkv
    have : Dict.ofPairs (onlyReals exComplex) =
        [(.str kPP, .arr2 .float [[1], [2]]), (.str kPS, .arr2 .float [[1], [2]])] := rfl
    rw [this] at hkv
    simp only [List.mem_cons, Prod.mk.injEq, List.not_mem_nil, or_false] at hkv
    rcases hkv with ⟨rfl, rfl⟩ | ⟨rfl, rfl⟩
    · exact ⟨⟨_, rfl⟩, _, _, _, [], rfl, rfl, by decide⟩
    · exact ⟨⟨_, rfl⟩, _, _, _, [], rfl, rfl, by decide⟩
  · intro _ _
    refine .inr ⟨kPP, kPS, .inl rfl, .inl rfl, fun x => ?_⟩
    have : pcs (Dict.ofPairs (onlyReals exComplex)) = [kPP, kPS] := by decide
    rw [this]; simp

/-- An array overridden under `normal_to_oblique` may be complex: `{'pp': complex, 'PS': ..., 'PP': real}`. -/
def exOverridden : List (RawKey × RawValC ℚ) :=
  [(.str ['p', 'p'], .cplx [[(1, 0)], [(2, 3)]]), (.str kPS, .real (.arr2 .float [[1], [2]])),
   (.str kPP, .real (.arr2 .float [[1], [5]]))]

example : ∃ r, DataContainer.initC exOverridden sRadians true = .ok r ∧
    ∃ k v, (k, v) ∈ Dict.ofPairs exOverridden ∧ IsComplex v := by
  have hd : sRadians ≠ sDegrees := by decide
  have hn : ¬ ComplexAngleUsed (Dict.ofPairs exOverridden) sRadians true := by
    rw [ComplexAngleUsed, if_neg hd, if_pos rfl]
    rintro ⟨k, v, ⟨pre, post, e, hp⟩, x, xs, rest, rfl⟩
    have e' : exOverridden = pre ++ (RawKey.str k, .cplx ((x :: xs) :: rest)) :: post := e
    match pre with
    | [] =>
      simp only [exOverridden, List.nil_append, List.cons.injEq, Prod.mk.injEq, RawKey.str.injEq] at e'
      rw [← e'.1.1, ← e'.2] at hp
      exact absurd hp (by decide)
    | [_] => simp [exOverridden] at e'
    | [_, _] => simp [exOverridden] at e'
    | [_, _, _] => simp [exOverridden] at e'
    | _ :: _ :: _ :: _ :: _ => simp [exOverridden] at e'
  rw [C123_unused _ _ _ hn]
  exact ⟨_, rfl, _, _, List.mem_cons_self, _, rfl⟩

end Examples

end Shgpy
