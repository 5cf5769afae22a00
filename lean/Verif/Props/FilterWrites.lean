import Verif.Model.FilterWrites
import Verif.Props.DataFilter
import Verif.Props.Pandas

/-!
# Property C87: `filter` with a function that has a memory and writes into its argument
-/

set_option linter.unusedSectionVars false

namespace Shgpy
open Spec

variable {K : Type} [Field K] [LinearOrder K] [IsStrictOrderedRing K] [FloorRing K] [HasPi K]

namespace Spec

/-- The function, called with the values of the combinations of `items` one after the other (after calls with `earlier`),
returns the values of `items'`; names and angles are the same. -/
def FilteredInTurn (f : Callback K) : List (List K) → List (Key × List (K × K)) → List (Key × List (K × K)) → Prop
  | _, [], [] => True
  | earlier, p :: r, q :: r' =>
      q.1 = p.1 ∧ q.2.map Prod.fst = p.2.map Prod.fst ∧ (f.run earlier (p.2.map Prod.snd)).2 = .ok (q.2.map Prod.snd) ∧
        FilteredInTurn f (earlier ++ [p.2.map Prod.snd]) r r'
  | _, _, _ => False

end Spec

theorem filterWrites_spec (f : Callback K) (d : Dict Key (List (K × K))) (earlier : List (List K)) :
    ((filterWrites f earlier d).2 = none ∧ FilteredInTurn f earlier d (filterWrites f earlier d).1) ∨
    ∃ e a a' k v v' b, (filterWrites f earlier d).2 = some e ∧ d = a ++ (k, v) :: b ∧
      (filterWrites f earlier d).1 = a' ++ (k, v') :: b ∧ FilteredInTurn f earlier a a' ∧ v'.map Prod.fst = v.map Prod.fst ∧
      v'.map Prod.snd = (f.run (earlier ++ a.map (fun p => p.2.map Prod.snd)) (v.map Prod.snd)).1 ∧
      FilterFails (fun y => (f.run (earlier ++ a.map (fun p => p.2.map Prod.snd)) y).2) v e := by
  induction d generalizing earlier with
  | nil => exact .inl ⟨rfl, trivial⟩
  | cons p r ih =>
    obtain ⟨k, v⟩ := p
    have hlen := f.length earlier (v.map Prod.snd)
    rw [List.length_map] at hlen
    have hz1 : ((v.map Prod.fst).zip (f.run earlier (v.map Prod.snd)).1).map Prod.fst = v.map Prod.fst :=
      List.map_fst_zip (by simp [hlen])
    have hz2 : ((v.map Prod.fst).zip (f.run earlier (v.map Prod.snd)).1).map Prod.snd = (f.run earlier (v.map Prod.snd)).1 :=
      List.map_snd_zip (by simp [hlen])
    simp only [filterWrites]
    cases hf : (f.run earlier (v.map Prod.snd)).2 with
    | error e =>
      exact .inr ⟨e, [], [], k, v, _, r, rfl, rfl, rfl, trivial, hz1, by simpa using hz2, .inl (by simpa using hf)⟩
    | ok ys =>
      simp only
      by_cases hl : ys.length = v.length
      · rw [if_pos hl]
        have h1 : ((v.map Prod.fst).zip ys).map Prod.fst = v.map Prod.fst := List.map_fst_zip (by simp [hl])
        have h2 : ((v.map Prod.fst).zip ys).map Prod.snd = ys := List.map_snd_zip (by simp [hl])
        rcases ih (earlier ++ [v.map Prod.snd]) with ⟨h3, h4⟩ | ⟨e, a, a', k', w, w', b, h3, h4, h5, h6, h7, h8, h9⟩
        · exact .inl ⟨h3, rfl, h1, by rw [hf, h2], h4⟩
        · refine .inr ⟨e, (k, v) :: a, (k, (v.map Prod.fst).zip ys) :: a', k', w, w', b, h3, by rw [h4]; rfl, by simp [h5],
            ⟨rfl, h1, by rw [hf, h2], h6⟩, h7, ?_, ?_⟩
          · simpa using h8
          · simpa using h9
      · rw [if_neg hl]
        exact .inr ⟨.valueError, [], [], k, v, _, r, rfl, rfl, rfl, trivial, hz1, by simpa using hz2,
          .inr ⟨ys, by simpa using hf, hl, rfl⟩⟩

/-- **C87.**  A call of `filter` that succeeds replaces the values of every combination by what the function returns for them, also
if the function has a memory and writes into its argument.  A call that fails has filtered the combinations before the offending
one and left the later ones alone; the offending one has the values that the function has written.  Recorded scale, phase shift
and offset never change. -/
theorem C87_filter {c : DataContainer K} (f : Callback K) {items items' : Dict Key (List (K × K))}
    (hi : c.getItems sRadians = .ok items) (hi' : (c.filterCall f).1.getItems sRadians = .ok items') :
    ((c.filterCall f).2 = none → FilteredInTurn f [] items items') ∧
    (∀ e, (c.filterCall f).2 = some e → ∃ before before' k v v' after,
      items = before ++ (k, v) :: after ∧ items' = before' ++ (k, v') :: after ∧ FilteredInTurn f [] before before' ∧
      v'.map Prod.fst = v.map Prod.fst ∧
      v'.map Prod.snd = (f.run (before.map (fun p => p.2.map Prod.snd)) (v.map Prod.snd)).1 ∧
      FilterFails (fun y => (f.run (before.map (fun p => p.2.map Prod.snd)) y).2) v e) ∧
    (c.filterCall f).1.getScale = c.getScale ∧ (c.filterCall f).1.getOffset = c.getOffset ∧
    ∀ u, (c.filterCall f).1.getPhaseShift u = c.getPhaseShift u := by
  have h1 : items = c.data := by cases hi; rfl
  have h2 : items' = (filterWrites f [] c.data).1 := by cases hi'; rfl
  subst h1 h2
  refine ⟨fun hn => ?_, fun e he => ?_, rfl, rfl, fun _ => rfl⟩
  · rcases filterWrites_spec f c.data [] with ⟨_, h⟩ | ⟨e, _, _, _, _, _, _, h, _⟩
    · exact h
    · exact absurd (h.symm.trans hn) (by simp)
  · rcases filterWrites_spec f c.data [] with ⟨h, _⟩ | ⟨e', a, a', k, v, v', b, h, h2, h3, h4, h5, h6, h7⟩
    · exact absurd (h.symm.trans he) (by simp)
    · cases h.symm.trans he
      exact ⟨a, a', k, v, v', b, h2, h3, h4, h5, by simpa using h6, by simpa using h7⟩

/-- **C87.**  A function that leaves its argument alone and does not remember: the call is the one of C72. -/
theorem C87_pure (c : DataContainer K) (f : List K → Except Err (List K)) :
    c.filterCall ⟨fun _ y => (y, f y), fun _ _ => rfl⟩ = DataContainer.step c (.filter f) := by
  have h : ∀ (d : Dict Key (List (K × K))) earlier, filterWrites ⟨fun _ y => (y, f y), fun _ _ => rfl⟩ earlier d =
      DataContainer.filterLoop f d := by
    intro d
    induction d with
    | nil => intro _; rfl
    | cons p r ih =>
      obtain ⟨k, v⟩ := p
      intro earlier
      have hz : (v.map Prod.fst).zip (v.map Prod.snd) = v := by
        induction v with
        | nil => rfl
        | cons q v ih => simp [ih]
      simp only [filterWrites, DataContainer.filterLoop, ih, hz]
      cases f (v.map Prod.snd) <;> rfl
  rw [step_filter]
  simp only [DataContainer.filterCall, h]

/-- A function that doubles the first array it gets, in place, and returns it; later ones it sets to zero and raises. -/
def doubleOnce : Callback ℚ where
  run h y := if h = [] then (y.map (2 * ·), .ok (y.map (2 * ·))) else (y.map (fun _ => 0), .error .valueError)
  length h y := by split <;> simp

theorem doubleOnce_frameDat : frameDat.filterCall doubleOnce =
    (⟨[(kPP, [(0, 2), (1, 6)]), (kSS, [(2, 0), (3, 0)])], 1, 0, some 0, false, sRadians⟩, some .valueError) := by
  norm_num [DataContainer.filterCall, filterWrites, doubleOnce, frameDat]
  rfl

/-- **C87.**  A rejected call can change the data of the offending combination: a function that raises after writing into its
argument. -/
theorem C87_failed_broken : ∃ (c : DataContainer ℚ) (f : Callback ℚ),
    DataContainer.init [(.str kPP, .arr2 .float [[0, 1], [1, 3]]), (.str kSS, .arr2 .float [[2, 3], [5, 6]])] sRadians false =
      .ok (c, []) ∧
    (c.filterCall f).2 = some .valueError ∧ (f.run [[1, 3]] [5, 6]).2 = .error .valueError ∧
    c.getPc kSS sRadians = .ok [(2, 5), (3, 6)] ∧ (c.filterCall f).1.getPc kSS sRadians = .ok [(2, 0), (3, 0)] := by
  refine ⟨frameDat, doubleOnce, frameDat_init, by rw [doubleOnce_frameDat], rfl, rfl, by rw [doubleOnce_frameDat]; rfl⟩

/-- The hypotheses of `C87_filter` are met. -/
example : ∃ items items', frameDat.getItems sRadians = .ok items ∧
    (frameDat.filterCall doubleOnce).1.getItems sRadians = .ok items' ∧ (frameDat.filterCall doubleOnce).2 = some .valueError :=
  ⟨_, _, rfl, rfl, by rw [doubleOnce_frameDat]⟩

end Shgpy
