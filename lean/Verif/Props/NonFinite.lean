import Verif.Proofs.NonFinite

/-!
# Values that are infinite or not numbers (C93)
-/

set_option linter.unusedSectionVars false

namespace Shgpy
open Spec

variable {K : Type} [Field K] [LinearOrder K] [IsStrictOrderedRing K]

section
variable [FloorRing K] [HasPi K]

/-! ## C93 -/

/-- C93, exactly.  `get_maxval` gives the largest value of the combinations that do not start with `nan`. -/
theorem C93_maxval {c : FlContainer K} (hc : FlReachable c) :
    ∃ k v, c.getMaxval = .ok (k, v) ∧ LargestIn c.getItems StartsWell k v := by
  obtain ⟨k, v, h1, h2, _, h4, h5⟩ := bestLoop_spec comparison_max c.data (none, .ninf) (flReachable_ne_nil hc) (by simp)
  refine ⟨k, v, h1, h2, h4, ?_⟩
  rcases h5 with h | h
  · cases h; exact Or.inl ⟨rfl, rfl⟩
  · exact Or.inr h

/-- C93, exactly.  `get_minval` gives the smallest value of the combinations that do not start with `nan`. -/
theorem C93_minval {c : FlContainer K} (hc : FlReachable c) :
    ∃ k v, c.getMinval = .ok (k, v) ∧ SmallestIn c.getItems StartsWell k v := by
  obtain ⟨k, v, h1, h2, _, h4, h5⟩ := bestLoop_spec comparison_min c.data (none, .pinf) (flReachable_ne_nil hc) (by simp)
  refine ⟨k, v, h1, h2, h4, ?_⟩
  rcases h5 with h | h
  · cases h; exact Or.inl ⟨rfl, rfl⟩
  · exact Or.inr h

/-- C93, what holds.  If no combination starts with `nan`, the extrema are those of all values. -/
theorem C93_extrema_partial {c : FlContainer K} (hc : FlReachable c) (hs : ∀ it ∈ c.getItems, StartsWell it.2) :
    (∃ k v, c.getMaxval = .ok (k, v) ∧ LargestIn c.getItems (fun _ => True) k v) ∧
    ∃ k v, c.getMinval = .ok (k, v) ∧ SmallestIn c.getItems (fun _ => True) k v := by
  constructor
  · obtain ⟨k, v, h1, h2, h3, h4⟩ := C93_maxval hc
    refine ⟨k, v, h1, h2, fun it hit _ => h3 it hit (hs it hit), ?_⟩
    rcases h4 with h | ⟨k', pts, e1, e2, _, e4⟩
    · exact Or.inl h
    · exact Or.inr ⟨k', pts, e1, e2, trivial, e4⟩
  · obtain ⟨k, v, h1, h2, h3, h4⟩ := C93_minval hc
    refine ⟨k, v, h1, h2, fun it hit _ => h3 it hit (hs it hit), ?_⟩
    rcases h4 with h | ⟨k', pts, e1, e2, _, e4⟩
    · exact Or.inl h
    · exact Or.inr ⟨k', pts, e1, e2, trivial, e4⟩

/-- The factor of `normalize_data`. -/
theorem normalize_fl {c : FlContainer K} (hc : FlReachable c) {k : Option Key} {m : Fl K} (hm : LargestIn c.getItems StartsWell k m)
    {d : K} (hd : (Fl.divNum d m).lt (.num 0) = false) :
    ∃ c', c.normalizeData d = .ok c' ∧
      c'.getItems = c.getItems.mapVals (fun v => v.map (fun p => (p.1, (Fl.divNum d m).mul p.2))) := by
  obtain ⟨k', v, h1, h2⟩ := C93_maxval hc
  obtain rfl := h2.unique hm
  refine ⟨{ c with
    data := c.data.mapVals (fun w => w.map (fun p => (p.1, (Fl.divNum d v).mul p.2)))
    scale := c.scale.mul (Fl.divNum d v) }, ?_, rfl⟩
  · unfold FlContainer.normalizeData
    rw [h1, ok_bind]
    unfold FlContainer.scaleData
    simp only [hd, Bool.false_eq_true, if_false]

/-- C93, what holds.  If the largest value `m` of the combinations that do not start with `nan` is a positive number, then
`normalize_data(d)` multiplies every value with `d / m`, the largest value is then `d`, and the values that are not numbers are the
same ones as before. -/
theorem C93_normalize_partial {c : FlContainer K} (hc : FlReachable c) {k : Option Key} {m : K}
    (hm : LargestIn c.getItems StartsWell k (.num m)) (hpos : 0 < m) {d : K} (hd : 0 < d) :
    ∃ c', c.normalizeData d = .ok c' ∧
      c'.getItems = c.getItems.mapVals (fun v => v.map (fun p => (p.1, (Fl.num (d / m)).mul p.2))) ∧
      LargestIn c'.getItems StartsWell k (.num d) ∧ ∀ a : Fl K, (Fl.num (d / m)).mul a = .nan ↔ a = .nan := by
  have hs : 0 < d / m := div_pos hd hpos
  have he : Fl.divNum d (.num m) = .num (d / m) := by simp [Fl.divNum, hpos.ne']
  obtain ⟨c', h1, h2⟩ := normalize_fl hc hm (d := d) (by rw [he]; simp [Fl.lt, hs.le])
  rw [he] at h2
  refine ⟨c', h1, h2, ?_, fun a => Fl.num_mul_nan hs⟩
  have := largestIn_scaled hs hm
  rw [h2]
  simpa [Fl.mul, div_mul_cancel₀ _ hpos.ne'] using this

/-- C93 is false in general.  If every combination starts with `nan`, then there is no largest and no smallest value, whatever the
other values are, and there is no error: `normalize_data` makes every number zero and `subtract_min` makes every number `-inf`. -/
theorem C93_nan_first_broken {c : FlContainer K} (hc : FlReachable c) (hs : ∀ it ∈ c.getItems, ¬ StartsWell it.2) (d : K) :
    c.getMaxval = .ok (none, .ninf) ∧ c.getMinval = .ok (none, .pinf) ∧
    (∃ c', c.normalizeData d = .ok c' ∧
      ∀ k v, (k, v) ∈ c.getItems → ∃ v', (k, v') ∈ c'.getItems ∧ v'.map Prod.fst = v.map Prod.fst ∧
        ∀ (i : ℕ) x y, v[i]? = some (x, .num y) → v'[i]? = some (x, .num 0)) ∧
    ∃ c', c.subtractMin = .ok c' ∧
      ∀ k v, (k, v) ∈ c.getItems → ∃ v', (k, v') ∈ c'.getItems ∧ v'.map Prod.fst = v.map Prod.fst ∧
        ∀ (i : ℕ) x y, v[i]? = some (x, .num y) → v'[i]? = some (x, .ninf) := by
  have hmax : c.getMaxval = .ok (none, .ninf) := bestLoop_nan comparison_max _ _ (flReachable_ne_nil hc) hs
  have hmin : c.getMinval = .ok (none, .pinf) := bestLoop_nan comparison_min _ _ (flReachable_ne_nil hc) hs
  refine ⟨hmax, hmin, ?_, ?_⟩
  · refine ⟨{ c with
      data := c.data.mapVals (fun w => w.map (fun p => (p.1, (Fl.num 0).mul p.2)))
      scale := c.scale.mul (Fl.num 0) }, ?_, ?_⟩
    · unfold FlContainer.normalizeData
      rw [hmax, ok_bind]
      unfold FlContainer.scaleData
      simp only [Fl.divNum, Fl.lt, lt_irrefl, decide_false, Bool.false_eq_true, if_false]
    · intro k v hv
      refine ⟨_, Dict.mem_mapVals.2 ⟨v, hv, rfl⟩, by simp [Function.comp_def], ?_⟩
      intro i x y h
      simp [h, Fl.mul]
  · refine ⟨{ c with
      data := c.data.mapVals (fun w => w.map (fun p => (p.1, p.2.sub .pinf)))
      offset := c.offset.sub .pinf }, ?_, ?_⟩
    · unfold FlContainer.subtractMin
      rw [hmin, ok_bind]
      rfl
    · intro k v hv
      refine ⟨_, Dict.mem_mapVals.2 ⟨v, hv, rfl⟩, by simp [Function.comp_def], ?_⟩
      intro i x y h
      simp [h, Fl.sub]

/-- C93 is false in general.  If the largest value is zero then `normalize_data` of a positive number makes, without an error,
every zero `nan` and every negative number `-inf`. -/
theorem C93_zero_broken {c : FlContainer K} (hc : FlReachable c) {k : Option Key} (hm : LargestIn c.getItems StartsWell k (.num 0))
    {d : K} (hd : 0 < d) :
    ∃ c', c.normalizeData d = .ok c' ∧
      ∀ k v, (k, v) ∈ c.getItems → ∃ v', (k, v') ∈ c'.getItems ∧ v'.map Prod.fst = v.map Prod.fst ∧
        (∀ (i : ℕ) x, v[i]? = some (x, .num 0) → v'[i]? = some (x, .nan)) ∧
        ∀ (i : ℕ) x y, y < 0 → v[i]? = some (x, .num y) → v'[i]? = some (x, .ninf) := by
  have he : Fl.divNum d (.num 0) = .pinf := by simp [Fl.divNum, Fl.timesInf, hd.ne', hd]
  obtain ⟨c', h1, h2⟩ := normalize_fl hc hm (d := d) (by rw [he]; rfl)
  rw [he] at h2
  refine ⟨c', h1, fun k v hv => ⟨_, by rw [h2]; exact Dict.mem_mapVals.2 ⟨v, hv, rfl⟩, by simp [Function.comp_def], ?_, ?_⟩⟩
  · intro i x h
    simp [h, Fl.mul, Fl.timesInf]
  · intro i x y hy h
    simp [h, Fl.mul, Fl.timesInf, hy.ne, not_lt.2 hy.le]

/-- C93 is false in general.  If a value is `inf`, then `normalize_data` makes, without an error, `inf` `nan` and every number
zero. -/
theorem C93_inf_broken {c : FlContainer K} (hc : FlReachable c) {k : Option Key} (hm : LargestIn c.getItems StartsWell k .pinf) (d : K) :
    ∃ c', c.normalizeData d = .ok c' ∧
      ∀ k v, (k, v) ∈ c.getItems → ∃ v', (k, v') ∈ c'.getItems ∧ v'.map Prod.fst = v.map Prod.fst ∧
        (∀ (i : ℕ) x, v[i]? = some (x, .pinf) → v'[i]? = some (x, .nan)) ∧
        ∀ (i : ℕ) x y, v[i]? = some (x, .num y) → v'[i]? = some (x, .num 0) := by
  obtain ⟨c', h1, h2⟩ := normalize_fl hc hm (d := d) (by simp [Fl.divNum, Fl.lt])
  refine ⟨c', h1, fun k v hv => ⟨_, by rw [h2]; exact Dict.mem_mapVals.2 ⟨v, hv, rfl⟩, by simp [Function.comp_def], ?_, ?_⟩⟩
  · intro i x h
    simp [h, Fl.divNum, Fl.mul, Fl.timesInf]
  · intro i x y h
    simp [h, Fl.divNum, Fl.mul]

/-- C93, link.  With numbers as values, the constructor, the queries and the operations are those that C07–C12 are about: on such a
container they return the same results, except where `normalize_data` divides by a largest value of zero. -/
theorem C93_finite :
    (∀ items : List (Key × List (K × K)), Dict.WF items →
      FlContainer.init (Dict.mapVals (fun v => v.map (fun p => (p.1, .num p.2))) items) =
        (DataContainer.init (items.map (fun it => (.str it.1, .arr2 .float [it.2.map Prod.fst, it.2.map Prod.snd]))) sRadians
          false).map (fun r => asFl r.1)) ∧
    ∀ c : DataContainer K,
      (asFl c).getMaxval = c.getMaxval.map (fun | none => (none, .ninf) | some (k, m) => (some k, .num m)) ∧
      (asFl c).getMinval = c.getMinval.map (fun | none => (none, .pinf) | some (k, m) => (some k, .num m)) ∧
      (∀ s, (asFl c).scaleData (.num s) = (c.scaleData s).map asFl) ∧
      (asFl c).subtractMin = c.subtractMin.map asFl ∧
      ∀ d, c.normalizeData d ≠ .error .nonFinite → (asFl c).normalizeData d = (c.normalizeData d).map asFl := by
  refine ⟨fun items h => init_asFl h, fun c => ⟨?_, ?_, scaleData_asFl c, subtractMin_asFl c, ?_⟩⟩
  · rw [getMaxval_asFl]
    congr 1
  · rw [getMinval_asFl]
    congr 1
  · intro d h
    unfold FlContainer.normalizeData
    unfold DataContainer.normalizeData at h ⊢
    rw [getMaxval_asFl]
    cases hm : c.getMaxval with
    | error e => rfl
    | ok b =>
        rw [hm] at h
        simp only [Except.map, ok_bind] at h ⊢
        rcases b with _ | ⟨k, m⟩
        · exact scaleData_asFl c 0
        · simp only [bestOr, Fl.divNum] at h ⊢
          by_cases h0 : m = 0
          · simp only [h0, if_true] at h ⊢
            by_cases hd : d < 0
            · simp only [hd, if_true, Fl.timesInf, hd.ne, if_false, not_lt.2 hd.le]
              rfl
            · simp [hd] at h
          · simp only [h0, if_false]
            exact scaleData_asFl c _

end

/-- C93.  The arithmetic of the model is the one of the extended real numbers wherever IEEE 754 agrees with it: comparisons always;
products except zero times infinity, which is `nan`; differences except of equal infinities, which are `nan`. -/
theorem C93_arithmetic {a b : Fl ℝ} {x y : EReal} (ha : IsExt a x) (hb : IsExt b y) :
    (a.lt b = true ↔ x < y) ∧
    (if x = 0 ∧ (y = ⊤ ∨ y = ⊥) ∨ y = 0 ∧ (x = ⊤ ∨ x = ⊥) then a.mul b = .nan else IsExt (a.mul b) (x * y)) ∧
    (if x = y ∧ (x = ⊤ ∨ x = ⊥) then a.sub b = .nan else IsExt (a.sub b) (x - y)) ∧
    ∀ c : Fl ℝ, (Fl.nan.lt c = false ∧ c.lt Fl.nan = false) ∧ (Fl.nan.mul c = .nan ∧ c.mul Fl.nan = .nan) ∧
      Fl.nan.sub c = .nan ∧ c.sub Fl.nan = .nan := by
  refine ⟨?_, ?_, ?_, fun c => ?_⟩
  · cases a <;> cases b <;> simp_all [IsExt, Fl.lt]
  · cases a <;> cases b <;> simp only [IsExt] at ha hb <;> subst ha hb
    · simp [IsExt, Fl.mul]
    · rename_i u
      rcases lt_trichotomy u 0 with h | h | h
      · simp [IsExt, Fl.mul, Fl.timesInf, h.ne, not_lt.2 h.le, EReal.coe_mul_top_of_neg h]
      · simp [Fl.mul, Fl.timesInf, h]
      · simp [IsExt, Fl.mul, Fl.timesInf, h, h.ne', EReal.coe_mul_top_of_pos h]
    · rename_i u
      rcases lt_trichotomy u 0 with h | h | h
      · simp [IsExt, Fl.mul, Fl.timesInf, h, h.ne, EReal.coe_mul_bot_of_neg h]
      · simp [Fl.mul, Fl.timesInf, h]
      · simp [IsExt, Fl.mul, Fl.timesInf, not_lt.2 h.le, h.ne', EReal.coe_mul_bot_of_pos h]
    · rename_i u
      rcases lt_trichotomy u 0 with h | h | h
      · simp [IsExt, Fl.mul, Fl.timesInf, h.ne, not_lt.2 h.le, EReal.top_mul_coe_of_neg h]
      · simp [Fl.mul, Fl.timesInf, h]
      · simp [IsExt, Fl.mul, Fl.timesInf, h, h.ne', EReal.top_mul_coe_of_pos h]
    · simp [IsExt, Fl.mul]
    · simp [IsExt, Fl.mul]
    · rename_i u
      rcases lt_trichotomy u 0 with h | h | h
      · simp [IsExt, Fl.mul, Fl.timesInf, h, h.ne, EReal.bot_mul_coe_of_neg h]
      · simp [Fl.mul, Fl.timesInf, h]
      · simp [IsExt, Fl.mul, Fl.timesInf, not_lt.2 h.le, h.ne', EReal.bot_mul_coe_of_pos h]
    · simp [IsExt, Fl.mul]
    · simp [IsExt, Fl.mul]
  · cases a <;> cases b <;> simp only [IsExt] at ha hb <;> subst ha hb <;> simp [IsExt, Fl.sub]
  · cases c <;> simp [Fl.lt, Fl.mul, Fl.sub]

/-- The hypotheses of `C93_arithmetic` are met: `-2 * inf = -inf`. -/
example : IsExt ((Fl.num (-2)).mul .pinf) (((-2 : ℝ) : EReal) * ⊤) := by
  have h := (C93_arithmetic (a := .num (-2)) (b := .pinf) (x := ((-2 : ℝ) : EReal)) (y := ⊤) rfl rfl).2.1
  rw [if_neg] at h
  · exact h
  · norm_num

/-! ## Cases -/

namespace FlCases

/-- The combination `PP` starts with `nan` and has the value 5, the combination `SS` has the values 1 and `nan`. -/
def mixed : FlContainer ℚ := ⟨[(kPP, [(0, .nan), (1, .num 5)]), (kSS, [(0, .num 1), (1, .nan)])], .num 1, .num 0⟩
/-- One combination, which starts with `nan`. -/
def lost : FlContainer ℚ := ⟨[(kPP, [(0, .nan), (1, .num 5)])], .num 1, .num 0⟩
/-- Values that are not positive. -/
def zeros : FlContainer ℚ := ⟨[(kPP, [(0, .num 0), (1, .num (-2))])], .num 1, .num 0⟩
/-- A value that is infinite. -/
def infinite : FlContainer ℚ := ⟨[(kPP, [(0, .num 3), (1, .pinf)])], .num 1, .num 0⟩

theorem inTurn_zero : pmod (0 : ℚ) = 0 := by decide +kernel
theorem inTurn_one : pmod (1 : ℚ) = 1 := by decide +kernel

theorem normal_two (a b : Fl ℚ) : normalFl (dedupFl [] [((0 : ℚ), a), (1, b)]) = .ok [(0, a), (1, b)] := by
  simp [dedupFl, normalFl, inTurn_zero, inTurn_one, List.mergeSort, List.MergeSort.Internal.splitInTwo]

theorem mixed_reachable : FlReachable mixed :=
  .init (d := mixed.data) (by simp [FlContainer.init, mixed, Dict.mapValsM, normal_two, bind, Except.bind, pure, Except.pure])
theorem lost_reachable : FlReachable lost :=
  .init (d := lost.data) (by simp [FlContainer.init, lost, Dict.mapValsM, normal_two, bind, Except.bind, pure, Except.pure])
theorem zeros_reachable : FlReachable zeros :=
  .init (d := zeros.data) (by simp [FlContainer.init, zeros, Dict.mapValsM, normal_two, bind, Except.bind, pure, Except.pure])
theorem infinite_reachable : FlReachable infinite :=
  .init (d := infinite.data) (by simp [FlContainer.init, infinite, Dict.mapValsM, normal_two, bind, Except.bind, pure, Except.pure])

theorem largest {c : FlContainer ℚ} (hc : FlReachable c) {k : Option Key} {v : Fl ℚ} (h : c.getMaxval = .ok (k, v)) :
    LargestIn c.getItems StartsWell k v := by
  obtain ⟨k', v', h1, h2⟩ := C93_maxval hc
  rw [h] at h1; cases h1; exact h2

end FlCases

open FlCases in
/-- C93 is false in general.  A value can be larger than the one that `get_maxval` gives. -/
theorem C93_hidden_broken : ∃ c : FlContainer ℚ, FlReachable c ∧ ∃ k v, c.getMaxval = .ok (k, v) ∧
    ∃ it ∈ c.getItems, ∃ p ∈ it.2, v.lt p.2 = true :=
  ⟨mixed, mixed_reachable, some kSS, .num 1, by rfl, (kPP, [(0, .nan), (1, .num 5)]), by simp [FlContainer.getItems, mixed],
    (1, .num 5), by simp, by simp [Fl.lt]⟩

open FlCases in
/-- The hypotheses of `C93_normalize_partial` are met, with a combination that starts with `nan`. -/
example : ∃ c', mixed.normalizeData 2 = .ok c' ∧ LargestIn c'.getItems StartsWell (some kSS) (.num 2) := by
  obtain ⟨c', h1, _, h3, _⟩ := C93_normalize_partial mixed_reachable (largest mixed_reachable (k := some kSS) (v := .num 1) rfl)
    (by norm_num) (d := 2) (by norm_num)
  exact ⟨c', h1, h3⟩

open FlCases in
/-- The hypothesis of `C93_extrema_partial` is met by data with an infinite value. -/
example : ∀ it ∈ infinite.getItems, StartsWell it.2 := by simp [FlContainer.getItems, infinite, StartsWell]

open FlCases in
/-- The hypotheses of `C93_nan_first_broken` are met by data with the value 5. -/
example : lost.getMaxval = .ok (none, .ninf) ∧ ∃ it ∈ lost.getItems, ∃ p ∈ it.2, p.2 = .num 5 :=
  ⟨(C93_nan_first_broken lost_reachable (by simp [FlContainer.getItems, lost, StartsWell]) 1).1, by simp [FlContainer.getItems, lost]⟩

open FlCases in
/-- The hypotheses of `C93_zero_broken` and `C93_inf_broken` are met. -/
example : (∃ c', zeros.normalizeData 1 = .ok c' ∧ (∃ it ∈ c'.getItems, ∃ p ∈ it.2, p.2 = .nan)) ∧
    ∃ c', infinite.normalizeData 1 = .ok c' ∧ (∃ it ∈ c'.getItems, ∃ p ∈ it.2, p.2 = .nan) := by
  constructor
  · obtain ⟨c', h1, h2⟩ := C93_zero_broken zeros_reachable (largest zeros_reachable (k := some kPP) (v := .num 0) (by decide +kernel))
      (d := 1) (by norm_num)
    obtain ⟨v', g1, _, g3, _⟩ := h2 kPP _ (by simp [FlContainer.getItems, zeros]; rfl)
    exact ⟨c', h1, _, g1, _, List.mem_of_getElem? (g3 0 0 rfl), rfl⟩
  · obtain ⟨c', h1, h2⟩ := C93_inf_broken infinite_reachable (largest infinite_reachable (k := some kPP) (v := .pinf) (by decide +kernel)) 1
    obtain ⟨v', g1, _, g3, _⟩ := h2 kPP _ (by simp [FlContainer.getItems, infinite]; rfl)
    exact ⟨c', h1, _, g1, _, List.mem_of_getElem? (g3 1 1 rfl), rfl⟩

end Shgpy
