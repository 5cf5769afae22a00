import Verif.Model.Load
import Verif.Props.Convert
import Verif.Props.DataArith
import Verif.Proofs.FormConvert

/-!
# Property C35: the loading pipeline
-/

set_option linter.unusedSectionVars false
set_option linter.unusedSimpArgs false

namespace Shgpy
open Spec

/-- The row starts with the two numbers, written in a way that `float` accepts. -/
def RowHolds (float : Key → Option ℝ) (row : List Key) (p : ℝ × ℝ) : Prop :=
  ∃ a b rest, row = a :: b :: rest ∧ float a = some p.1 ∧ float b = some p.2

theorem readRow_ok {float : Key → Option ℝ} {row : List Key} {p : ℝ × ℝ} :
    readRow float row = .ok p ↔ RowHolds float row p := by
  unfold readRow RowHolds
  cases row with
  | nil => simp [pyGet, error_bind]
  | cons a row =>
    simp only [pyGet, le_refl, if_true, Int.toNat_zero, List.getElem?_cons_zero, ok_bind]
    cases ha : float a with
    | none => simp [ha]
    | some x =>
      cases row with
      | nil => simp [error_bind]
      | cons b row =>
        simp only [Int.zero_le_ofNat, if_true, Int.toNat_one, List.getElem?_cons_succ, List.getElem?_cons_zero, ok_bind]
        cases hb : float b with
        | none => simp [hb]
        | some y =>
          simp only [Except.ok.injEq, List.cons.injEq]
          constructor
          · rintro rfl
            exact ⟨a, b, row, ⟨rfl, rfl, rfl⟩, ha, hb⟩
          · rintro ⟨a', b', r, ⟨rfl, rfl, rfl⟩, h1, h2⟩
            rw [ha] at h1; rw [hb] at h2
            cases h1; cases h2
            rfl

theorem readRow_error {float : Key → Option ℝ} {row : List Key} {e : Err} (h : readRow float row = .error e) :
    e = .indexError ∨ e = .valueError := by
  unfold readRow at h
  cases row with
  | nil => simp [pyGet, error_bind] at h; exact Or.inl h.symm
  | cons a row =>
    simp only [pyGet, le_refl, if_true, Int.toNat_zero, List.getElem?_cons_zero, ok_bind] at h
    cases ha : float a with
    | none => simp [ha] at h; exact Or.inr h.symm
    | some x =>
      rw [ha] at h
      cases row with
      | nil => simp [error_bind] at h; exact Or.inl h.symm
      | cons b row =>
        simp only [Int.zero_le_ofNat, if_true, Int.toNat_one, List.getElem?_cons_succ, List.getElem?_cons_zero, ok_bind] at h
        cases hb : float b with
        | none => simp [hb] at h; exact Or.inr h.symm
        | some y => simp [hb] at h

theorem mapM_ok_iff {α β : Type} {f : α → Except Err β} {R : α → β → Prop} (hf : ∀ a b, f a = .ok b ↔ R a b)
    {l : List α} {l' : List β} : l.mapM f = .ok l' ↔ List.Forall₂ R l l' := by
  induction l generalizing l' with
  | nil =>
    rw [List.mapM_nil]
    constructor
    · intro h; cases h; exact .nil
    · intro h; cases h; rfl
  | cons a l ih =>
    rw [List.mapM_cons]
    constructor
    · intro h
      cases ha : f a with
      | error e => rw [ha] at h; cases h
      | ok b =>
        rw [ha, ok_bind] at h
        cases hl : l.mapM f with
        | error e => rw [hl] at h; cases h
        | ok bs =>
          rw [hl] at h
          cases h
          exact .cons ((hf a b).1 ha) (ih.1 hl)
    · intro h
      cases h with
      | cons h1 h2 =>
        rw [(hf _ _).2 h1, ok_bind, ih.2 h2]
        rfl

/-- **C35.** `read_csv` succeeds exactly when the file exists and every row starts with two numbers, and returns them in
order; extra cells are ignored. -/
theorem C35_read_csv (float : Key → Option ℝ) (fs : CsvFiles) (name : Key) (v : RawVal ℝ) :
    readCsv float fs name = .ok v ↔ ∃ rows pts, fs name = some rows ∧ List.Forall₂ (RowHolds float) rows pts ∧
      v = .arr2 .float [pts.map Prod.fst, pts.map Prod.snd] := by
  unfold readCsv
  cases fs name with
  | none => simp
  | some rows =>
    simp only [Option.some.injEq, exists_and_left, exists_eq_left']
    constructor
    · intro h
      cases hm : rows.mapM (readRow float) with
      | error e => rw [hm] at h; cases h
      | ok pts =>
        rw [hm] at h
        exact ⟨pts, (mapM_ok_iff (fun _ _ => readRow_ok)).1 hm, (Except.ok.inj h).symm⟩
    · rintro ⟨pts, h1, rfl⟩
      rw [(mapM_ok_iff (fun _ _ => readRow_ok)).2 h1]
      rfl

/-- The file exists and holds exactly these points. -/
def FileHolds (float : Key → Option ℝ) (fs : CsvFiles) (name : Key) (pts : List (ℝ × ℝ)) : Prop :=
  ∃ rows, fs name = some rows ∧ List.Forall₂ (RowHolds float) rows pts

theorem readCsv_of_holds {float : Key → Option ℝ} {fs : CsvFiles} {name : Key} {pts : List (ℝ × ℝ)}
    (h : FileHolds float fs name pts) : readCsv float fs name = .ok (.arr2 .float [pts.map Prod.fst, pts.map Prod.snd]) := by
  obtain ⟨rows, h1, h2⟩ := h
  exact (C35_read_csv float fs name _).2 ⟨rows, pts, h1, h2, rfl⟩

theorem checkIterable_items (d : Dict Key (List (ℝ × ℝ))) : checkIterable (d.map (fun it => ((.str it.1 : RawKey),
    (.arr2 .float [it.2.map Prod.fst, it.2.map Prod.snd] : RawVal ℝ)))) = .ok (d.mapVals (fun v => ⟨false, v⟩)) := by
  induction d with
  | nil => rfl
  | cons it d ih =>
    obtain ⟨k, v⟩ := it
    simp only [List.map_cons, checkIterable, ih]
    have : checkVal (RawVal.arr2 DType.float [List.map Prod.fst v, List.map Prod.snd v])
        = some ⟨false, v⟩ := by
      simp only [checkVal, List.length_map, ne_eq, reduceCtorEq, not_false_eq_true, and_self, if_true,
        decide_false, Option.some.injEq, NArr.mk.injEq, true_and]
      rw [List.zip_map']
      simp
    rw [this]
    rfl

/-- Building a container from float items in either unit whose angles, in radians, are in normal form and distinct. -/
theorem init_items_units {items : Dict Key (List (ℝ × ℝ))} {units : Key} (hu : units = sRadians ∨ units = sDegrees)
    (hwf : Dict.WF items) {g : List (ℝ × ℝ) → List (ℝ × ℝ)}
    (hg : ∀ v, g v = v.map (fun p => (rad units p.1, p.2)))
    (hnf : ∀ it ∈ items, NormalForm (g it.2)) (hd : ∀ it ∈ items, ((g it.2).map Prod.fst).Nodup) :
    DataContainer.init
      (items.map (fun it => (.str it.1, .arr2 .float [it.2.map Prod.fst, it.2.map Prod.snd]))) units false
      = .ok (⟨items.mapVals g, 1, 0, some 0, false, units⟩, []) := by
  have hnd : ∀ d : Dict Key (List (ℝ × ℝ)), Dict.WF d → ((d.map (fun it => ((.str it.1 : RawKey),
      (.arr2 .float [it.2.map Prod.fst, it.2.map Prod.snd] : RawVal ℝ)))).map Prod.fst).Nodup :=
    fun d h => FormContainer.str_map_nodup h (fun v => (.arr2 .float [v.map Prod.fst, v.map Prod.snd] : RawVal ℝ))
  have hwf' : Dict.WF (items.mapVals g) := by simpa [Dict.WF] using hwf
  have h := init_items (items := items.mapVals g) hwf' (by
      rintro ⟨k, v⟩ hit
      obtain ⟨w, hw, rfl⟩ := Dict.mem_mapVals.1 hit
      exact hnf _ hw) (by
      rintro ⟨k, v⟩ hit
      obtain ⟨w, hw, rfl⟩ := Dict.mem_mapVals.1 hit
      exact hd _ hw)
  rw [init_eq, if_pos (Or.inl rfl), Dict.ofPairs_of_nodup (hnd _ hwf'), checkIterable_items] at h
  rw [init_eq, if_pos hu, Dict.ofPairs_of_nodup (hnd _ hwf), checkIterable_items]
  have hr : radDict units (items.mapVals (fun v => (⟨false, v⟩ : NArr ℝ))) =
      radDict sRadians ((items.mapVals g).mapVals (fun v => (⟨false, v⟩ : NArr ℝ))) := by
    have h2 : radDict sRadians ((items.mapVals g).mapVals (fun v => (⟨false, v⟩ : NArr ℝ))) =
      (items.mapVals g).mapVals (fun v => (⟨false, v⟩ : NArr ℝ)) := by simp [radDict, sRadians, sDegrees]
    rw [h2, Dict.mapVals_mapVals]
    unfold radDict
    by_cases hdeg : units = sDegrees
    · rw [if_pos hdeg]
      unfold toRadians
      rw [Dict.mapVals_mapVals]
      refine Dict.mapVals_congr (fun p _ => ?_)
      simp only [hg, rad, hdeg, if_true, deg2rad]
    · rw [if_neg hdeg]
      refine Dict.mapVals_congr (fun p _ => ?_)
      simp only [hg, rad, hdeg, if_false]
      simp
  simp only [Bool.false_eq_true, if_false] at h ⊢
  rw [hr]
  split at h
  · rename_i hne
    rw [if_pos hne]
    simp only [Except.ok.injEq, Prod.mk.injEq, DataContainer.mk.injEq] at h ⊢
    exact ⟨⟨h.1.1, trivial, trivial, trivial, trivial, trivial⟩, h.2⟩
  · cases h

/-- Every file of the dictionary holds, in the given unit, samples on the `N`-point grid of the function belonging to
its combination. -/
def FilesSample (float : Key → Option ℝ) (fs : CsvFiles) (names : Dict Key Key) (units : Key) (N : ℕ)
    (y : Key → ℝ → ℝ) : Prop :=
  ∀ k n, (k, n) ∈ names → ∃ pts, FileHolds float fs n pts ∧
    pts.map (fun p => (rad units p.1, p.2)) = sampled N (y k)

theorem loadData_sampled {float : Key → Option ℝ} {fs : CsvFiles} {names : Dict Key Key} {units : Key} {N : ℕ}
    {y : Key → ℝ → ℝ} (hu : units = sRadians ∨ units = sDegrees) (hwf : Dict.WF names) (hN : 1 ≤ N)
    (h : FilesSample float fs names units N y) :
    ∃ c, loadData float fs names units false = .ok c ∧ c.Reachable ∧ c.getKeys = names.keys ∧
      ∀ k ∈ names.keys, c.getPc k sRadians = .ok (sampled N (y k)) := by
  classical
  let P : Key → List (ℝ × ℝ) := fun n => if h : ∃ pts, FileHolds float fs n pts then h.choose else []
  have hP : ∀ k n, (k, n) ∈ names → FileHolds float fs n (P n) ∧
      (P n).map (fun p => (rad units p.1, p.2)) = sampled N (y k) := by
    intro k n hkn
    obtain ⟨pts, h1, h2⟩ := h k n hkn
    have hex : ∃ pts, FileHolds float fs n pts := ⟨pts, h1⟩
    have e : P n = hex.choose := dif_pos hex
    have h3 := hex.choose_spec
    have : hex.choose = pts := by
      have e1 := readCsv_of_holds h3
      have e2 := readCsv_of_holds h1
      rw [e1] at e2
      simp only [Except.ok.injEq, RawVal.arr2.injEq, List.cons.injEq, and_true, true_and] at e2
      calc hex.choose = (hex.choose.map Prod.fst).zip (hex.choose.map Prod.snd) := by rw [List.zip_map']; simp
        _ = (pts.map Prod.fst).zip (pts.map Prod.snd) := by rw [e2.1, e2.2]
        _ = pts := by rw [List.zip_map']; simp
    rw [e, this]
    exact ⟨h1, h2⟩
  have hm : Dict.mapValsM (readCsv float fs) names =
      .ok ((names.mapVals P).mapVals (fun pts => .arr2 .float [pts.map Prod.fst, pts.map Prod.snd])) := by
    rw [Dict.mapVals_mapVals]
    exact Dict.mapValsM_of_forall (fun it hit => readCsv_of_holds (hP it.1 it.2 hit).1)
  have hi := init_items_units (items := names.mapVals P) hu (by simpa [Dict.WF] using hwf)
    (g := fun v => v.map (fun p => (rad units p.1, p.2))) (fun _ => rfl) (by
      rintro ⟨k, v⟩ hit
      obtain ⟨n, hn, rfl⟩ := Dict.mem_mapVals.1 hit
      simp only
      rw [(hP k n hn).2]
      exact sampled_normalForm hN (y k)) (by
      rintro ⟨k, v⟩ hit
      obtain ⟨n, hn, rfl⟩ := Dict.mem_mapVals.1 hit
      simp only
      rw [(hP k n hn).2]
      exact sampled_nodup hN (y k))
  unfold loadData
  rw [hm, ok_bind]
  have he : ((names.mapVals P).mapVals (fun pts => (RawVal.arr2 DType.float [pts.map Prod.fst, pts.map Prod.snd]
      : RawVal ℝ))).map (fun kv => ((.str kv.1 : RawKey), kv.2)) =
      (names.mapVals P).map (fun it => (.str it.1, .arr2 .float [it.2.map Prod.fst, it.2.map Prod.snd])) := by
    simp [Dict.mapVals]
  rw [he, hi]
  refine ⟨_, rfl, ⟨_, _, _, _, _, [], hi, rfl⟩, by simp [DataContainer.getKeys], ?_⟩
  intro k hk
  obtain ⟨n, hn⟩ := Dict.mem_keys.1 hk
  rw [getPc_radians, Dict.get_ok_iff, Dict.get?_mapVals, Dict.get?_mapVals, (Dict.get?_eq_some_iff hwf).2 hn]
  simp only [Option.map_some]
  rw [(hP k n hn).2]

theorem close_refl (a : ℝ) : Close a a := by
  unfold Close
  simp only [sub_self, abs_zero]
  positivity

theorem sampled_compatible {N : ℕ} (f g : ℝ → ℝ) : Compatible (sampled N f) (sampled N g) ∧
    List.zipWith (fun p q : ℝ × ℝ => (p.1, p.2 - q.2)) (sampled N f) (expand (sampled N f) (sampled N g)) =
      sampled N (fun x => f x - g x) := by
  have hexp : expand (sampled N f) (sampled N g) = sampled N g := by
    match N with
    | 0 => rfl
    | 1 => rfl
    | N + 2 =>
      have : sampled (N + 2) g = (gridAngle (N + 2) 0, g (gridAngle (N + 2) 0)) ::
          (gridAngle (N + 2) 1, g (gridAngle (N + 2) 1)) :: (sampled (N + 2) g).drop 2 := by
        unfold sampled
        rw [List.range_succ_eq_map, List.range_succ_eq_map]
        simp
      rw [this]
      rfl
  unfold Compatible
  rw [hexp]
  unfold sampled
  constructor
  · rw [List.forall₂_map_left_iff, List.forall₂_map_right_iff, List.forall₂_same]
    intro j _
    exact close_refl _
  · rw [List.zipWith_map]
    induction List.range N with
    | nil => rfl
    | cons a l ih => simp [ih]

theorem loadDark_sampled {float : Key → Option ℝ} {fs : CsvFiles} {names dark : Dict Key Key} {units darkUnits : Key} {N : ℕ}
    {y z : Key → ℝ → ℝ} (hu : units = sRadians ∨ units = sDegrees) (hu' : darkUnits = sRadians ∨ darkUnits = sDegrees)
    (hwf : Dict.WF names) (hwf' : Dict.WF dark) (hne : names ≠ [])
    (hkeys : ∀ k, k ∈ names.keys ↔ k ∈ dark.keys) (hN : 1 ≤ N)
    (h : FilesSample float fs names units N y) (h' : FilesSample float fs dark darkUnits N z) :
    ∃ c, loadDataAndDarkSubtract float fs names units dark darkUnits false = .ok c ∧ c.Reachable ∧
      c.getKeys = names.keys ∧
      ∀ k ∈ names.keys, c.getPc k sRadians = .ok (sampled N (fun x => y k x - z k x)) := by
  obtain ⟨c₁, e1, r1, k1, p1⟩ := loadData_sampled hu hwf hN h
  obtain ⟨c₂, e2, r2, k2, p2⟩ := loadData_sampled hu' hwf' hN h'
  have hs : setEq names.keys dark.keys = true := setEq_iff.2 hkeys
  have hmem : ∀ (c : DataContainer ℝ) k pts, c.getPc k sRadians = .ok pts → k ∈ c.getKeys := by
    intro c k pts hp
    rw [getPc_radians] at hp
    exact Dict.mem_keys_of_mem (Dict.mem_of_get? (Dict.get_ok_iff.1 hp))
  have hpc1 : ∀ k pts, c₁.getPc k sRadians = .ok pts → pts = sampled N (y k) := by
    intro k pts hp
    have := p1 k (by rw [← k1]; exact hmem _ _ _ hp)
    rw [hp] at this
    exact Except.ok.inj this
  have hpc2 : ∀ k pts, c₂.getPc k sRadians = .ok pts → pts = sampled N (z k) := by
    intro k pts hp
    have := p2 k (by rw [← k2]; exact hmem _ _ _ hp)
    rw [hp] at this
    exact Except.ok.inj this
  have hlen : ∀ (c : DataContainer ℝ) (f : Key → ℝ → ℝ), c.Reachable →
      (∀ k pts, c.getPc k sRadians = .ok pts → pts = sampled N (f k)) →
      ∀ v r, c.getValues sRadians = .ok (v :: r) → v.length = N := by
    intro c f hr hp v r hv
    have hv' : c.data.values = v :: r := Except.ok.inj hv
    cases hd : c.data with
    | nil => rw [hd] at hv'; cases hv'
    | cons it d =>
      rw [hd] at hv'
      have hv2 : it.2 = v := by
        simp only [Dict.values, List.map_cons, List.cons.injEq] at hv'
        exact hv'.1
      have hit : it ∈ c.data := by rw [hd]; exact List.mem_cons_self
      have := hp it.1 it.2 (get_of_mem (reachable_normalForm hr).1 hit)
      rw [← hv2, this]
      simp [sampled]
  obtain ⟨c, e3, r3, k3, p3⟩ := combine_ok (fun a b : ℝ => a - b) r1 r2
    (fun k pts hp => by rw [hpc1 k pts hp]; exact sampled_nodup hN (y k))
    ⟨fun k => by rw [k1, k2]; exact hkeys k, by
      rw [k1]
      intro hk
      apply hne
      have : names.map Prod.fst = [] := hk
      simpa using this, fun v₁ v₂ r₁ r₂ a b => by rw [hlen c₁ y r1 hpc1 _ _ a, hlen c₂ z r2 hpc2 _ _ b],
      fun k q₁ q₂ a b => by rw [hpc1 k _ a, hpc2 k _ b]; exact (sampled_compatible _ _).1⟩
  refine ⟨c, ?_, r3, k3.trans k1, fun k hk => ?_⟩
  · unfold loadDataAndDarkSubtract
    rw [hs, if_neg (by simp), e1, ok_bind, e2, ok_bind]
    unfold datSubtract
    rw [e3]
    rfl
  · have := p3 k _ _ (p1 k hk) (p2 k ((hkeys k).1 hk))
    rw [(sampled_compatible (y k) (z k)).2] at this
    exact this

/-- What the second half of the pipeline makes of loaded samples. -/
theorem pipeline_tail {interp : Interp} {dat : DataContainer ℝ} (hr : dat.Reachable) {N : ℕ} (hN : 2 ≤ N) (M : ℕ)
    {y : Key → ℝ → ℝ} (hy : ∀ k ∈ dat.getKeys, dat.getPc k sRadians = .ok (sampled N (y k)))
    (hi : ∀ f, Reproduces interp (sampled N f)) (ms : Bool) :
    ∃ (μ : ℝ) (dat' : DataContainer ℝ) (fdat : FDataContainer),
      maybeSubtractMin ms dat = .ok dat' ∧
      datToFdat interp dat' M = .ok fdat ∧
      (ms = false → μ = 0) ∧
      (ms = true → dat.getKeys ≠ [] → IsLeast {v | ∃ k ∈ dat.getKeys, ∃ j < N, v = y k (gridAngle N j)} μ) ∧
      dat'.getKeys = dat.getKeys ∧ fdat.getKeys = dat.getKeys ∧ fdat.getM = M ∧
      ∀ k ∈ dat.getKeys, dat'.getPc k sRadians = .ok (sampled N (fun x => y k x - μ)) ∧
        ∃ v, fdat.getPc k = .ok v ∧ v.length = 2 * M + 1 ∧
          ∀ m, -(M : ℤ) ≤ m ∧ m ≤ M → Component v M m (dft N (fun x => y k x - μ) m) := by
  have hmem : ∀ (c : DataContainer ℝ) k pts, c.getPc k sRadians = .ok pts → k ∈ c.getKeys := by
    intro c k pts hp
    rw [getPc_radians] at hp
    exact Dict.mem_keys_of_mem (Dict.mem_of_get? (Dict.get_ok_iff.1 hp))
  -- the container after the optional subtraction
  obtain ⟨μ, dat', h1, hr', hk', h0, hmin, hp'⟩ : ∃ (μ : ℝ) (dat' : DataContainer ℝ),
      maybeSubtractMin ms dat = .ok dat' ∧
      dat'.Reachable ∧ dat'.getKeys = dat.getKeys ∧ (ms = false → μ = 0) ∧
      (ms = true → dat.getKeys ≠ [] → IsLeast {v | ∃ k ∈ dat.getKeys, ∃ j < N, v = y k (gridAngle N j)} μ) ∧
      ∀ k ∈ dat.getKeys, dat'.getPc k sRadians = .ok (sampled N (fun x => y k x - μ)) := by
    cases ms with
    | false =>
      refine ⟨0, dat, rfl, hr, rfl, fun _ => rfl, fun h => by simp at h, fun k hk => ?_⟩
      simp only [sub_zero]
      exact hy k hk
    | true =>
      unfold maybeSubtractMin
      simp only [if_true]
      have hst := step_subtractMin dat
      by_cases hne : dat.getKeys = []
      · have hd : dat.data = [] := by
          have : dat.data.map Prod.fst = [] := hne
          simpa using this
        have hsm : dat.subtractMin = .ok { dat with offset := none } := by
          unfold DataContainer.subtractMin DataContainer.getMinval
          rw [hd]
          rfl
        rw [hsm] at hst
        refine ⟨0, { dat with offset := none }, ?_, ?_, rfl, fun h => by simp at h, fun _ h => absurd hne h, ?_⟩
        · unfold callMethod; rw [hst]
        · have := reachable_step hr .subtractMin
          rw [hst] at this
          exact this
        · intro k hk; rw [hne] at hk; cases hk
      · obtain ⟨items, hit, hmv⟩ := C09_minval hr
        rw [getItems_radians] at hit
        have hit := Except.ok.inj hit
        subst hit
        rcases hmv with ⟨h, _⟩ | ⟨k₀, μ, hmv, hext⟩
        · exfalso; apply hne; unfold DataContainer.getKeys; rw [h]; rfl
        have hsm : dat.subtractMin = .ok { dat with
            data := dat.data.mapVals (lowerPts μ), offset := dat.offset.map (fun o => o - μ) } := by
          unfold DataContainer.subtractMin
          rw [hmv]
          rfl
        rw [hsm] at hst
        have hwf := (reachable_normalForm hr).1
        refine ⟨μ, _, by unfold callMethod; rw [hst], ?_, by simp [DataContainer.getKeys], fun h => by simp at h, fun _ _ => ?_, ?_⟩
        · have := reachable_step hr .subtractMin
          rw [hst] at this
          exact this
        · obtain ⟨pre, pts, post, e, ⟨p, hp1, hp2⟩, hle, hpre, hpost⟩ := hext
          have hall : ∀ it ∈ dat.data, it.2 = sampled N (y it.1) := by
            intro it hit
            have := hy it.1 (Dict.mem_keys_of_mem (v := it.2) hit)
            rw [show dat.getPc it.1 sRadians = .ok it.2 from get_of_mem hwf hit] at this
            exact Except.ok.inj this
          constructor
          · have hm : (k₀, pts) ∈ dat.data := by rw [e]; simp
            refine ⟨k₀, Dict.mem_keys_of_mem hm, ?_⟩
            have := hall _ hm
            simp only at this
            rw [this] at hp1
            obtain ⟨j, hj, rfl⟩ := List.mem_map.1 hp1
            exact ⟨j, List.mem_range.1 hj, hp2.symm⟩
          · rintro v ⟨k, hk, j, hj, rfl⟩
            obtain ⟨q, hq⟩ := Dict.mem_keys.1 hk
            have hq' := hall _ hq
            simp only at hq'
            have hin : (gridAngle N j, y k (gridAngle N j)) ∈ q := by
              rw [hq']; exact List.mem_map.2 ⟨j, List.mem_range.2 hj, rfl⟩
            rw [e] at hq
            rcases List.mem_append.1 hq with hq | hq
            · exact (hpre _ hq _ hin).le
            · rcases List.mem_cons.1 hq with hq | hq
              · cases hq
                exact not_lt.1 (hle _ hin)
              · exact not_lt.1 (hpost _ hq _ hin)
        · intro k hk
          have := hy k hk
          rw [getPc_radians, Dict.get_ok_iff] at this
          rw [getPc_radians, Dict.get_ok_iff, Dict.get?_mapVals, this]
          simp only [Option.map_some, lowerPts, sampled, List.map_map]
          rfl
  have hgrid : ∀ k pts, dat'.getPc k sRadians = .ok pts → (∃ y, pts = sampled N y) ∧ Reproduces interp pts := by
    intro k pts hp
    have hk := hmem _ _ _ hp
    rw [hk'] at hk
    have := hp' k hk
    rw [hp] at this
    rw [Except.ok.inj this]
    exact ⟨⟨_, rfl⟩, hi _⟩
  obtain ⟨fdat, h2, _, h3, h4, h5⟩ := C21_discrete_transform hr' hN M hgrid
  exact ⟨μ, dat', fdat, h1, h2, h0, hmin, hk', h3.trans hk', h4, fun k hk => ⟨hp' k hk, h5 k _ (hp' k hk)⟩⟩

/-- **C35, without a dark file and without scaling.** For files holding samples on a grid of `N ≥ 2` angles, in either
unit, `load_data_and_fourier_transform` returns the samples, lowered by their common minimum if `min_subtract` is set, and
their discrete Fourier transform. -/
theorem C35_pipeline_partial {float : Key → Option ℝ} {fs : CsvFiles} {interp : Interp} {names : Dict Key Key} {units : Key}
    {N : ℕ} {y : Key → ℝ → ℝ} (hu : units = sRadians ∨ units = sDegrees) (hwf : Dict.WF names) (hne : names ≠ [])
    (hN : 2 ≤ N) (h : FilesSample float fs names units N y) (hi : ∀ f, Reproduces interp (sampled N f)) (M : ℕ) (ms : Bool) :
    ∃ μ dat fdat, loadDataAndFourierTransform float fs interp names units none M ms 1 false = .ok (dat, fdat) ∧
      (ms = false → μ = 0) ∧
      (ms = true → IsLeast {v | ∃ k ∈ names.keys, ∃ j < N, v = y k (gridAngle N j)} μ) ∧
      dat.getKeys = names.keys ∧ fdat.getKeys = names.keys ∧ fdat.getM = M ∧
      ∀ k ∈ names.keys, dat.getPc k sRadians = .ok (sampled N (fun x => y k x - μ)) ∧
        ∃ v, fdat.getPc k = .ok v ∧ v.length = 2 * M + 1 ∧
          ∀ m, -(M : ℤ) ≤ m ∧ m ≤ M → Component v M m (dft N (fun x => y k x - μ) m) := by
  obtain ⟨c, e, r, k, p⟩ := loadData_sampled hu hwf (by omega) h
  obtain ⟨μ, dat', fdat, h1, h2, h3, h4, h5, h6, h7, h8⟩ := pipeline_tail r hN M (by rw [k]; exact p) hi ms
  rw [k] at h4 h5 h6 h8
  have hne' : names.keys ≠ [] := by
    intro hk
    apply hne
    have : names.map Prod.fst = [] := hk
    simpa using this
  refine ⟨μ, dat', fdat, ?_, h3, fun hm => h4 hm hne', h5, h6, h7, h8⟩
  unfold loadDataAndFourierTransform
  unfold loadMaybeDark
  simp only
  rw [e, ok_bind, h1, ok_bind, h2, ok_bind, if_neg (by simp)]

/-- **C35, with dark files and without scaling.** The same with the dark samples subtracted. -/
theorem C35_dark_pipeline_partial {float : Key → Option ℝ} {fs : CsvFiles} {interp : Interp} {names dark : Dict Key Key}
    {units darkUnits : Key} {N : ℕ} {y z : Key → ℝ → ℝ} (hu : units = sRadians ∨ units = sDegrees)
    (hu' : darkUnits = sRadians ∨ darkUnits = sDegrees) (hwf : Dict.WF names) (hwf' : Dict.WF dark) (hne : names ≠ [])
    (hkeys : ∀ k, k ∈ names.keys ↔ k ∈ dark.keys) (hN : 2 ≤ N) (h : FilesSample float fs names units N y)
    (h' : FilesSample float fs dark darkUnits N z) (hi : ∀ f, Reproduces interp (sampled N f)) (M : ℕ) (ms : Bool) :
    ∃ μ dat fdat,
      loadDataAndFourierTransform float fs interp names units (some (dark, darkUnits)) M ms 1 false = .ok (dat, fdat) ∧
      (ms = false → μ = 0) ∧
      (ms = true → IsLeast {v | ∃ k ∈ names.keys, ∃ j < N, v = y k (gridAngle N j) - z k (gridAngle N j)} μ) ∧
      dat.getKeys = names.keys ∧ fdat.getKeys = names.keys ∧ fdat.getM = M ∧
      ∀ k ∈ names.keys, dat.getPc k sRadians = .ok (sampled N (fun x => y k x - z k x - μ)) ∧
        ∃ v, fdat.getPc k = .ok v ∧ v.length = 2 * M + 1 ∧
          ∀ m, -(M : ℤ) ≤ m ∧ m ≤ M → Component v M m (dft N (fun x => y k x - z k x - μ) m) := by
  obtain ⟨c, e, r, k, p⟩ := loadDark_sampled hu hu' hwf hwf' hne hkeys (by omega) h h'
  obtain ⟨μ, dat', fdat, h1, h2, h3, h4, h5, h6, h7, h8⟩ :=
    pipeline_tail r hN M (y := fun k x => y k x - z k x) (by rw [k]; exact p) hi ms
  rw [k] at h4 h5 h6 h8
  have hne' : names.keys ≠ [] := by
    intro hk
    apply hne
    have : names.map Prod.fst = [] := hk
    simpa using this
  refine ⟨μ, dat', fdat, ?_, h3, fun hm => h4 hm hne', h5, h6, h7, h8⟩
  unfold loadDataAndFourierTransform
  unfold loadMaybeDark
  simp only
  rw [e, ok_bind, h1, ok_bind, h2, ok_bind, if_neg (by simp)]

/-- **C35, for all files.** A call without scaling returns exactly the container of `load_data` (or of
`load_data_and_dark_subtract`), after `subtract_min` if asked for, and `dat_to_fdat` of it. -/
theorem C35_composition (float : Key → Option ℝ) (fs : CsvFiles) (interp : Interp) (names : Dict Key Key) (units : Key)
    (dark : Option (Dict Key Key × Key)) (M : ℕ) (ms n2o : Bool) (dat : DataContainer ℝ) (fdat : FDataContainer) :
    loadDataAndFourierTransform float fs interp names units dark M ms 1 n2o = .ok (dat, fdat) ↔
      ∃ d₀, (match dark with
          | none => loadData float fs names units n2o
          | some (dn, du) => loadDataAndDarkSubtract float fs names units dn du n2o) = .ok d₀ ∧
        (if ms then d₀.subtractMin = .ok dat else dat = d₀) ∧ datToFdat interp dat M = .ok fdat := by
  have hcall : ∀ d d', callMethod d .subtractMin = .ok d' ↔ d.subtractMin = .ok d' := by
    intro d d'
    unfold callMethod
    rw [step_subtractMin]
    cases d.subtractMin <;> simp
  have hload : loadMaybeDark float fs names units n2o dark = (match dark with
          | none => loadData float fs names units n2o
          | some (dn, du) => loadDataAndDarkSubtract float fs names units dn du n2o) := by
    cases dark <;> rfl
  have hms : ∀ d, maybeSubtractMin ms d = .ok dat ↔ (if ms then d.subtractMin = .ok dat else dat = d) := by
    intro d
    unfold maybeSubtractMin
    cases ms with
    | true => simpa using hcall d dat
    | false => simp [eq_comm]
  rw [← hload]
  unfold loadDataAndFourierTransform
  simp only [ne_eq, not_true_eq_false, if_false]
  cases loadMaybeDark float fs names units n2o dark with
  | error e => simp [error_bind]
  | ok d₀ =>
    simp only [ok_bind, Except.ok.injEq, exists_eq_left', ← hms]
    cases hm : maybeSubtractMin ms d₀ with
    | error e => simp [error_bind]
    | ok d₁ =>
      simp only [ok_bind, Except.ok.injEq]
      cases hf : datToFdat interp d₁ M with
      | error e =>
        simp only [error_bind, reduceCtorEq, false_iff, not_and]
        rintro rfl
        rw [hf]; simp
      | ok f =>
        simp only [ok_bind, Except.ok.injEq, Prod.mk.injEq]
        constructor
        · rintro ⟨rfl, rfl⟩; exact ⟨rfl, hf⟩
        · rintro ⟨rfl, h⟩
          rw [hf] at h
          exact ⟨rfl, Except.ok.inj h⟩

/-- **C35 is false for `scale ≠ 1`.** Then no call ever returns: where a call with `scale = 1` returns, the same call
raises `AttributeError` for a non-negative scale and `ValueError` for a negative one. -/
theorem C35_scale_broken (float : Key → Option ℝ) (fs : CsvFiles) (interp : Interp) (names : Dict Key Key) (units : Key)
    (dark : Option (Dict Key Key × Key)) (M : ℕ) (ms n2o : Bool) {s : ℝ} (hs : s ≠ 1) :
    (∀ r, loadDataAndFourierTransform float fs interp names units dark M ms s n2o ≠ .ok r) ∧
    ∀ r, loadDataAndFourierTransform float fs interp names units dark M ms 1 n2o = .ok r →
      loadDataAndFourierTransform float fs interp names units dark M ms s n2o =
        .error (if s < 0 then .valueError else .attributeError) := by
  have hscale : ∀ d : DataContainer ℝ, scaleBoth d s = .error (if s < 0 then .valueError else .attributeError) := by
    intro d
    unfold scaleBoth callMethod
    rw [step_scale]
    unfold DataContainer.scaleData
    by_cases h : s < 0
    · simp [h]; rfl
    · simp [h]; rfl
  unfold loadDataAndFourierTransform
  cases loadMaybeDark float fs names units n2o dark with
  | error e => exact ⟨fun r h => (by cases h), fun r h => (by cases h)⟩
  | ok d =>
    simp only [ok_bind]
    cases maybeSubtractMin ms d with
    | error e => exact ⟨fun r h => (by cases h), fun r h => (by cases h)⟩
    | ok d' =>
      simp only [ok_bind]
      cases datToFdat interp d' M with
      | error e => exact ⟨fun r h => (by cases h), fun r h => (by cases h)⟩
      | ok f =>
        simp only [ok_bind, if_pos hs, hscale]
        exact ⟨fun r h => (by cases h), fun r _ => trivial⟩

/-! ### The hypotheses can be met -/

/-- A reader of the three texts `0`, `180` and `5`. -/
def exFloat : Key → Option ℝ := fun s =>
  if s = ['0'] then some 0 else if s = ['1', '8', '0'] then some 180 else if s = ['5'] then some 5 else none

/-- A file in degrees with values 5 and 0. -/
def exCsv : CsvFiles := fun n => if n = ['f'] then some [[['0'], ['5']], [['1', '8', '0'], ['0'], ['x']]] else none

theorem exCsv_samples : FilesSample exFloat exCsv [(kPP, ['f'])] sDegrees 2 (fun _ x => if x = 0 then 5 else 0) := by
  intro k n hkn
  simp only [List.mem_singleton, Prod.mk.injEq] at hkn
  obtain ⟨rfl, rfl⟩ := hkn
  refine ⟨[(0, 5), (180, 0)], ⟨_, rfl, ?_⟩, ?_⟩
  · refine .cons ⟨_, _, _, rfl, ?_, ?_⟩ (.cons ⟨_, _, _, rfl, ?_, ?_⟩ .nil) <;> simp [exFloat]
  · have h1 : (180 : ℝ) * (HasPi.pi / 180) = Real.pi := by
      show (180 : ℝ) * (Real.pi / 180) = Real.pi
      ring
    simp only [sampled, gridAngle, rad, if_true, List.map_cons, List.map_nil, List.range_succ, List.range_zero,
      List.nil_append, List.cons_append]
    simp [h1, Real.pi_ne_zero]

example : ∃ μ dat fdat, loadDataAndFourierTransform exFloat exCsv lookupInterp [(kPP, ['f'])] sDegrees none 16 true 1 false
    = .ok (dat, fdat) ∧ dat.getPc kPP sRadians = .ok (sampled 2 (fun x => (if x = 0 then 5 else 0) - μ)) := by
  obtain ⟨μ, dat, fdat, h1, _, _, _, _, _, h2⟩ := C35_pipeline_partial (Or.inr rfl) (by simp [Dict.WF, Dict.keys]) (by simp)
    (by omega) exCsv_samples (fun f => lookupInterp_reproduces (sampled_nodup (by omega) f)) 16 true
  exact ⟨μ, dat, fdat, h1, (h2 kPP (by simp [Dict.keys])).1⟩

end Shgpy
