import Verif.Spec.Measured
import Verif.Props.Load
import Verif.Props.Cubic

/-! Lemmas about loading files with points at any angles. -/

set_option linter.unusedSectionVars false

namespace Shgpy
open Spec

/-- Every file of the dictionary holds the points of its combination, in their order, with the angles in the given unit. -/
def FilesHold (float : Key → Option ℝ) (fs : CsvFiles) (names : Dict Key Key) (units : Key) (P : Key → List (ℝ × ℝ)) : Prop :=
  ∀ k n, (k, n) ∈ names → ∃ pts, FileHolds float fs n pts ∧ pts.map (fun p => (rad units p.1, p.2)) = P k

/-- The files of a measurement: without dark files they hold its points; with dark files, which are given for the same combinations in the
same order, there are values for the same angles in both, and the points of the measurement are the differences. -/
def FilesMeasure (float : Key → Option ℝ) (fs : CsvFiles) (names : Dict Key Key) (units : Key) (dark : Option (Dict Key Key × Key))
    (P : Key → List (ℝ × ℝ)) : Prop :=
  match dark with
  | none => FilesHold float fs names units P
  | some (darkNames, darkUnits) => (darkUnits = sRadians ∨ darkUnits = sDegrees) ∧ darkNames.keys = names.keys ∧
      ∃ A B, FilesHold float fs names units A ∧ FilesHold float fs darkNames darkUnits B ∧
        ∀ k ∈ names.keys, (A k).map Prod.fst = (B k).map Prod.fst ∧ P k = difference (A k) (B k)

theorem Spec.Scan.normalForm {M : ℕ} {h ρ : ℝ} {pts : List (ℝ × ℝ)} (hs : Scan M h ρ pts) : NormalForm pts :=
  ⟨fun h0 => by have := hs.four; rw [h0] at this; simp at this, hs.turn, hs.covers.pairwise.imp (fun h => h.le)⟩

theorem Spec.Scan.nodup {M : ℕ} {h ρ : ℝ} {pts : List (ℝ × ℝ)} (hs : Scan M h ρ pts) : (pts.map Prod.fst).Nodup := by
  unfold List.Nodup
  rw [List.pairwise_map]
  exact hs.covers.pairwise.imp (fun h => h.ne)

theorem getElem?_same {a b : List (ℝ × ℝ)} (h : a.map Prod.fst = b.map Prod.fst) {i : ℕ} {p : ℝ × ℝ} (hp : a[i]? = some p) :
    ∃ q, b[i]? = some q ∧ q.1 = p.1 := by
  have h1 := congrArg (fun l : List ℝ => l[i]?) h
  simp only [List.getElem?_map, hp, Option.map_some] at h1
  obtain ⟨q, hq, hqp⟩ := Option.map_eq_some_iff.1 h1.symm
  exact ⟨q, hq, hqp⟩

/-- A scan depends on the angles only. -/
theorem Spec.Scan.congr {M : ℕ} {h ρ : ℝ} {a b : List (ℝ × ℝ)} (hab : a.map Prod.fst = b.map Prod.fst) (hs : Scan M h ρ b) : Scan M h ρ a := by
  have hlen : a.length = b.length := by simpa using congrArg List.length hab
  refine ⟨hlen ▸ hs.many, hlen ▸ hs.four, fun p hp => ?_, ⟨hlen ▸ hs.covers.two, fun i p q hp hq => ?_⟩, fun i p q hp hq => ?_⟩
  · obtain ⟨i, hi⟩ := List.mem_iff_getElem?.1 hp
    obtain ⟨q, hq, e⟩ := getElem?_same hab hi
    rw [← e]
    exact hs.turn q (List.mem_of_getElem? hq)
  · obtain ⟨p', hp', e⟩ := getElem?_same hab hp
    obtain ⟨q', hq', e'⟩ := getElem?_same hab hq
    have := hs.covers.gap i p' q' hp' hq'
    rw [e, e', ← hlen] at this
    exact this
  · obtain ⟨p', hp', e⟩ := getElem?_same hab hp
    obtain ⟨q', hq', e'⟩ := getElem?_same hab hq
    have := hs.spread i p' q' hp' hq'
    rw [e, e'] at this
    exact this

theorem lowered_fst (μ : ℝ) (pts : List (ℝ × ℝ)) : (lowered μ pts).map Prod.fst = pts.map Prod.fst := by
  unfold lowered
  rw [List.map_map]
  rfl

theorem difference_fst {a b : List (ℝ × ℝ)} (h : a.map Prod.fst = b.map Prod.fst) : (difference a b).map Prod.fst = a.map Prod.fst :=
  zipWith_fst (op := fun x y => x - y) (by simpa using (congrArg List.length h).symm)

theorem loadData_points {float : Key → Option ℝ} {fs : CsvFiles} {names : Dict Key Key} {units : Key} {P : Key → List (ℝ × ℝ)}
    (hu : units = sRadians ∨ units = sDegrees) (hwf : Dict.WF names) (h : FilesHold float fs names units P)
    (hn : ∀ k ∈ names.keys, NormalForm (P k) ∧ ((P k).map Prod.fst).Nodup) :
    ∃ c, loadData float fs names units false = .ok c ∧ c.Reachable ∧ c.getKeys = names.keys ∧
      ∀ k ∈ names.keys, c.getPc k sRadians = .ok (P k) := by
  classical
  let Q : Key → List (ℝ × ℝ) := fun n => if h : ∃ pts, FileHolds float fs n pts then h.choose else []
  have hQ : ∀ k n, (k, n) ∈ names → FileHolds float fs n (Q n) ∧ (Q n).map (fun p => (rad units p.1, p.2)) = P k := by
    intro k n hkn
    obtain ⟨pts, h1, h2⟩ := h k n hkn
    have hex : ∃ pts, FileHolds float fs n pts := ⟨pts, h1⟩
    have e : Q n = hex.choose := dif_pos hex
    have h3 := hex.choose_spec
    have : hex.choose = pts := by
      have e1 := readCsv_of_holds h3
      have e2 := readCsv_of_holds h1
      rw [e1] at e2
      simp only [Except.ok.injEq, RawVal.arr2.injEq, List.cons.injEq, and_true, true_and] at e2
      calc hex.choose = (hex.choose.map Prod.fst).zip (hex.choose.map Prod.snd) := by rw [List.zip_map']; simp
        _ = (pts.map Prod.fst).zip (pts.map Prod.snd) := by rw [e2.1, e2.2]
        _ = pts := by rw [List.zip_map']; simp
    rw [e, this]
    exact ⟨h1, h2⟩
  have hm : Dict.mapValsM (readCsv float fs) names =
      .ok ((names.mapVals Q).mapVals (fun pts => .arr2 .float [pts.map Prod.fst, pts.map Prod.snd])) := by
    rw [Dict.mapVals_mapVals]
    exact Dict.mapValsM_of_forall (fun it hit => readCsv_of_holds (hQ it.1 it.2 hit).1)
  have hi := init_items_units (items := names.mapVals Q) hu (by simpa [Dict.WF] using hwf)
    (g := fun v => v.map (fun p => (rad units p.1, p.2))) (fun _ => rfl) (by
      rintro ⟨k, v⟩ hit
      obtain ⟨n, hkn, rfl⟩ := Dict.mem_mapVals.1 hit
      simp only
      rw [(hQ k n hkn).2]
      exact (hn k (Dict.mem_keys_of_mem hkn)).1) (by
      rintro ⟨k, v⟩ hit
      obtain ⟨n, hkn, rfl⟩ := Dict.mem_mapVals.1 hit
      simp only
      rw [(hQ k n hkn).2]
      exact (hn k (Dict.mem_keys_of_mem hkn)).2)
  unfold loadData
  rw [hm, ok_bind]
  have he : ((names.mapVals Q).mapVals (fun pts => (RawVal.arr2 DType.float [pts.map Prod.fst, pts.map Prod.snd]
      : RawVal ℝ))).map (fun kv => ((.str kv.1 : RawKey), kv.2)) =
      (names.mapVals Q).map (fun it => (.str it.1, .arr2 .float [it.2.map Prod.fst, it.2.map Prod.snd])) := by
    simp [Dict.mapVals]
  rw [he, hi]
  refine ⟨_, rfl, ⟨_, _, _, _, _, [], hi, rfl⟩, by simp [DataContainer.getKeys], ?_⟩
  intro k hk
  obtain ⟨n, hkn⟩ := Dict.mem_keys.1 hk
  rw [getPc_radians, Dict.get_ok_iff, Dict.get?_mapVals, Dict.get?_mapVals, (Dict.get?_eq_some_iff hwf).2 hkn]
  simp only [Option.map_some]
  rw [(hQ k n hkn).2]

theorem expand_same {a b : List (ℝ × ℝ)} (h : 2 ≤ b.length) : expand a b = b := by
  match b, h with
  | _ :: _ :: _, _ => rfl

theorem getPc_mem {c : DataContainer ℝ} {k : Key} {pts : List (ℝ × ℝ)} (h : c.getPc k sRadians = .ok pts) : k ∈ c.getKeys := by
  rw [getPc_radians] at h
  exact Dict.mem_keys_of_mem (Dict.mem_of_get? (Dict.get_ok_iff.1 h))

/-- Loading the files of a measurement. -/
theorem load_measure {float : Key → Option ℝ} {fs : CsvFiles} {names : Dict Key Key} {units : Key} {dark : Option (Dict Key Key × Key)}
    {P : Key → List (ℝ × ℝ)} (hu : units = sRadians ∨ units = sDegrees) (hwf : Dict.WF names) (hne : names ≠ [])
    (hP : FilesMeasure float fs names units dark P) {M : ℕ} {h ρ : Key → ℝ} (hs : ∀ k ∈ names.keys, Scan M (h k) (ρ k) (P k)) :
    ∃ c, loadMaybeDark float fs names units false dark = .ok c ∧ c.Reachable ∧ c.getKeys = names.keys ∧
      ∀ k ∈ names.keys, c.getPc k sRadians = .ok (P k) := by
  match dark, hP with
  | none, hP => exact loadData_points hu hwf hP (fun k hk => ⟨(hs k hk).normalForm, (hs k hk).nodup⟩)
  | some (dn, du), ⟨hu', hkeys, A, B, hA, hB, hAB⟩ =>
    have hsA : ∀ k ∈ names.keys, Scan M (h k) (ρ k) (A k) := by
      intro k hk
      refine (hs k hk).congr ?_
      rw [(hAB k hk).2, difference_fst (hAB k hk).1]
    have hsB : ∀ k ∈ names.keys, Scan M (h k) (ρ k) (B k) := fun k hk => (hsA k hk).congr (hAB k hk).1.symm
    have hwf' : Dict.WF dn := by
      unfold Dict.WF
      rw [hkeys]
      exact hwf
    obtain ⟨c₁, e1, r1, k1, p1⟩ := loadData_points hu hwf hA (fun k hk => ⟨(hsA k hk).normalForm, (hsA k hk).nodup⟩)
    obtain ⟨c₂, e2, r2, k2, p2⟩ := loadData_points hu' hwf' hB (fun k hk =>
      ⟨(hsB k (hkeys ▸ hk)).normalForm, (hsB k (hkeys ▸ hk)).nodup⟩)
    rw [hkeys] at k2 p2
    have hpc1 : ∀ k pts, c₁.getPc k sRadians = .ok pts → k ∈ names.keys ∧ pts = A k := by
      intro k pts hp
      have hk := k1 ▸ getPc_mem hp
      have := p1 k hk
      rw [hp] at this
      exact ⟨hk, Except.ok.inj this⟩
    have hpc2 : ∀ k pts, c₂.getPc k sRadians = .ok pts → k ∈ names.keys ∧ pts = B k := by
      intro k pts hp
      have hk := k2 ▸ getPc_mem hp
      have := p2 k hk
      rw [hp] at this
      exact ⟨hk, Except.ok.inj this⟩
    have hcomp : ∀ k ∈ names.keys, Compatible (A k) (B k) ∧
        List.zipWith (fun p q : ℝ × ℝ => (p.1, p.2 - q.2)) (A k) (expand (A k) (B k)) = P k := by
      intro k hk
      have h2 : 2 ≤ (B k).length := (hsB k hk).covers.two
      unfold Compatible
      rw [expand_same h2]
      refine ⟨?_, (hAB k hk).2.symm⟩
      have hfst := (hAB k hk).1
      have : List.Forall₂ (fun x y : ℝ => Close x y) ((A k).map Prod.fst) ((B k).map Prod.fst) := by
        rw [hfst, List.forall₂_same]
        exact fun x _ => close_refl x
      rwa [List.forall₂_map_left_iff, List.forall₂_map_right_iff] at this
    obtain ⟨c, e3, r3, k3, p3⟩ := combine_ok (fun a b : ℝ => a - b) r1 r2
      (fun k pts hp => by
        obtain ⟨hk, rfl⟩ := hpc1 k pts hp
        exact (hsA k hk).nodup)
      ⟨fun k => by rw [k1, k2], by
        rw [k1]
        intro hk
        apply hne
        have : names.map Prod.fst = [] := hk
        simpa using this, by
        intro v₁ v₂ r₁ r₂ a b
        have hv1 : c₁.data.values = v₁ :: r₁ := Except.ok.inj a
        have hv2 : c₂.data.values = v₂ :: r₂ := Except.ok.inj b
        have hkk : c₁.data.keys = c₂.data.keys := k1.trans k2.symm
        cases hd1 : c₁.data with
        | nil => rw [hd1] at hv1; cases hv1
        | cons it₁ d₁ =>
          cases hd2 : c₂.data with
          | nil => rw [hd2] at hv2; cases hv2
          | cons it₂ d₂ =>
            rw [hd1] at hv1
            rw [hd2] at hv2
            rw [hd1, hd2, Dict.keys_cons, Dict.keys_cons, List.cons.injEq] at hkk
            have ev1 : it₁.2 = v₁ := by
              simp only [Dict.values, List.map_cons, List.cons.injEq] at hv1
              exact hv1.1
            have ev2 : it₂.2 = v₂ := by
              simp only [Dict.values, List.map_cons, List.cons.injEq] at hv2
              exact hv2.1
            obtain ⟨hk, e1⟩ := hpc1 it₁.1 it₁.2 (get_of_mem (reachable_normalForm r1).1 (by rw [hd1]; exact List.mem_cons_self))
            obtain ⟨_, e2⟩ := hpc2 it₂.1 it₂.2 (get_of_mem (reachable_normalForm r2).1 (by rw [hd2]; exact List.mem_cons_self))
            have hk12 : it₁.1 = it₂.1 := hkk.1
            rw [← ev1, ← ev2, e1, e2, ← hk12]
            simpa using congrArg List.length (hAB _ hk).1,
        fun k q₁ q₂ a b => by
          obtain ⟨hk, rfl⟩ := hpc1 k _ a
          obtain ⟨_, rfl⟩ := hpc2 k _ b
          exact (hcomp k hk).1⟩
    refine ⟨c, ?_, r3, k3.trans k1, fun k hk => ?_⟩
    · unfold loadMaybeDark loadDataAndDarkSubtract
      have hset : setEq names.keys dn.keys = true := setEq_iff.2 (fun k => by rw [hkeys])
      simp only [hset, Bool.true_eq_false, if_false]
      rw [e1, ok_bind, e2, ok_bind]
      unfold datSubtract
      rw [e3]
      rfl
    · have := p3 k _ _ (p1 k hk) (p2 k hk)
      rw [(hcomp k hk).2] at this
      exact this

/-- The optional subtraction of the minimum. -/
theorem subtract_measure {dat : DataContainer ℝ} (hr : dat.Reachable) {P : Key → List (ℝ × ℝ)}
    (hy : ∀ k ∈ dat.getKeys, dat.getPc k sRadians = .ok (P k)) (hne : dat.getKeys ≠ []) (ms : Bool) :
    ∃ (μ : ℝ) (dat' : DataContainer ℝ), maybeSubtractMin ms dat = .ok dat' ∧ dat'.Reachable ∧ dat'.getKeys = dat.getKeys ∧
      (ms = false → μ = 0) ∧ (ms = true → IsLeast {v | ∃ k ∈ dat.getKeys, ∃ p ∈ P k, v = p.2} μ) ∧
      ∀ k ∈ dat.getKeys, dat'.getPc k sRadians = .ok (lowered μ (P k)) := by
  cases ms with
  | false =>
    refine ⟨0, dat, rfl, hr, rfl, fun _ => rfl, fun h => by simp at h, fun k hk => ?_⟩
    have : lowered 0 (P k) = P k := by
      unfold lowered
      simp
    rw [this]
    exact hy k hk
  | true =>
    unfold maybeSubtractMin
    simp only [if_true]
    have hst := step_subtractMin dat
    obtain ⟨items, hit, hmv⟩ := C09_minval hr
    rw [getItems_radians] at hit
    have hit := Except.ok.inj hit
    subst hit
    rcases hmv with ⟨h, _⟩ | ⟨k₀, μ, hmv, hext⟩
    · exfalso; apply hne; unfold DataContainer.getKeys; rw [h]; rfl
    have hsm : dat.subtractMin = .ok { dat with
        data := dat.data.mapVals (lowerPts μ), offset := dat.offset.map (fun o => o - μ) } := by
      unfold DataContainer.subtractMin
      rw [hmv]
      rfl
    rw [hsm] at hst
    have hwf := (reachable_normalForm hr).1
    have hall : ∀ it ∈ dat.data, it.2 = P it.1 := by
      intro it hit
      have := hy it.1 (Dict.mem_keys_of_mem (v := it.2) hit)
      rw [show dat.getPc it.1 sRadians = .ok it.2 from get_of_mem hwf hit] at this
      exact Except.ok.inj this
    refine ⟨μ, _, by unfold callMethod; rw [hst], ?_, by simp [DataContainer.getKeys], fun h => by simp at h, fun _ => ?_, ?_⟩
    · have := reachable_step hr .subtractMin
      rw [hst] at this
      exact this
    · obtain ⟨pre, pts, post, e, ⟨p, hp1, hp2⟩, hle, hpre, hpost⟩ := hext
      constructor
      · have hm : (k₀, pts) ∈ dat.data := by rw [e]; simp
        have := hall _ hm
        simp only at this
        rw [this] at hp1
        exact ⟨k₀, Dict.mem_keys_of_mem hm, p, hp1, hp2.symm⟩
      · rintro v ⟨k, hk, q, hqm, rfl⟩
        obtain ⟨w, hw⟩ := Dict.mem_keys.1 hk
        have hw' := hall _ hw
        simp only at hw'
        rw [← hw'] at hqm
        rw [e] at hw
        rcases List.mem_append.1 hw with hw | hw
        · exact (hpre _ hw _ hqm).le
        · rcases List.mem_cons.1 hw with hw | hw
          · cases hw
            exact not_lt.1 (hle _ hqm)
          · exact not_lt.1 (hpost _ hw _ hqm)
    · intro k hk
      have := hy k hk
      rw [getPc_radians, Dict.get_ok_iff] at this
      rw [getPc_radians, Dict.get_ok_iff, Dict.get?_mapVals, this]
      rfl

/-- The components of a lowered pattern. -/
theorem pattern_lowered (M : ℕ) (c : ℤ → ℂ) (μ : ℂ) (x : ℝ) : pattern M (fun m => if m = 0 then c m - μ else c m) x = pattern M c x - μ := by
  unfold pattern
  have h0 : (0 : ℤ) ∈ Finset.Icc (-(M : ℤ)) M := by simp
  rw [← Finset.add_sum_erase _ _ h0, ← Finset.add_sum_erase _ (fun m => c m * harmonic m x) h0]
  have : ∑ m ∈ (Finset.Icc (-(M : ℤ)) M).erase 0, (if m = 0 then c m - μ else c m) * harmonic m x =
      ∑ m ∈ (Finset.Icc (-(M : ℤ)) M).erase 0, c m * harmonic m x :=
    Finset.sum_congr rfl (fun m hm => by rw [if_neg (Finset.ne_of_mem_erase hm)])
  rw [this]
  have hh : harmonic 0 x = 1 := by unfold harmonic; simp
  simp only [if_true]
  rw [hh]
  ring

theorem fourth_lowered (M : ℕ) (c : ℤ → ℂ) (μ : ℂ) : fourth M (fun m => if m = 0 then c m - μ else c m) = fourth M c := by
  unfold fourth
  refine Finset.sum_congr rfl (fun m _ => ?_)
  by_cases hm : m = 0
  · subst hm; simp
  · simp only [if_neg hm]

end Shgpy
