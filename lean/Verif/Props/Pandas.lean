import Verif.Proofs.Pandas
import Verif.Props.DataOps
import Verif.Props.FData
import Verif.Props.Form

/-!
# Property C74: `as_pandas` shows the content of a container
-/

set_option linter.unusedSectionVars false
set_option linter.unusedSimpArgs false

namespace Shgpy
open Spec

section Data
variable {K : Type} [Field K] [LinearOrder K] [IsStrictOrderedRing K] [FloorRing K] [HasPi K]

/-- Both choices of units read one dictionary with the container's keys. -/
theorem unit_dict {c : DataContainer K} (hc : c.Reachable) {units : Key} (hu : lower units = sRadians ∨ lower units = sDegrees) :
    ∃ d : Dict Key (List (K × K)), Dict.WF d ∧ Dict.keys d = c.getKeys ∧ c.getValues units = .ok (Dict.values d) ∧
      ∀ k, c.getPc k units = Dict.get d k := by
  have hwf := (reachable_normalForm hc).1
  have hck : checkAngleUnits (lower units) = .ok () := by
    unfold checkAngleUnits; rw [if_pos hu]
  by_cases h : lower units = sRadians
  · refine ⟨c.data, hwf, rfl, ?_, fun k => ?_⟩
    · unfold DataContainer.getValues; rw [hck, if_pos h]; rfl
    · unfold DataContainer.getPc; rw [hck, if_pos h]; rfl
  · refine ⟨c.dataDegrees, by simpa [Dict.WF, DataContainer.dataDegrees] using hwf, by
      simp [DataContainer.dataDegrees, DataContainer.getKeys], ?_, fun k => ?_⟩
    · unfold DataContainer.getValues; rw [hck, if_neg h]; rfl
    · unfold DataContainer.getPc; rw [hck, if_neg h]; rfl

/-- **C74** (`index='none'`).  The frame holds exactly the points of the container, in the requested units. -/
theorem C74_data_none {c : DataContainer K} (hc : c.Reachable) {units : Key}
    (hu : lower units = sRadians ∨ lower units = sDegrees) (hne : c.getKeys ≠ []) :
    ∃ rows, c.asPandas units ['n', 'o', 'n', 'e'] = .ok rows ∧ Tabulates c.getKeys (fun k => c.getPc k units) rows := by
  have hN : (['n', 'o', 'n', 'e'] : Key) = sNone := rfl
  simp only [hN]
  obtain ⟨d, hd, hk, hv, hp⟩ := unit_dict hc hu
  rw [← hk] at hne ⊢
  refine ⟨blocks d id, ?_, tabulates_blocks hd (fun k v h => by rw [hp, Dict.get_ok_iff.2 h]; rfl)⟩
  unfold DataContainer.asPandas
  rw [hv, ok_bind]
  cases d with
  | nil => exact absurd rfl hne
  | cons kv d =>
    show (do let v0 ← Except.ok kv.2; _) = _
    rw [ok_bind]
    simp only
    rw [if_neg (by decide), if_pos trivial, ← hk,
      mapM_keys hd (g := fun k v => v.map (fun p => ((k, p.1), p.2))) (fun k v h => by
        rw [hp, Dict.get_ok_iff.2 h]; rfl)]
    rfl

/-- **C74** (`index='multi'`, what the frame holds).  The frame exists when every combination has as many points as the first
one; then the rows of a combination are its own values beside the angles of the *first* combination. -/
theorem C74_data_multi_exact {c : DataContainer K} (hc : c.Reachable) {units : Key}
    (hu : lower units = sRadians ∨ lower units = sDegrees) {k₀ : Key} {ks : List Key} (hk₀ : c.getKeys = k₀ :: ks)
    {pts₀ : List (K × K)} (hp₀ : c.getPc k₀ units = .ok pts₀) :
    ((∀ k pts, c.getPc k units = .ok pts → pts.length = pts₀.length) →
      ∃ rows, c.asPandas units ['m', 'u', 'l', 't', 'i'] = .ok rows ∧
        Tabulates c.getKeys (fun k => (c.getPc k units).map (fun pts => (pts₀.map Prod.fst).zip (pts.map Prod.snd))) rows) ∧
    ((∃ k pts, c.getPc k units = .ok pts ∧ pts.length ≠ pts₀.length) → c.asPandas units ['m', 'u', 'l', 't', 'i'] = .error .valueError) := by
  have hM : (['m', 'u', 'l', 't', 'i'] : Key) = sMulti := rfl
  simp only [hM]
  obtain ⟨d, hd, hk, hv, hp⟩ := unit_dict hc hu
  have hval : ∃ rest, Dict.values d = pts₀ :: rest := by
    rw [hp, Dict.get_ok_iff] at hp₀
    cases d with
    | nil => cases hp₀
    | cons kv d =>
      rw [hk₀, Dict.keys_cons] at hk
      have : kv.1 = k₀ := (List.cons.inj hk).1
      obtain ⟨k, v⟩ := kv
      simp only at this
      subst this
      simp only [Dict.get?, if_true, Option.some.injEq] at hp₀
      subst hp₀
      exact ⟨_, rfl⟩
  obtain ⟨rest, hval⟩ := hval
  have hrun : c.asPandas units sMulti = (do
      let raw ← flattenRows (d.map (fun kv => kv.2.map Prod.snd))
      dataFrame raw (indexProduct (Dict.keys d) (pts₀.map Prod.fst))) := by
    unfold DataContainer.asPandas
    rw [hv, hval, ok_bind]
    show (do let v0 ← Except.ok pts₀; _) = _
    rw [ok_bind]
    simp only
    rw [if_pos trivial, ← hk, mapM_keys hd (g := fun _ v => v.map Prod.snd) (fun k v h => by
        rw [hp, Dict.get_ok_iff.2 h]; rfl)]
    rfl
  refine ⟨fun hall => ?_, ?_⟩
  · have hlen : ∀ kv ∈ d, (kv.2.map Prod.snd).length = (pts₀.map Prod.fst).length := by
      intro kv hkv
      simp only [List.length_map]
      exact hall kv.1 kv.2 (by rw [hp, Dict.get_ok_iff]; exact (Dict.get?_eq_some_iff hd).2 hkv)
    refine ⟨blocks d (fun v => (pts₀.map Prod.fst).zip (v.map Prod.snd)), ?_, ?_⟩
    · rw [hrun, flattenRows_ok (n := (pts₀.map Prod.fst).length) (by
        intro r hr
        obtain ⟨kv, hkv, rfl⟩ := List.mem_map.1 hr
        exact hlen kv hkv), ok_bind]
      exact dataFrame_blocks (g := fun v : List (K × K) => v.map Prod.snd) hlen
    · rw [← hk]
      exact tabulates_blocks hd (fun k v h => by rw [hp, Dict.get_ok_iff.2 h]; rfl)
  · rintro ⟨k, pts, h1, h2⟩
    rw [hp, Dict.get_ok_iff] at h1 hp₀
    rw [hrun, flattenRows_error (r := pts.map Prod.snd) (r' := pts₀.map Prod.snd)
      (List.mem_map.2 ⟨_, Dict.mem_of_get? h1, rfl⟩) (List.mem_map.2 ⟨_, Dict.mem_of_get? hp₀, rfl⟩) (by simpa using h2)]
    rfl

private theorem zip_fst_snd {α β : Type} (l : List (α × β)) : (l.map Prod.fst).zip (l.map Prod.snd) = l := by
  induction l with
  | nil => rfl
  | cons p l ih => simp [ih]

/-- **C74** (`index='multi'`).  When all combinations have the same angles the frame holds exactly the points of the
container.  Partial: without that condition it does not, see `C74_data_multi_broken`. -/
theorem C74_data_multi_partial {c : DataContainer K} (hc : c.Reachable) {units : Key}
    (hu : lower units = sRadians ∨ lower units = sDegrees) (hne : c.getKeys ≠ [])
    (hsame : ∀ k k' pts pts', c.getPc k units = .ok pts → c.getPc k' units = .ok pts' →
      pts.map Prod.fst = pts'.map Prod.fst) :
    ∃ rows, c.asPandas units ['m', 'u', 'l', 't', 'i'] = .ok rows ∧ Tabulates c.getKeys (fun k => c.getPc k units) rows := by
  have hM : (['m', 'u', 'l', 't', 'i'] : Key) = sMulti := rfl
  simp only [hM]
  obtain ⟨d, hd, hk, hv, hp⟩ := unit_dict hc hu
  obtain ⟨k₀, ks, hks⟩ := List.exists_cons_of_ne_nil hne
  obtain ⟨pts₀, hp₀⟩ : ∃ pts₀, c.getPc k₀ units = .ok pts₀ := by
    have : k₀ ∈ Dict.keys d := by rw [hk, hks]; simp
    obtain ⟨⟨k, v⟩, hm, rfl⟩ := List.mem_map.1 this
    exact ⟨v, by rw [hp, Dict.get_ok_iff]; exact (Dict.get?_eq_some_iff hd).2 hm⟩
  obtain ⟨rows, h1, h2, h3⟩ := (C74_data_multi_exact hc hu hks hp₀).1 (fun k pts h => by
    have := congrArg List.length (hsame _ _ _ _ h hp₀)
    simpa using this)
  refine ⟨rows, h1, h2, fun k hk => ?_⟩
  rw [← h3 k hk]
  show c.getPc k units = Except.map _ (c.getPc k units)
  cases hg : c.getPc k units with
  | error e => rfl
  | ok pts =>
    show Except.ok pts = Except.ok ((pts₀.map Prod.fst).zip (pts.map Prod.snd))
    rw [hsame _ _ _ _ hp₀ hg, zip_fst_snd]

/-- **C74** (errors).  Unknown units, a container without combinations, an unknown index. -/
theorem C74_data_errors {c : DataContainer K} (hc : c.Reachable) {units index : Key} :
    (¬ (lower units = sRadians ∨ lower units = sDegrees) → c.asPandas units index = .error .valueError) ∧
    (lower units = sRadians ∨ lower units = sDegrees → c.getKeys = [] → c.asPandas units index = .error .indexError) ∧
    (lower units = sRadians ∨ lower units = sDegrees → c.getKeys ≠ [] → index ≠ ['m', 'u', 'l', 't', 'i'] → index ≠ ['n', 'o', 'n', 'e'] →
      c.asPandas units index = .error .unboundLocalError) := by
  have hN : (['n', 'o', 'n', 'e'] : Key) = sNone := rfl
  have hM : (['m', 'u', 'l', 't', 'i'] : Key) = sMulti := rfl
  simp only [hN, hM]
  refine ⟨fun hu => ?_, fun hu hk => ?_, fun hu hk h1 h2 => ?_⟩
  · have : c.getValues units = .error .valueError := by
      unfold DataContainer.getValues checkAngleUnits
      rw [if_neg hu]; rfl
    unfold DataContainer.asPandas
    rw [this]; rfl
  · obtain ⟨d, hd, hk', hv, hp⟩ := unit_dict hc hu
    rw [hk] at hk'
    have : d = [] := List.map_eq_nil_iff.1 hk'
    subst this
    unfold DataContainer.asPandas
    rw [hv]; rfl
  · obtain ⟨d, hd, hk', hv, hp⟩ := unit_dict hc hu
    rw [← hk'] at hk
    cases d with
    | nil => exact absurd rfl hk
    | cons kv d =>
      unfold DataContainer.asPandas
      rw [hv, ok_bind]
      show (do let v0 ← Except.ok kv.2; _) = _
      rw [ok_bind]
      simp only
      rw [if_neg h1, if_neg h2]

/-- Two combinations measured at different angles. -/
def frameDat : DataContainer ℚ :=
  ⟨[(kPP, [(0, 1), (1, 3)]), (kSS, [(2, 5), (3, 6)])], 1, 0, some 0, false, sRadians⟩

theorem frameDat_init : DataContainer.init [(.str kPP, .arr2 .float [[0, 1], [1, 3]]),
    (.str kSS, .arr2 .float [[2, 3], [5, 6]])] sRadians false = .ok (frameDat, []) := by
  have h0 : pmod (0 : ℚ) = 0 := pmod_of_inTurn ⟨le_rfl, by have := HasPi.pi_pos (K := ℚ); linarith⟩
  have h1 : pmod (1 : ℚ) = 1 := pmod_of_inTurn ⟨by norm_num, by unfold HasPi.pi instHasPiRat; norm_num⟩
  have h2 : pmod (2 : ℚ) = 2 := pmod_of_inTurn ⟨by norm_num, by unfold HasPi.pi instHasPiRat; norm_num⟩
  have h3 : pmod (3 : ℚ) = 3 := pmod_of_inTurn ⟨by norm_num, by unfold HasPi.pi instHasPiRat; norm_num⟩
  have hs : sortPts [((0 : ℚ), (1 : ℚ)), (1, 3)] = [(0, 1), (1, 3)] := sortPts_of_sorted (by simp)
  have hs' : sortPts [((2 : ℚ), (5 : ℚ)), (3, 6)] = [(2, 5), (3, 6)] := sortPts_of_sorted (by norm_num)
  rw [init_eq, if_pos (Or.inl rfl)]
  simp [Dict.ofPairs, Dict.set, checkIterable, checkVal, radDict, sRadians, sDegrees, Dict.mapVals, kPP, kSS, frameDat,
    finalPts, dedupFrom, duplicateWarnings, h0, h1, h2, h3, hs, hs']

theorem frameDat_reachable : frameDat.Reachable := ⟨_, _, _, _, _, [], frameDat_init, rfl⟩

/-- **C74 fails** for `index='multi'`: the frame says that the second combination was measured at the angles of the first. -/
theorem C74_data_multi_broken : ∃ c : DataContainer ℚ, c.Reachable ∧ c.getPc kSS sRadians = .ok [(2, 5), (3, 6)] ∧
    c.asPandas sRadians sMulti = .ok [((kPP, 0), 1), ((kPP, 1), 3), ((kSS, 0), 5), ((kSS, 1), 6)] :=
  ⟨frameDat, frameDat_reachable, rfl, rfl⟩

/-- The hypotheses of the theorems above are met by this container; without an index the frame is right. -/
example : frameDat.getKeys ≠ [] ∧ frameDat.asPandas sRadians sNone =
    .ok [((kPP, 0), 1), ((kPP, 1), 3), ((kSS, 2), 5), ((kSS, 3), 6)] := ⟨by decide, rfl⟩

/-- One combination: the condition of `C74_data_multi_partial` holds. -/
example : (⟨[(kPP, [(0, 1), (1, 3)])], 1, 0, some 0, false, sRadians⟩ : DataContainer ℚ).asPandas sRadians sMulti =
    .ok [((kPP, 0), 1), ((kPP, 1), 3)] := rfl

/-- Combinations with different numbers of points: `as_pandas()` and therefore `repr` raise `ValueError`. -/
example : (⟨[(kPP, [(0, 1), (1, 3)]), (kSS, [(2, 5)])], 1, 0, some 0, false, sRadians⟩ : DataContainer ℚ).asPandas
    sRadians sMulti = .error .valueError := rfl

end Data

/-- **C74** (Fourier data).  With either index the frame holds, for every combination, its components beside their orders
`-M, …, M`. -/
theorem C74_fdata {c : FDataContainer} (hc : c.Reachable) {index : Key} :
    (index = ['m', 'u', 'l', 't', 'i'] ∨ index = ['n', 'o', 'n', 'e'] → ∃ rows, c.asPandas index = .ok rows ∧
      Tabulates c.getKeys (fun k => (c.getPc k).map (fun v => (orders c.getM).zip v)) rows) ∧
    (index ≠ ['m', 'u', 'l', 't', 'i'] → index ≠ ['n', 'o', 'n', 'e'] → c.asPandas index = .error .unboundLocalError) := by
  have hN : (['n', 'o', 'n', 'e'] : Key) = sNone := rfl
  have hM : (['m', 'u', 'l', 't', 'i'] : Key) = sMulti := rfl
  simp only [hN, hM]
  have hg := hc.good
  refine ⟨fun h => ⟨blocks c.fdata (fun v => (freqs c.M).zip v), ?_,
    tabulates_blocks hg.wf (fun k v h => by
      show Except.map _ (Dict.get c.fdata k) = _
      rw [Dict.get_ok_iff.2 h]; rfl)⟩, fun h1 h2 => ?_⟩
  · have hlen : ∀ kv ∈ c.fdata, kv.2.length = (freqs c.M).length := by
      intro kv hkv
      rw [hg.len kv hkv, length_freqs]
    unfold FDataContainer.asPandas
    by_cases hm : index = sMulti
    · rw [if_pos hm]
      rw [show c.getKeys.mapM (fun k => c.getPc k) = .ok (c.fdata.map (fun kv => kv.2)) from
        mapM_keys hg.wf (g := fun _ v => v) (fun k v h => Dict.get_ok_iff.2 h), ok_bind,
        flattenRows_ok (n := (freqs c.M).length) (by
          intro r hr
          obtain ⟨kv, hkv, rfl⟩ := List.mem_map.1 hr
          exact hlen kv hkv), ok_bind]
      exact dataFrame_blocks (g := fun v => v) hlen
    · rw [if_neg hm, if_pos (h.resolve_left hm)]
      rw [show c.getKeys.mapM _ = .ok (c.fdata.map _) from
        mapM_keys hg.wf (g := fun k v => ((freqs c.M).zip v).map (fun p => ((k, p.1), p.2))) (fun k v h => by
          show (do let v ← Dict.get c.fdata k; _) = _
          rw [Dict.get_ok_iff.2 h]; rfl)]
      rfl
  · unfold FDataContainer.asPandas
    rw [if_neg h1, if_neg h2]

/-- **C74** (Fourier formulas).  The same for the expressions of a Fourier formula. -/
theorem C74_fform {S : Sympy} {c : FFormContainer} (hc : c.Reachable S) {index : Key} :
    (index = ['m', 'u', 'l', 't', 'i'] ∨ index = ['n', 'o', 'n', 'e'] → ∃ rows, c.asPandas index = .ok rows ∧
      Tabulates c.getKeys (fun k => (c.getPc k).map (fun v => (orders c.getM).zip v.objs)) rows) ∧
    (index ≠ ['m', 'u', 'l', 't', 'i'] → index ≠ ['n', 'o', 'n', 'e'] → c.asPandas index = .error .unboundLocalError) := by
  have hN : (['n', 'o', 'n', 'e'] : Key) = sNone := rfl
  have hM : (['m', 'u', 'l', 't', 'i'] : Key) = sMulti := rfl
  simp only [hN, hM]
  have hg := hc.good
  refine ⟨fun h => ⟨blocks c.fform (fun v => (freqs c.M).zip v.objs), ?_,
    tabulates_blocks hg.wf (fun k v h => by
      show Except.map _ (Dict.get c.fform k) = _
      rw [Dict.get_ok_iff.2 h]; rfl)⟩, fun h1 h2 => ?_⟩
  · have hlen : ∀ kv ∈ c.fform, kv.2.objs.length = (freqs c.M).length := by
      intro kv hkv
      rw [hg.len kv hkv, length_freqs]
    unfold FFormContainer.asPandas
    by_cases hm : index = sMulti
    · rw [if_pos hm]
      rw [show c.getKeys.mapM _ = .ok (c.fform.map _) from
        mapM_keys hg.wf (g := fun _ v => v.objs) (fun k v h => by
          show (do let v ← Dict.get c.fform k; _) = _
          rw [Dict.get_ok_iff.2 h]; rfl), ok_bind,
        flattenRows_ok (n := (freqs c.M).length) (by
          intro r hr
          obtain ⟨kv, hkv, rfl⟩ := List.mem_map.1 hr
          exact hlen kv hkv), ok_bind]
      exact dataFrame_blocks (g := fun v : FArr => v.objs) hlen
    · rw [if_neg hm, if_pos (h.resolve_left hm)]
      rw [show c.getKeys.mapM _ = .ok (c.fform.map _) from
        mapM_keys hg.wf (g := fun k v => ((freqs c.M).zip v.objs).map (fun p => ((k, p.1), p.2))) (fun k v h => by
          show (do let v ← Dict.get c.fform k; _) = _
          rw [Dict.get_ok_iff.2 h]; rfl)]
      rfl
  · unfold FFormContainer.asPandas
    rw [if_neg h1, if_neg h2]

/-- **C74** (formulas).  One row per combination, in order, with its formula. -/
theorem C74_form {S : Sympy} {c : FormContainer} (hc : c.Reachable S) {index : Key} :
    (index = ['m', 'u', 'l', 't', 'i'] ∨ index = ['n', 'o', 'n', 'e'] → ∃ rows, c.asPandas index = .ok rows ∧
      rows.map Prod.fst = c.getKeys ∧ ∀ r ∈ rows, c.getPc r.1 = .ok r.2) ∧
    (index ≠ ['m', 'u', 'l', 't', 'i'] → index ≠ ['n', 'o', 'n', 'e'] → c.asPandas index = .error .unboundLocalError) := by
  have hN : (['n', 'o', 'n', 'e'] : Key) = sNone := rfl
  have hM : (['m', 'u', 'l', 't', 'i'] : Key) = sMulti := rfl
  simp only [hN, hM]
  have hwf := hc.wf
  refine ⟨fun h => ⟨c.form, ?_, rfl, fun r hr => Dict.get_ok_iff.2 ((Dict.get?_eq_some_iff hwf).2 hr)⟩, fun h1 h2 => ?_⟩
  · unfold FormContainer.asPandas
    by_cases hm : index = sMulti
    · rw [if_pos hm]
      rw [show c.getKeys.mapM (fun k => c.getPc k) = .ok (c.form.map (fun kv => kv.2)) from
        mapM_keys hwf (g := fun _ v => v) (fun k v h => Dict.get_ok_iff.2 h), ok_bind]
      unfold dataFrame
      rw [if_pos (by simp [FormContainer.getKeys, Dict.keys])]
      exact congrArg Except.ok (zip_fst_snd c.form)
    · rw [if_neg hm, if_pos (h.resolve_left hm)]
      rw [show c.getKeys.mapM _ = .ok (c.form.map (fun kv => (kv.1, kv.2))) from
        mapM_keys hwf (g := fun k v => (k, v)) (fun k v h => by
          show (do let v ← Dict.get c.form k; _) = _
          rw [Dict.get_ok_iff.2 h]; rfl)]
      simp
  · unfold FormContainer.asPandas
    rw [if_neg h1, if_neg h2]

section Examples

example : (⟨[(kPP, [1, 2, 1])], 1, 1, .num 0⟩ : FDataContainer).asPandas sMulti =
    .ok [((kPP, -1), 1), ((kPP, 0), 2), ((kPP, 1), 1)] := rfl

example : (⟨[(kPP, .obj [.sym symX, .num 0, .sym symY])], 1⟩ : FFormContainer).asPandas sNone =
    .ok [((kPP, -1), .sy (.sym symX)), ((kPP, 0), .sy (.num 0)), ((kPP, 1), .sy (.sym symY))] := rfl

example : (⟨[(kPP, .sym symX), (kSS, .sym symY)]⟩ : FormContainer).asPandas sMulti =
    .ok [(kPP, .sym symX), (kSS, .sym symY)] := rfl

end Examples

end Shgpy
