import Verif.Props.Merge
import Verif.Props.Convert
import Verif.Proofs.Formgen3
import Verif.Proofs.FitCrash

/-!
# Property C121: merging commutes with the conversions
-/

set_option linter.unusedSectionVars false

namespace Shgpy
open Spec

/-- The entries of some dictionaries under the keys that the mapping gives to them. -/
def entriesOf {α : Type} (l : List (Dict Key α)) (m : Key → ℕ → Key) : List (Key × α) :=
  l.zipIdx.flatMap (fun ci => ci.1.map (fun kv => (m kv.1 ci.2, kv.2)))

theorem entriesOf_map {α β : Type} (g : α → β) (l : List (Dict Key α)) (m : Key → ℕ → Key) :
    entriesOf (l.map (Dict.mapVals g)) m = (entriesOf l m).map (fun kv => (kv.1, g kv.2)) := by
  unfold entriesOf
  rw [List.map_flatMap, List.zipIdx_map, List.flatMap_map]
  simp [Dict.mapVals, Function.comp_def]

theorem ofPairs_map {α β : Type} (g : α → β) (l : List (Key × α)) :
    Dict.ofPairs (l.map (fun kv => (kv.1, g kv.2))) = (Dict.ofPairs l).mapVals g := by
  have hset : ∀ (d : Dict Key α) k v, Dict.set (d.mapVals g) k (g v) = (Dict.set d k v).mapVals g := by
    intro d k v
    induction d with
    | nil => rfl
    | cons p d ih =>
      obtain ⟨k', v'⟩ := p
      simp only [Dict.mapVals, List.map_cons, Dict.set] at ih ⊢
      split <;> simp [ih]
  unfold Dict.ofPairs
  suffices ∀ d : Dict Key α, (l.map (fun kv => (kv.1, g kv.2))).foldl (fun d p => Dict.set d p.1 p.2) (d.mapVals g) =
      Dict.mapVals g (l.foldl (fun d p => Dict.set d p.1 p.2) d) from this []
  intro d
  induction l generalizing d with
  | nil => rfl
  | cons p l ih => simp only [List.map_cons, List.foldl_cons, hset, ih]

/-- The dictionary that is handed to the constructor at the end of a merge. -/
def mergedDict {α : Type} (l : List (Dict Key α)) (m : Key → ℕ → Key) : Dict Key α := Dict.ofPairs (entriesOf l m)

theorem mergedDict_map {α β : Type} (g : α → β) (l : List (Dict Key α)) (m : Key → ℕ → Key) :
    mergedDict (l.map (Dict.mapVals g)) m = (mergedDict l m).mapVals g := by
  unfold mergedDict
  rw [entriesOf_map, ofPairs_map]

theorem mergedDict_wf {α : Type} (l : List (Dict Key α)) (m : Key → ℕ → Key) : Dict.WF (mergedDict l m) :=
  Dict.WF_ofPairs _

theorem mem_mergedDict {α : Type} {l : List (Dict Key α)} {m : Key → ℕ → Key} {kv : Key × α} (h : kv ∈ mergedDict l m) :
    ∃ d ∈ l, ∃ k, (k, kv.2) ∈ d := by
  obtain ⟨pre, post, e, _⟩ := lastAt_ofPairs.1 (show (kv.1, kv.2) ∈ Dict.ofPairs (entriesOf l m) from h)
  have h1 : (kv.1, kv.2) ∈ entriesOf l m := by rw [e]; simp
  obtain ⟨ci, h2, h3⟩ := List.mem_flatMap.1 h1
  obtain ⟨it, h4, h5⟩ := List.mem_map.1 h3
  obtain ⟨c, i⟩ := ci
  have h6 := List.mem_zipIdx h2
  simp only [Prod.mk.injEq] at h5
  refine ⟨c, ?_, it.1, ?_⟩
  · rw [h6.2.2]; exact List.getElem_mem _
  · rw [← h5.2]; exact h4

theorem mem_mergedDict_of_nodup {α : Type} {l : List (Dict Key α)} {m : Key → ℕ → Key}
    (hm : ((entriesOf l m).map Prod.fst).Nodup) {d : Dict Key α} (hd : d ∈ l) {kv : Key × α} (h : kv ∈ d) :
    ∃ k, (k, kv.2) ∈ mergedDict l m := by
  unfold mergedDict
  rw [Dict.ofPairs_of_nodup hm]
  obtain ⟨i, hi, rfl⟩ := List.mem_iff_getElem.1 hd
  refine ⟨m kv.1 i, List.mem_flatMap.2 ⟨(l[i], i), ?_, List.mem_map.2 ⟨kv, h, rfl⟩⟩⟩
  rw [List.mem_zipIdx_iff_getElem?, List.getElem?_eq_getElem hi]

/-- The container records the default values. -/
def AnyC.Fresh : AnyC → Prop
  | .data c => c = ⟨c.data, 1, 0, some 0, false, sRadians⟩
  | .fdata c => c = ⟨c.fdata, 16, 1, .num 0⟩
  | .form _ => True
  | .fform c => c.M = 16

/-- The constructors record the default values. -/
theorem mergeBuild_record {S : Sympy} {d : Dict RawKey MVal} {κ : Kind} {r : AnyC} (h : mergeBuild S d κ = .ok r) :
    r.Fresh := by
  cases κ with
  | data =>
    unfold mergeBuild at h
    cases hi : DataContainer.init (d.map (fun kv => (kv.1, kv.2.toData))) sRadians false with
    | error e => rw [hi] at h; cases h
    | ok r' =>
      obtain ⟨c, w⟩ := r'
      rw [hi] at h; cases h
      obtain ⟨_, _, _, _, _, _, hc, _⟩ := init_ok hi
      show c = _
      simp [hc]
  | fdata =>
    unfold mergeBuild FDataContainer.init at h
    cases hi : checkFIterable 16 (Dict.ofPairs (d.map (fun kv => (kv.1, kv.2.toFData)))) with
    | error e => rw [hi] at h; cases h
    | ok r' => rw [hi] at h; cases h; rfl
  | form =>
    unfold mergeBuild FormContainer.init at h
    cases hi : checkFormIterable (Dict.ofPairs (d.map (fun kv => (kv.1, kv.2.toForm)))) with
    | error e => rw [hi] at h; cases h
    | ok r' => rw [hi] at h; cases h; trivial
  | fform =>
    unfold mergeBuild FFormContainer.init at h
    cases hi : checkFFIterable 16 (Dict.ofPairs (d.map (fun kv => (kv.1, kv.2.toFForm)))) with
    | error e => rw [hi] at h; cases h
    | ok r' => rw [hi] at h; cases h; rfl

/-- Merging containers of one kind whose values have been taken out of their dictionaries. -/
theorem merge_typed (S : Sympy) {γ α : Type} (mk : γ → AnyC) (val : α → MVal) (dict : γ → Dict Key α) (κ : Kind)
    (hkind : ∀ c, (mk c).kind = κ) (hshown : ∀ c, shown (mk c) = (dict c).mapVals val) {cs : List γ} (hne : cs ≠ [])
    (hr : ∀ c ∈ cs, (mk c).Reachable S ∧ Mergeable (mk c)) (m : Key → ℕ → Key) :
    ∃ r, mergeContainers S (cs.map mk) (fun k i => .str (m k i)) = .ok r ∧ r.kind = κ ∧ r.Reachable S ∧ Mergeable r ∧
      shown r = (mergedDict (cs.map dict) m).mapVals val ∧ r.Fresh := by
  obtain ⟨c₀, cs', rfl⟩ := List.exists_cons_of_ne_nil hne
  have hk : ∀ c ∈ mk c₀ :: cs'.map mk, c.kind = (mk c₀).kind := by
    intro c hc
    rw [← List.map_cons (f := mk)] at hc
    obtain ⟨c', _, rfl⟩ := List.mem_map.1 hc
    rw [hkind, hkind]
  have he : mergeEntries (mk c₀ :: cs'.map mk) m = (entriesOf ((c₀ :: cs').map dict) m).map (fun kv => (kv.1, val kv.2)) := by
    rw [← List.map_cons (f := mk), ← entriesOf_map]
    unfold mergeEntries entriesOf
    rw [List.map_map, List.zipIdx_map, List.zipIdx_map, List.flatMap_map, List.flatMap_map]
    simp [hshown]
  rw [List.map_cons, merge_eq S hk]
  obtain ⟨r, h1, h2, h3, h4, h5⟩ := mergeBuild_ok S (Dict.WF_ofPairs (mergeEntries (mk c₀ :: cs'.map mk) m))
    (κ := (mk c₀).kind) (by
      rintro ⟨k, v⟩ hkv
      obtain ⟨pre, post, e, _⟩ := lastAt_ofPairs.1 hkv
      obtain ⟨c, hc, k', i, h1, _⟩ := mem_mergeEntries (p := (k, v)) (cs := mk c₀ :: cs'.map mk) (m := m) (by rw [e]; simp)
      have h2 : c.Reachable S ∧ Mergeable c := by
        rw [← List.map_cons (f := mk)] at hc
        obtain ⟨c', hc', rfl⟩ := List.mem_map.1 hc
        exact hr c' hc'
      have := goodVal_shown h2.1 h2.2 _ h1
      rw [hk c hc] at this
      exact this)
  refine ⟨r, h1, h2.trans (hkind _), h3, h5, ?_, mergeBuild_record h1⟩
  rw [h4, he, ofPairs_map]
  rfl

theorem mapVals_inj {α β : Type} {g : α → β} (hg : Function.Injective g) {d d' : Dict Key α} (h : d.mapVals g = d'.mapVals g) :
    d = d' := by
  unfold Dict.mapVals at h
  refine List.map_injective_iff.2 ?_ h
  rintro ⟨a, b⟩ ⟨a', b'⟩ h
  simp only [Prod.mk.injEq] at h
  exact Prod.ext h.1 (hg h.2)

theorem merge_data (S : Sympy) {cs : List (DataContainer ℝ)} (hne : cs ≠ []) (hr : ∀ c ∈ cs, c.Reachable ∧ DistinctKeys c)
    (m : Key → ℕ → Key) :
    let r : DataContainer ℝ := ⟨mergedDict (cs.map (·.data)) m, 1, 0, some 0, false, sRadians⟩
    mergeContainers S (cs.map .data) (fun k i => .str (m k i)) = .ok (.data r) ∧ r.Reachable ∧ DistinctKeys r := by
  obtain ⟨r, h1, h2, h3, h4, h5, h6⟩ := merge_typed S AnyC.data MVal.arr2 (·.data) .data (fun _ => rfl) (fun _ => rfl) hne hr m
  cases r with
  | data c =>
    have hd : c.data = mergedDict (cs.map (·.data)) m := mapVals_inj (fun a b h => by cases h; rfl) h5
    change c = _ at h6
    rw [hd] at h6
    rw [← h6]
    exact ⟨h1, h3, h4⟩
  | _ => cases h2

theorem merge_fdata (S : Sympy) {cs : List FDataContainer} (hne : cs ≠ []) (hr : ∀ c ∈ cs, c.Reachable ∧ c.getM = 16)
    (m : Key → ℕ → Key) :
    let r : FDataContainer := ⟨mergedDict (cs.map (·.fdata)) m, 16, 1, .num 0⟩
    mergeContainers S (cs.map .fdata) (fun k i => .str (m k i)) = .ok (.fdata r) ∧ r.Reachable := by
  obtain ⟨r, h1, h2, h3, h4, h5, h6⟩ := merge_typed S AnyC.fdata MVal.arr1 (·.fdata) .fdata (fun _ => rfl) (fun _ => rfl) hne hr m
  cases r with
  | fdata c =>
    have hd : c.fdata = mergedDict (cs.map (·.fdata)) m := mapVals_inj (fun a b h => by cases h; rfl) h5
    change c = _ at h6
    rw [hd] at h6
    rw [← h6]
    exact ⟨h1, h3⟩
  | _ => cases h2

theorem merge_form (S : Sympy) {cs : List FormContainer} (hne : cs ≠ []) (hr : ∀ c ∈ cs, c.Reachable S)
    (m : Key → ℕ → Key) :
    let r : FormContainer := ⟨mergedDict (cs.map (·.form)) m⟩
    mergeContainers S (cs.map .form) (fun k i => .str (m k i)) = .ok (.form r) ∧ r.Reachable S := by
  obtain ⟨r, h1, h2, h3, h4, h5, h6⟩ := merge_typed S AnyC.form MVal.expr (·.form) .form (fun _ => rfl) (fun _ => rfl) hne
    (fun c hc => ⟨hr c hc, trivial⟩) m
  cases r with
  | form c =>
    obtain ⟨c⟩ := c
    have hd : c = mergedDict (cs.map (·.form)) m := mapVals_inj (fun a b h => by cases h; rfl) h5
    rw [← hd]
    exact ⟨h1, h3⟩
  | _ => cases h2

theorem merge_fform (S : Sympy) {cs : List FFormContainer} (hne : cs ≠ [])
    (hr : ∀ c ∈ cs, c.Reachable S ∧ c.getM = 16 ∧ Symbolic c) (m : Key → ℕ → Key) :
    let r : FFormContainer := ⟨mergedDict (cs.map (·.fform)) m, 16⟩
    mergeContainers S (cs.map .fform) (fun k i => .str (m k i)) = .ok (.fform r) ∧ r.Reachable S ∧ Symbolic r := by
  obtain ⟨r, h1, h2, h3, h4, h5, h6⟩ := merge_typed S AnyC.fform MVal.farr (·.fform) .fform (fun _ => rfl) (fun _ => rfl) hne
    (fun c hc => ⟨(hr c hc).1, (hr c hc).2⟩) m
  cases r with
  | fform c =>
    obtain ⟨c, M⟩ := c
    have hd : c = mergedDict (cs.map (·.fform)) m := mapVals_inj (fun a b h => by cases h; rfl) h5
    have hM : M = 16 := h6
    subst hM
    rw [← hd]
    exact ⟨h1, h3, h4.2⟩
  | _ => cases h2

/-! ### Data and Fourier data -/

theorem datToFdat_ok_all {interp : Interp} {dat : DataContainer ℝ} (hwf : Dict.WF dat.data) {M : ℕ} {c : FDataContainer}
    (h : datToFdat interp dat M = .ok c) : ∀ it ∈ dat.data, ∀ m ∈ freqs M, ∃ z, fourierSum interp it.2 m = .ok z := by
  unfold datToFdat at h
  obtain ⟨ans, hl, _⟩ := bind_ok h
  have hk : ∀ k ∈ dat.getKeys, ∀ m ∈ freqs M, ∃ z, (do
      let pts ← dat.getPc k sRadians
      fourierSum interp pts m) = .ok z := by
    refine foldlM_ok_all (P := fun k : Key => ∀ m ∈ freqs M, ∃ z, (do
      let pts ← dat.getPc k sRadians
      fourierSum interp pts m) = .ok z) ?_ hl
    intro d k d' hb
    obtain ⟨v, hv, _⟩ := bind_ok hb
    exact fillFreqs_ok_all hv
  rintro ⟨k, pts⟩ hit m hm
  obtain ⟨z, hz⟩ := hk k (Dict.mem_keys.2 ⟨pts, hit⟩) m hm
  rw [getPc_radians, get_of_mem hwf hit, ok_bind] at hz
  exact ⟨z, hz⟩

theorem datToFdat_reachable {interp : Interp} {dat : DataContainer ℝ} {M : ℕ} {c : FDataContainer}
    (h : datToFdat interp dat M = .ok c) : c.Reachable := by
  unfold datToFdat at h
  obtain ⟨ans, _, hi⟩ := bind_ok h
  exact ⟨_, _, _, [], hi, rfl⟩

/-- **C121.** Transforming data and merging can be exchanged: if `dat_to_fdat` works for each container, then it works
for the merged one and gives what merging the transformed containers gives, whatever the mapping of the keys. -/
theorem C121_dat_to_fdat (S : Sympy) {interp : Interp} {dats : List (DataContainer ℝ)} (hne : dats ≠ [])
    (hr : ∀ d ∈ dats, d.Reachable ∧ DistinctKeys d) {fdats : List FDataContainer}
    (h : dats.mapM (fun d => datToFdat interp d 16) = .ok fdats) (m : Key → ℕ → Key) :
    ∃ d f, mergeContainers S (dats.map .data) (fun k i => .str (m k i)) = .ok (.data d) ∧ datToFdat interp d 16 = .ok f ∧
      mergeContainers S (fdats.map .fdata) (fun k i => .str (m k i)) = .ok (.fdata f) := by
  let g : List (ℝ × ℝ) → ℤ → ℂ := fun pts m => match fourierSum interp pts m with | .ok z => z | .error _ => 0
  let G : List (ℝ × ℝ) → List ℂ := fun pts => (freqs 16).map (g pts)
  have hsum : ∀ d ∈ dats, ∀ it ∈ d.data, ∀ m ∈ freqs 16, fourierSum interp it.2 m = .ok (g it.2 m) := by
    intro d hd it hit m hm
    obtain ⟨f, -, hf⟩ := mapM_mem' h hd
    obtain ⟨z, hz⟩ := datToFdat_ok_all (reachable_normalForm (hr d hd).1).1 hf it hit m hm
    simp only [g, hz]
  have heq : ∀ d ∈ dats, datToFdat interp d 16 = .ok ⟨d.data.mapVals G, 16, 1, .num 0⟩ :=
    fun d hd => datToFdat_ok (reachable_normalForm (hr d hd).1).1 (hsum d hd)
  rw [mapM_ok heq] at h
  cases h
  obtain ⟨h1, h2, _⟩ := merge_data S hne hr m
  refine ⟨_, _, h1, datToFdat_ok (g := g) (reachable_normalForm h2).1 ?_, ?_⟩
  · intro it hit
    obtain ⟨d, hd, k, hk⟩ := mem_mergedDict hit
    obtain ⟨c, hc, rfl⟩ := List.mem_map.1 hd
    exact hsum c hc (k, it.2) hk
  · obtain ⟨h3, _⟩ := merge_fdata S (cs := dats.map (fun d => ⟨d.data.mapVals G, 16, 1, .num 0⟩)) (by simpa using hne) (by
      intro c hc
      obtain ⟨d, hd, rfl⟩ := List.mem_map.1 hc
      exact ⟨datToFdat_reachable (heq d hd), rfl⟩) m
    have e : (dats.map (fun d => (⟨d.data.mapVals G, 16, 1, .num 0⟩ : FDataContainer))).map (·.fdata) =
        (dats.map (·.data)).map (Dict.mapVals G) := by simp
    rw [e, mergedDict_map] at h3
    exact h3

theorem fdatToDat_reachable {c : FDataContainer} {N : ℕ} {d : DataContainer ℝ} {w : List Key} (h : fdatToDat c N = .ok (d, w)) :
    d.Reachable := by
  unfold fdatToDat at h
  obtain ⟨ans, _, hi⟩ := bind_ok h
  exact ⟨_, _, _, _, _, [], hi, rfl⟩

/-- **C121.** Sampling Fourier data and merging can be exchanged. -/
theorem C121_fdat_to_dat (S : Sympy) {fdats : List FDataContainer} (hne : fdats ≠ [])
    (hr : ∀ f ∈ fdats, f.Reachable ∧ f.getM = 16) {N : ℕ} (hN : 1 ≤ N) (m : Key → ℕ → Key) :
    ∃ dats f d, fdats.mapM (fun f => fdatToDat f N) = .ok dats ∧
      mergeContainers S (fdats.map .fdata) (fun k i => .str (m k i)) = .ok (.fdata f) ∧ fdatToDat f N = .ok (d, []) ∧
      mergeContainers S (dats.map (fun dw => .data dw.1)) (fun k i => .str (m k i)) = .ok (.data d) := by
  let G : List ℂ → List (ℝ × ℝ) := fun v => sampled N (fun x => (series v 16 x).re)
  let D : FDataContainer → DataContainer ℝ := fun f => ⟨f.fdata.mapVals G, 1, 0, some 0, false, sRadians⟩
  have heq : ∀ f ∈ fdats, fdatToDat f N = .ok (D f, []) := by
    intro f hf
    have h := fdatToDat_ok (hr f hf).1.good hN
    have hM : f.M = 16 := (hr f hf).2
    rw [hM] at h
    exact h
  obtain ⟨h1, h2⟩ := merge_fdata S hne hr m
  refine ⟨_, _, _, mapM_ok heq, h1, fdatToDat_ok h2.good hN, ?_⟩
  obtain ⟨h3, _⟩ := merge_data S (cs := fdats.map D) (by simpa using hne) (by
    intro c hc
    obtain ⟨f, hf, rfl⟩ := List.mem_map.1 hc
    refine ⟨fdatToDat_reachable (heq f hf), ?_⟩
    intro k pts hk
    rw [getPc_radians] at hk
    obtain ⟨v, _, rfl⟩ := Dict.mem_mapVals.1 (Dict.mem_of_get? (Dict.get_ok_iff.1 hk))
    exact sampled_nodup hN _) m
  have e : (fdats.map D).map (·.data) = (fdats.map (·.fdata)).map (Dict.mapVals G) := by simp [D]
  rw [e, mergedDict_map] at h3
  simpa [Function.comp_def] using h3

/-! ### Formulas and Fourier formulas -/

/-- **C121.** Transforming formulas and merging can be exchanged. -/
theorem C121_form_to_fform (S : Sympy) {forms : List FormContainer} (hne : forms ≠ []) (hr : ∀ c ∈ forms, c.Reachable S)
    {fforms : List FFormContainer} (h : forms.mapM (fun c => formToFform S c 16) = .ok fforms) (m : Key → ℕ → Key) :
    ∃ c f, mergeContainers S (forms.map .form) (fun k i => .str (m k i)) = .ok (.form c) ∧ formToFform S c 16 = .ok f ∧
      mergeContainers S (fforms.map .fform) (fun k i => .str (m k i)) = .ok (.fform f) := by
  let g : Expr → ℤ → PyObj := fun e m => match fourierTransform S e m with | .ok o => o | .error _ => .native 0 0
  let G : Expr → FArr := fun e => fformArray S ((freqs 16).map (g e))
  have hsum : ∀ c ∈ forms, ∀ it ∈ c.form, ∀ m ∈ freqs 16, fourierTransform S it.2 m = .ok (g it.2 m) := by
    intro d hd it hit m hm
    obtain ⟨f, -, hf⟩ := mapM_mem' h hd
    obtain ⟨o, ho⟩ := formToFform_ok_all S hf it hit m hm
    simp only [g, ho]
  have heq : ∀ c ∈ forms, formToFform S c 16 = .ok ⟨c.form.mapVals G, 16⟩ :=
    fun c hc => formToFform_ok S (hr c hc).wf g (hsum c hc)
  rw [mapM_ok heq] at h
  cases h
  obtain ⟨h1, h2⟩ := merge_form S hne hr m
  refine ⟨_, _, h1, formToFform_ok S h2.wf g ?_, ?_⟩
  · intro it hit
    obtain ⟨d, hd, k, hk⟩ := mem_mergedDict hit
    obtain ⟨c, hc, rfl⟩ := List.mem_map.1 hd
    exact hsum c hc (k, it.2) hk
  · obtain ⟨h3, _⟩ := merge_fform S (cs := forms.map (fun c => ⟨c.form.mapVals G, 16⟩)) (by simpa using hne) (by
      intro c hc
      obtain ⟨d, hd, rfl⟩ := List.mem_map.1 hc
      obtain ⟨hg, _, hnat, _⟩ := formToFform_symbols S (hr d hd).wf (heq d hd)
      refine ⟨?_, rfl, (FFormContainer.symbolic_iff hg).2 hnat⟩
      have h := heq d hd
      unfold formToFform at h
      obtain ⟨ans, _, hi⟩ := bind_ok h
      exact ⟨_, _, _, [], hi, rfl⟩) m
    have e : (forms.map (fun c => (⟨c.form.mapVals G, 16⟩ : FFormContainer))).map (·.fform) =
        (forms.map (·.form)).map (Dict.mapVals G) := by simp
    rw [e, mergedDict_map] at h3
    exact h3

theorem fformToForm_eq (S : Sympy) {c : FFormContainer} (hc : c.Good) (hM : c.M = 16) :
    fformToForm S c = .ok ⟨c.fform.mapVals (fun a => match formulaFromFexpr S a 16 with | .ok e => e | .error _ => .num 0)⟩ := by
  obtain ⟨f, h1, h2, h3, h4⟩ := fformToForm_ok S hc
  rw [h1]
  obtain ⟨f⟩ := f
  rw [dict_ext (d := f) (d' := c.fform.mapVals (fun a => match formulaFromFexpr S a 16 with | .ok e => e | .error _ => .num 0))
    (by simpa [FormContainer.getKeys, FFormContainer.getKeys] using h2) h3]
  intro k e hk
  have hkey : k ∈ Dict.keys c.fform := by
    have : k ∈ Dict.keys f := Dict.mem_keys.2 ⟨e, Dict.mem_of_get? (Dict.get_ok_iff.1 hk)⟩
    rwa [show Dict.keys f = Dict.keys c.fform from h2] at this
  obtain ⟨a, ha⟩ := Dict.mem_keys.1 hkey
  have hget : Dict.get c.fform k = .ok a := Dict.get_ok_iff.2 ((Dict.get?_eq_some_iff hc.wf).2 ha)
  obtain ⟨e', he', hf⟩ := h4 k a hget
  have hee : e' = e := Except.ok.inj (he'.symm.trans hk)
  subst hee
  rw [hM] at hf
  rw [Dict.get_ok_iff, Dict.get?_mapVals, Dict.get_ok_iff.1 hget]
  simp only [Option.map_some, hf]

/-- **C121.** Writing Fourier formulas as formulas and merging can be exchanged. -/
theorem C121_fform_to_form (S : Sympy) {fforms : List FFormContainer} (hne : fforms ≠ [])
    (hr : ∀ c ∈ fforms, c.Reachable S ∧ c.getM = 16 ∧ Symbolic c) (m : Key → ℕ → Key) :
    ∃ forms f c, fforms.mapM (fun c => fformToForm S c) = .ok forms ∧
      mergeContainers S (fforms.map .fform) (fun k i => .str (m k i)) = .ok (.fform f) ∧ fformToForm S f = .ok c ∧
      mergeContainers S (forms.map .form) (fun k i => .str (m k i)) = .ok (.form c) := by
  let G : FArr → Expr := fun a => match formulaFromFexpr S a 16 with | .ok e => e | .error _ => .num 0
  have heq : ∀ c ∈ fforms, fformToForm S c = .ok ⟨c.fform.mapVals G⟩ :=
    fun c hc => fformToForm_eq S (hr c hc).1.good (hr c hc).2.1
  obtain ⟨h1, h2, h2'⟩ := merge_fform S hne hr m
  refine ⟨_, _, _, mapM_ok heq, h1, fformToForm_eq S h2.good rfl, ?_⟩
  obtain ⟨h3, _⟩ := merge_form S (cs := fforms.map (fun c => ⟨c.fform.mapVals G⟩)) (by simpa using hne) (by
    intro c hc
    obtain ⟨f, hf, rfl⟩ := List.mem_map.1 hc
    have h := heq f hf
    unfold fformToForm at h
    obtain ⟨ans, _, hi⟩ := bind_ok h
    exact ⟨_, _, [], hi, rfl⟩) m
  have e : (fforms.map (fun c => (⟨c.fform.mapVals G⟩ : FormContainer))).map (·.form) =
      (fforms.map (·.fform)).map (Dict.mapVals G) := by simp
  rw [e, mergedDict_map] at h3
  exact h3

/-! ### Numbers for the symbols -/

theorem merged_occurs {S : Sympy} {fforms : List FFormContainer} (hr : ∀ c ∈ fforms, c.Reachable S ∧ c.getM = 16 ∧ Symbolic c)
    {m : Key → ℕ → Key} {s : Sym} (h : FOccurs ⟨mergedDict (fforms.map (·.fform)) m, 16⟩ s) : ∃ c ∈ fforms, FOccurs c s := by
  obtain ⟨k, a, j, e, h1, h2, h3⟩ := h
  obtain ⟨d, hd, k', hk'⟩ := mem_mergedDict (Dict.mem_of_get? (Dict.get_ok_iff.1 h1))
  obtain ⟨c, hc, rfl⟩ := List.mem_map.1 hd
  refine ⟨c, hc, k', a, j, e, (hr c hc).1.good.getPc_iff.2 hk', ?_, h3⟩
  rw [(hr c hc).2.1]
  exact h2

/-- **C121.** Putting in numbers for the symbols and merging can be exchanged. -/
theorem C121_fform_to_fdat (S : Sympy) {fforms : List FFormContainer} (hne : fforms ≠ [])
    (hr : ∀ c ∈ fforms, c.Reachable S ∧ c.getM = 16 ∧ Symbolic c) {subs : Dict Sym Expr} (hs : Numeric subs)
    (hcov : ∀ c ∈ fforms, ∀ s, FOccurs c s → s ∈ Dict.keys subs) (m : Key → ℕ → Key) :
    ∃ fdats f d, fforms.mapM (fun c => fformToFdat S c subs) = .ok fdats ∧
      mergeContainers S (fforms.map .fform) (fun k i => .str (m k i)) = .ok (.fform f) ∧ fformToFdat S f subs = .ok d ∧
      mergeContainers S (fdats.map .fdata) (fun k i => .str (m k i)) = .ok (.fdata d) := by
  obtain ⟨σ, hσ⟩ := exists_agrees hs
  let G : FArr → List ℂ := fun a => a.objs.map (objValue σ)
  have heq : ∀ c ∈ fforms, fformToFdat S c subs = .ok ⟨c.fform.mapVals G, 16, 1, .num 0⟩ := fun c hc =>
    fformToFdat_ok S (hr c hc).1.good ((FFormContainer.symbolic_iff (hr c hc).1.good).1 (hr c hc).2.2) (Or.inl (hr c hc).2.1) hs
      (hcov c hc) hσ
  obtain ⟨h1, h2, h2'⟩ := merge_fform S hne hr m
  refine ⟨_, _, _, mapM_ok heq, h1,
    fformToFdat_ok S h2.good ((FFormContainer.symbolic_iff h2.good).1 h2') (Or.inl rfl) hs (fun s h => ?_) hσ, ?_⟩
  · obtain ⟨c, hc, h'⟩ := merged_occurs hr h
    exact hcov c hc s h'
  obtain ⟨h3, _⟩ := merge_fdata S (cs := fforms.map (fun c => ⟨c.fform.mapVals G, 16, 1, .num 0⟩)) (by simpa using hne) (by
    intro c hc
    obtain ⟨f, hf, rfl⟩ := List.mem_map.1 hc
    obtain ⟨d, hd1, hd2, _, hd4, _⟩ := C29_values S (hr f hf).1 (hr f hf).2.2 (hr f hf).2.1 hs (hcov f hf)
    rw [heq f hf] at hd1
    cases hd1
    exact ⟨hd2, rfl⟩) m
  have e : (fforms.map (fun c => (⟨c.fform.mapVals G, 16, 1, .num 0⟩ : FDataContainer))).map (·.fdata) =
      (fforms.map (·.fform)).map (Dict.mapVals G) := by simp
  rw [e, mergedDict_map] at h3
  exact h3

/-- **C121.** The same for `fform_to_dat`. -/
theorem C121_fform_to_dat (S : Sympy) {fforms : List FFormContainer} (hne : fforms ≠ [])
    (hr : ∀ c ∈ fforms, c.Reachable S ∧ c.getM = 16 ∧ Symbolic c) {subs : Dict Sym Expr} (hs : Numeric subs)
    (hcov : ∀ c ∈ fforms, ∀ s, FOccurs c s → s ∈ Dict.keys subs) {N : ℕ} (hN : 1 ≤ N) (m : Key → ℕ → Key) :
    ∃ dats f d, fforms.mapM (fun c => fformToDat S c subs N) = .ok dats ∧
      mergeContainers S (fforms.map .fform) (fun k i => .str (m k i)) = .ok (.fform f) ∧ fformToDat S f subs N = .ok (d, []) ∧
      mergeContainers S (dats.map (fun dw => .data dw.1)) (fun k i => .str (m k i)) = .ok (.data d) := by
  obtain ⟨fdats, f, fd, h1, h2, h3, h4⟩ := C121_fform_to_fdat S hne hr hs hcov m
  have hfd : ∀ x ∈ fdats, x.Reachable ∧ x.getM = 16 := by
    intro x hx
    obtain ⟨c, hc, hx'⟩ := mapM_mem h1 hx
    obtain ⟨d, hd1, hd2, _, hd4, _⟩ := C29_values S (hr c hc).1 (hr c hc).2.2 (hr c hc).2.1 hs (hcov c hc)
    rw [hd1] at hx'
    cases hx'
    exact ⟨hd2, hd4⟩
  have hne' : fdats ≠ [] := by
    rintro rfl
    obtain ⟨c, cs, rfl⟩ := List.exists_cons_of_ne_nil hne
    obtain ⟨b, hb, _⟩ := mapM_mem' h1 (List.mem_cons_self (a := c) (l := cs))
    cases hb
  obtain ⟨dats, f', d, h5, h6, h7, h8⟩ := C121_fdat_to_dat S hne' hfd hN m
  rw [h4] at h6
  cases h6
  refine ⟨dats, f, d, ?_, h2, ?_, h8⟩
  · rw [← h5]
    clear h2 h3 h4 h5 h7 h8 hne hr hcov hfd hne'
    induction fforms generalizing fdats with
    | nil => cases h1; rfl
    | cons c cs ih =>
      rw [List.mapM_cons] at h1
      obtain ⟨x, hx, h1⟩ := bind_ok h1
      obtain ⟨xs, hxs, h1⟩ := bind_ok h1
      cases h1
      rw [List.mapM_cons, List.mapM_cons, ih _ hxs]
      unfold fformToDat
      rw [hx, ok_bind]
  · unfold fformToDat
    rw [h3, ok_bind]
    exact h7

theorem formToDat_good {S : Sympy} {c : FormContainer} {subs : Dict Sym Expr} {N : ℕ} (hN : 1 ≤ N) {d : DataContainer ℝ}
    {w : List Key} (h : formToDat S c subs N = .ok (d, w)) {α : Type} {dict : Dict Key α} {f : α → ℝ → ℝ}
    (hd : d.data = dict.mapVals (fun e => sampled N (f e))) : d.Reachable ∧ DistinctKeys d := by
  refine ⟨?_, ?_⟩
  · unfold formToDat at h
    obtain ⟨_, _, h⟩ := bind_ok h
    obtain ⟨_, _, h⟩ := bind_ok h
    obtain ⟨_, _, h⟩ := bind_ok h
    obtain ⟨_, _, h⟩ := bind_ok h
    simp only at h
    split at h
    · cases h
    · exact ⟨_, _, _, _, _, [], h, rfl⟩
  · intro k pts hk
    rw [getPc_radians, hd] at hk
    obtain ⟨v, _, rfl⟩ := Dict.mem_mapVals.1 (Dict.mem_of_get? (Dict.get_ok_iff.1 hk))
    exact sampled_nodup hN _

/-- **C121.** The same for `form_to_dat` when no two combinations get the same new key. -/
theorem C121_form_to_dat (S : Sympy) {forms : List FormContainer} (hne : forms ≠ []) (hr : ∀ c ∈ forms, c.Reachable S)
    {subs : Dict Sym Expr} (hs : Dict.WF subs) (hn : Numeric subs) {N : ℕ} (hN : 1 ≤ N)
    (hphi : ∀ c ∈ forms, ∀ s, Occurs ⟨c.form.mapVals (S.subs subs)⟩ s ↔ s = phi) {m : Key → ℕ → Key}
    (hm : ((mergeEntries (forms.map .form) m).map Prod.fst).Nodup) :
    ∃ dats c d, forms.mapM (fun c => formToDat S c subs N) = .ok dats ∧
      mergeContainers S (forms.map .form) (fun k i => .str (m k i)) = .ok (.form c) ∧ formToDat S c subs N = .ok (d, []) ∧
      mergeContainers S (dats.map (fun dw => .data dw.1)) (fun k i => .str (m k i)) = .ok (.data d) := by
  obtain ⟨σ, hσ⟩ := exists_agrees hn
  let G : Expr → List (ℝ × ℝ) := fun e => sampled N (fun x => (ofAngle e σ x).re)
  let D : FormContainer → DataContainer ℝ := fun c => ⟨c.form.mapVals G, 1, 0, some 0, false, sRadians⟩
  have heq : ∀ c ∈ forms, formToDat S c subs N = .ok (D c, []) := fun c hc =>
    (formToDat_ok S (hr c hc).wf hs hn hN (hphi c hc) hσ).2
  obtain ⟨h1, h2⟩ := merge_form S hne hr m
  have hm' : ((entriesOf (forms.map (·.form)) m).map Prod.fst).Nodup := by
    have e : mergeEntries (forms.map .form) m = (entriesOf (forms.map (·.form)) m).map (fun kv => (kv.1, MVal.expr kv.2)) := by
      rw [← entriesOf_map]
      unfold mergeEntries entriesOf
      rw [List.map_map, List.zipIdx_map, List.zipIdx_map, List.flatMap_map, List.flatMap_map]
      rfl
    rw [e] at hm
    simpa [Function.comp_def] using hm
  have hocc : ∀ s, Occurs ⟨(mergedDict (forms.map (·.form)) m).mapVals (S.subs subs)⟩ s ↔ s = phi := by
    intro s
    constructor
    · rintro ⟨k, e, h3, h4⟩
      obtain ⟨a, ha, rfl⟩ := Dict.mem_mapVals.1 (Dict.mem_of_get? (Dict.get_ok_iff.1 h3))
      obtain ⟨d, hd, k', hk'⟩ := mem_mergedDict ha
      obtain ⟨c, hc, rfl⟩ := List.mem_map.1 hd
      refine (hphi c hc s).1 ⟨k', S.subs subs a, ?_, h4⟩
      exact Dict.get_ok_iff.2 ((Dict.get?_eq_some_iff (by simpa [Dict.WF] using (hr c hc).wf)).2 (Dict.mem_mapVals.2 ⟨a, hk', rfl⟩))
    · rintro rfl
      obtain ⟨c, cs, rfl⟩ := List.exists_cons_of_ne_nil hne
      obtain ⟨k, e, h3, h4⟩ := (hphi c List.mem_cons_self phi).2 rfl
      obtain ⟨a, ha, rfl⟩ := Dict.mem_mapVals.1 (Dict.mem_of_get? (Dict.get_ok_iff.1 h3))
      obtain ⟨k', hk'⟩ := mem_mergedDict_of_nodup hm' (d := c.form) (by simp) ha
      refine ⟨k', S.subs subs a, ?_, h4⟩
      exact Dict.get_ok_iff.2 ((Dict.get?_eq_some_iff (by simpa [Dict.WF] using mergedDict_wf _ m)).2
        (Dict.mem_mapVals.2 ⟨a, hk', rfl⟩))
  refine ⟨_, _, _, mapM_ok heq, h1, (formToDat_ok S h2.wf hs hn hN hocc hσ).2, ?_⟩
  obtain ⟨h3, _⟩ := merge_data S (cs := forms.map D) (by simpa using hne) (by
    intro c hc
    obtain ⟨f, hf, rfl⟩ := List.mem_map.1 hc
    exact formToDat_good (f := fun e x => (ofAngle e σ x).re) hN (heq f hf) rfl) m
  have e : (forms.map D).map (·.data) = (forms.map (·.form)).map (Dict.mapVals G) := by simp [D]
  rw [e, mergedDict_map] at h3
  simpa [Function.comp_def] using h3

/-- Two formula containers with the combination `PP`; the second one also has a constant one. -/
def exClash : List FormContainer := [⟨[(kPP, .sym phi)]⟩, ⟨[(kPP, .cos (.sym phi)), (kPS, .num 1)]⟩]

theorem exClash_reachable : ∀ c ∈ exClash, c.Reachable Sympy.plain := by
  intro c hc
  simp only [exClash, List.mem_cons, List.not_mem_nil, or_false] at hc
  rcases hc with rfl | rfl
  · exact ⟨[(.str kPP, .sy (.sym phi))], _, [], rfl, rfl⟩
  · exact ⟨[(.str kPP, .sy (.cos (.sym phi))), (.str kPS, .sy (.num 1))], _, [], rfl, rfl⟩

theorem plain_subs_nil (e : Expr) : Sympy.plain.subs [] e = e := rfl

theorem exClash_phi : ∀ c ∈ exClash, ∀ s, Occurs ⟨c.form.mapVals (Sympy.plain.subs [])⟩ s ↔ s = phi := by
  intro c hc s
  have hid : c.form.mapVals (Sympy.plain.subs []) = c.form := by
    unfold Dict.mapVals
    simp [plain_subs_nil]
  rw [hid]
  simp only [exClash, List.mem_cons, List.not_mem_nil, or_false] at hc
  constructor
  · rintro ⟨k, e, h1, h2⟩
    have h3 := Dict.mem_of_get? (Dict.get_ok_iff.1 h1)
    rcases hc with rfl | rfl
    · simp only [List.mem_cons, List.not_mem_nil, or_false, Prod.mk.injEq] at h3
      obtain ⟨-, rfl⟩ := h3
      simpa [Expr.free] using h2
    · simp only [List.mem_cons, List.not_mem_nil, or_false, Prod.mk.injEq] at h3
      rcases h3 with ⟨-, rfl⟩ | ⟨-, rfl⟩
      · simpa [Expr.free] using h2
      · simp [Expr.free] at h2
  · rintro rfl
    rcases hc with rfl | rfl
    · exact ⟨kPP, _, rfl, by simp [Expr.free]⟩
    · exact ⟨kPP, _, rfl, by simp [Expr.free]⟩

/-- **C121.** With clashing keys `form_to_dat` and merging cannot be exchanged: when merging drops every formula that
depends on `phi`, the conversion of the merged container raises `ValueError` although each container can be converted and
the results can be merged. -/
theorem C121_form_to_dat_clash {N : ℕ} (hN : 1 ≤ N) :
    ∃ (forms : List FormContainer) (m : Key → ℕ → Key) (dats : List (DataContainer ℝ × List Key)) (d : DataContainer ℝ)
      (c : FormContainer), (∀ c ∈ forms, c.Reachable Sympy.plain) ∧
      forms.mapM (fun c => formToDat Sympy.plain c [] N) = .ok dats ∧
      mergeContainers Sympy.plain (dats.map (fun dw => .data dw.1)) (fun k i => .str (m k i)) = .ok (.data d) ∧
      mergeContainers Sympy.plain (forms.map .form) (fun k i => .str (m k i)) = .ok (.form c) ∧
      formToDat Sympy.plain c [] N = .error .valueError := by
  have hs : Dict.WF ([] : Dict Sym Expr) := by unfold Dict.WF; decide
  have hn : Numeric ([] : Dict Sym Expr) := by intro x hx; cases hx
  have hσ : Agrees (fun _ => 0) ([] : Dict Sym Expr) := by intro s v h; cases h
  let G : Expr → List (ℝ × ℝ) := fun e => sampled N (fun x => (ofAngle e (fun _ => 0) x).re)
  let D : FormContainer → DataContainer ℝ := fun c => ⟨c.form.mapVals G, 1, 0, some 0, false, sRadians⟩
  have heq : ∀ c ∈ exClash, formToDat Sympy.plain c [] N = .ok (D c, []) := fun c hc =>
    (formToDat_ok Sympy.plain (exClash_reachable c hc).wf hs hn hN (exClash_phi c hc) hσ).2
  obtain ⟨h1, h2⟩ := merge_form Sympy.plain (cs := exClash) (by simp [exClash]) exClash_reachable (fun _ _ => kPP)
  obtain ⟨h3, _⟩ := merge_data Sympy.plain (cs := exClash.map D) (by simp [exClash]) (by
    intro c hc
    obtain ⟨f, hf, rfl⟩ := List.mem_map.1 hc
    exact formToDat_good (f := fun e x => (ofAngle e (fun _ => 0) x).re) hN (heq f hf) rfl) (fun _ _ => kPP)
  rw [List.map_map] at h3
  refine ⟨exClash, fun _ _ => kPP, _, _, _, exClash_reachable, mapM_ok heq, by rw [List.map_map]; exact h3, h1, ?_⟩
  · have e : mergedDict (exClash.map (·.form)) (fun _ _ => kPP) = [(kPP, .num 1)] := rfl
    rw [formToDat_eq Sympy.plain h2.wf hs, if_neg]
    rw [e]
    intro h
    obtain ⟨k, a, h4, h5⟩ := (h phi).2 rfl
    have h6 := Dict.mem_of_get? (Dict.get_ok_iff.1 h4)
    simp only [Dict.mapVals, List.map_cons, List.map_nil, plain_subs_nil, List.mem_cons, List.not_mem_nil, or_false,
      Prod.mk.injEq] at h6
    obtain ⟨-, rfl⟩ := h6
    simp [Expr.free] at h5

/-! ### The hypotheses can be met -/

example : exClash ≠ [] ∧ (∀ c ∈ exClash, c.Reachable Sympy.plain) ∧ Numeric ([] : Dict Sym Expr) ∧
    (∀ c ∈ exClash, ∀ s, Occurs ⟨c.form.mapVals (Sympy.plain.subs [])⟩ s ↔ s = phi) ∧
    ((mergeEntries (exClash.map .form) (fun k i => k ++ natStr i)).map Prod.fst).Nodup :=
  ⟨by simp [exClash], exClash_reachable, (fun x hx => by cases hx), exClash_phi, by decide⟩

example : ∀ c ∈ [exFF, exFF], c.Reachable Sympy.plain ∧ c.getM = 16 ∧ Symbolic c := by
  intro c hc
  have : c = exFF := by simpa using hc
  subst this
  refine ⟨exFF_reachable, rfl, ?_⟩
  rw [FFormContainer.symbolic_iff exFF_reachable.good]
  intro it hit
  simp only [exFF, List.mem_singleton] at hit
  subst hit; rfl

/-- Sampled Fourier data can be merged, and transformed with interpolation through the points. -/
example {f₁ f₂ : FDataContainer} (h₁ : f₁.Reachable ∧ f₁.getM = 16) (h₂ : f₂.Reachable ∧ f₂.getM = 16) {interp : Interp}
    (hi : ∀ g : ℝ → ℝ, Reproduces interp (sampled 40 g)) :
    ∃ dats : List (DataContainer ℝ), dats.length = 2 ∧ (∀ d ∈ dats, d.Reachable ∧ DistinctKeys d) ∧
      ∃ fdats, dats.mapM (fun d => datToFdat interp d 16) = .ok fdats := by
  have key : ∀ f : FDataContainer, f.Reachable ∧ f.getM = 16 → ∃ d c, (d.Reachable ∧ DistinctKeys d) ∧
      datToFdat interp d 16 = .ok c := by
    intro f hf
    have h := fdatToDat_ok hf.1.good (N := 40) (by norm_num)
    have hpts : ∀ k pts, (DataContainer.mk (f.fdata.mapVals (fun v => sampled 40 (fun x => (series v f.M x).re))) 1 0
        (some 0) false sRadians : DataContainer ℝ).getPc k sRadians = .ok pts → ∃ y, pts = sampled 40 y := by
      intro k pts hk
      rw [getPc_radians] at hk
      dsimp only at hk
      obtain ⟨v, _, rfl⟩ := Dict.mem_mapVals.1 (Dict.mem_of_get? (Dict.get_ok_iff.1 hk))
      exact ⟨_, rfl⟩
    obtain ⟨c, hc, _⟩ := C21_discrete_transform (interp := interp) (fdatToDat_reachable h) (N := 40) (by norm_num) 16 (by
      intro k pts hk
      obtain ⟨y, rfl⟩ := hpts k pts hk
      exact ⟨⟨y, rfl⟩, hi y⟩)
    refine ⟨_, c, ⟨fdatToDat_reachable h, ?_⟩, hc⟩
    intro k pts hk
    obtain ⟨y, rfl⟩ := hpts k pts hk
    exact sampled_nodup (by norm_num) y
  obtain ⟨d₁, c₁, hd₁, hc₁⟩ := key f₁ h₁
  obtain ⟨d₂, c₂, hd₂, hc₂⟩ := key f₂ h₂
  refine ⟨[d₁, d₂], rfl, by simp [hd₁, hd₂], [c₁, c₂], ?_⟩
  simp [hc₁, hc₂]
  rfl

end Shgpy
