import Verif.Spec.MergeFit
import Verif.Props.Merge
import Verif.Props.Degenerate
import Verif.Props.Simulated

/-!
# Fitting several measurements together (C94)
-/

set_option linter.unusedSectionVars false

namespace Shgpy
open Spec

variable (S : Sympy) (C : Compiler)

/-! ## Keys with a number -/

/-- C34, the mapping of the documentation, `key + str(index)`: when the keys have the same length no two combinations get the same
new key. -/
theorem C34_numbered {cs : List AnyC} (hr : ∀ c ∈ cs, c.Reachable S) {n : ℕ} (hn : ∀ c ∈ cs, ∀ kv ∈ shown c, kv.1.length = n) :
    ((mergeEntries cs (fun k i => k ++ natStr i)).map Prod.fst).Nodup := by
  refine mergeEntries_nodup S hr (fun k => k.length = n) hn ?_
  intro k i k' i' hk hk' h
  obtain ⟨h1, h2⟩ := List.append_inj h (hk.trans hk'.symm)
  exact ⟨h1, natStr_inj h2⟩

/-- C34, the mapping of the documentation with keys of different length: two combinations can get the same new key. -/
theorem C34_numbered_clash : (fun k i => k ++ natStr i) (kPP ++ ['1']) 0 = (fun k i => k ++ natStr i : Key → ℕ → Key) kPP 10 := by
  simp [natStr, kPP]

/-! ## Lemmas -/

theorem exists_map_eq {l : List Sym} (hl : l.Nodup) {x : List ℝ} (hx : x.length = l.length) : ∃ r : Sym → ℝ, l.map r = x := by
  induction l generalizing x with
  | nil => exact ⟨fun _ => 0, (List.eq_nil_of_length_eq_zero hx).symm⟩
  | cons s l ih =>
      cases x with
      | nil => simp at hx
      | cons a x =>
          obtain ⟨h1, h2⟩ := List.nodup_cons.1 hl
          obtain ⟨r, hr⟩ := ih h2 (x := x) (by simpa using hx)
          refine ⟨fun t => if t = s then a else r t, ?_⟩
          rw [List.map_cons, if_pos rfl, ← hr]
          congr 1
          exact List.map_congr_left (fun t ht => if_neg (by rintro rfl; exact h1 ht))

theorem fRepresents_unique {c : FFormContainer} {k : Key} {m : ℤ} {f g : Valuation → ℂ} (hf : FRepresents c k m f)
    (hg : FRepresents c k m g) : f = g := by
  obtain ⟨a, o, h1, h2, h3⟩ := hf
  obtain ⟨a', o', g1, g2, g3⟩ := hg
  rw [h1] at g1; cases g1
  have : o = o' := Option.some.inj (h2.2.symm.trans g2.2)
  funext σ
  rw [← h3, ← g3, this]

theorem dRepresents_unique {c : FDataContainer} {k : Key} {m : ℤ} {z w : ℂ} (hz : DRepresents c k m z) (hw : DRepresents c k m w) :
    z = w := by
  obtain ⟨v, h1, h2⟩ := hz
  obtain ⟨v', g1, g2⟩ := hw
  rw [h1] at g1; cases g1
  exact Option.some.inj (h2.2.symm.trans g2.2)

theorem sum_flatMap {α β : Type} (l : List α) (g : α → List β) (h : β → ℝ) :
    ((l.flatMap g).map h).sum = (l.map (fun a => ((g a).map h).sum)).sum := by
  induction l with
  | nil => rfl
  | cons a l ih => simp [ih]

/-- `DataIs` and `FormulaIs` exist for a formula and data whose components are machine numbers. -/
theorem dataIs_exists {fform : FFormContainer} {fdat : FDataContainer}
    (h : ∀ k ∈ fform.getKeys, ∀ m, -(fform.getM : ℤ) ≤ m → m ≤ fform.getM → ∃ z, DRepresents fdat k m z ∧ MachineNumber z) :
    ∃ D, DataIs fform fdat D := by
  classical
  have h' : ∀ (k : Key) (m : ℤ), ∃ z, k ∈ fform.getKeys → -(fform.getM : ℤ) ≤ m → m ≤ fform.getM →
      DRepresents fdat k m z ∧ MachineNumber z := by
    intro k m
    by_cases hk : k ∈ fform.getKeys ∧ -(fform.getM : ℤ) ≤ m ∧ m ≤ fform.getM
    · obtain ⟨z, hz⟩ := h k hk.1 m hk.2.1 hk.2.2
      exact ⟨z, fun _ _ _ => hz⟩
    · exact ⟨0, fun h1 h2 h3 => absurd ⟨h1, h2, h3⟩ hk⟩
  choose D hD using h'
  exact ⟨D, fun k hk m h1 h2 => hD k m hk h1 h2⟩

/-! ## C94 -/

/-- C94.  Merging formulas and merging measurements with the same mapping, such that no two combinations get the same new key, gives
a formula and a measurement whose cost is, for all values of the parameters, the sum of the single costs. -/
theorem C94_merged_cost {ps : List (FFormContainer × FDataContainer)} (hne : ps ≠ []) (hps : ∀ p ∈ ps, Fittable S p)
    (m : Key → ℕ → Key) (hf : ((mergeEntries (ps.map (fun p => .fform p.1)) m).map Prod.fst).Nodup)
    (hd : ((mergeEntries (ps.map (fun p => .fdata p.2)) m).map Prod.fst).Nodup)
    {l : List Sym} (hl : l.Nodup) (hs : ∀ p ∈ ps, ∀ s, FOccurs p.1 s → s ∈ l) (d : Disk) (chunk : Bool)
    (hc : chunk = true → ∀ p ∈ ps, p.1.getKeys ≠ []) (save : Option Key) :
    ∃ fform fdat cost d' costs,
      mergeContainers S (ps.map (fun p => .fform p.1)) (fun k i => .str (m k i)) = .ok (.fform fform) ∧
      mergeContainers S (ps.map (fun p => .fdata p.2)) (fun k i => .str (m k i)) = .ok (.fdata fdat) ∧
      genCostFunc S C d fform fdat (some l) chunk save = .ok (cost, d') ∧
      List.Forall₂ (fun p f => ∃ d', genCostFunc S C d p.1 p.2 (some l) chunk none = .ok (f, d')) ps costs ∧
      ∀ x : List ℝ, x.length = l.length → cost x = (costs.map (fun f => f x)).sum := by
  classical
  obtain ⟨p₀, ps', rfl⟩ := List.exists_cons_of_ne_nil hne
  -- the merged containers
  obtain ⟨r₁, e1, k1, R1, M1, s1⟩ := C34_distinct S (c₀ := .fform p₀.1) (cs := ps'.map (fun p : FFormContainer × FDataContainer => .fform p.1))
    (by intro c hc; obtain ⟨q, _, rfl⟩ := List.mem_map.1 hc; rfl)
    (by
      intro c hc
      rw [← List.map_cons (f := fun p : FFormContainer × FDataContainer => AnyC.fform p.1)] at hc
      obtain ⟨q, hq, rfl⟩ := List.mem_map.1 hc
      exact ⟨(hps q hq).formula, (hps q hq).formulaM, (hps q hq).symbolic⟩) m hf
  obtain ⟨r₂, e2, k2, R2, M2, s2⟩ := C34_distinct S (c₀ := .fdata p₀.2) (cs := ps'.map (fun p : FFormContainer × FDataContainer => .fdata p.2))
    (by intro c hc; obtain ⟨q, _, rfl⟩ := List.mem_map.1 hc; rfl)
    (by
      intro c hc
      rw [← List.map_cons (f := fun p : FFormContainer × FDataContainer => AnyC.fdata p.2)] at hc
      obtain ⟨q, hq, rfl⟩ := List.mem_map.1 hc
      exact ⟨(hps q hq).data, (hps q hq).dataM⟩) m hd
  rw [← List.map_cons (f := fun p : FFormContainer × FDataContainer => AnyC.fform p.1)] at e1 s1
  rw [← List.map_cons (f := fun p : FFormContainer × FDataContainer => AnyC.fdata p.2)] at e2 s2
  generalize hPs : p₀ :: ps' = ps at *
  cases r₁ with
  | data c => cases k1
  | fdata c => cases k1
  | form c => cases k1
  | fform fform =>
  cases r₂ with
  | data c => cases k2
  | form c => cases k2
  | fform c => cases k2
  | fdata fdat =>
  have hfr : fform.Reachable S := R1
  have hdr : fdat.Reachable := R2
  have hfM : fform.getM = 16 := M1.1
  have hdM : fdat.getM = 16 := M2
  -- lookups in the merged containers
  have lookF : ∀ p i, ps[i]? = some p → ∀ k a, p.1.getPc k = .ok a → fform.getPc (m k i) = .ok a := by
    intro p i hp k a hk
    have h1 : (m k i, MVal.farr a) ∈ shown (.fform fform) := by
      rw [s1]
      refine List.mem_flatMap.2 ⟨(.fform p.1, i), ?_, ?_⟩
      · rw [List.mem_zipIdx_iff_getElem?, List.getElem?_map, hp]; rfl
      · exact List.mem_map.2 ⟨(k, .farr a), List.mem_map.2 ⟨(k, a), Dict.mem_of_get? (Dict.get_ok_iff.1 hk), rfl⟩, rfl⟩
    obtain ⟨kv, h2, h3⟩ := List.mem_map.1 h1
    obtain ⟨h4, h5⟩ := Prod.mk.inj h3
    cases h5
    rw [← h4]
    exact get_of_mem hfr.good.wf h2
  have lookD : ∀ p i, ps[i]? = some p → ∀ k v, p.2.getPc k = .ok v → fdat.getPc (m k i) = .ok v := by
    intro p i hp k v hk
    have h1 : (m k i, MVal.arr1 v) ∈ shown (.fdata fdat) := by
      rw [s2]
      refine List.mem_flatMap.2 ⟨(.fdata p.2, i), ?_, ?_⟩
      · rw [List.mem_zipIdx_iff_getElem?, List.getElem?_map, hp]; rfl
      · exact List.mem_map.2 ⟨(k, .arr1 v), List.mem_map.2 ⟨(k, v), Dict.mem_of_get? (Dict.get_ok_iff.1 hk), rfl⟩, rfl⟩
    obtain ⟨kv, h2, h3⟩ := List.mem_map.1 h1
    obtain ⟨h4, h5⟩ := Prod.mk.inj h3
    cases h5
    rw [← h4]
    exact get_of_mem hdr.good.wf h2
  have hkeys : fform.getKeys = ps.zipIdx.flatMap (fun pi => pi.1.1.getKeys.map (fun k => m k pi.2)) := by
    have h1 : (shown (.fform fform)).map Prod.fst = fform.getKeys := by
      simp [shown, FFormContainer.getKeys, Dict.keys, Function.comp_def]
    rw [← h1, s1]
    unfold mergeEntries
    rw [List.map_flatMap, List.zipIdx_map, List.flatMap_map]
    refine List.flatMap_congr (fun pi _ => ?_)
    simp [shown, FFormContainer.getKeys, Dict.keys, Function.comp_def]
  have hmemkeys : ∀ key ∈ fform.getKeys, ∃ p i k, ps[i]? = some p ∧ p ∈ ps ∧ k ∈ p.1.getKeys ∧ key = m k i := by
    intro key hkey
    rw [hkeys] at hkey
    obtain ⟨⟨p, i⟩, h1, h2⟩ := List.mem_flatMap.1 hkey
    obtain ⟨k, h3, rfl⟩ := List.mem_map.1 h2
    rw [List.mem_zipIdx_iff_getElem?] at h1
    exact ⟨p, i, k, h1, List.mem_of_getElem? h1, h3, rfl⟩
  -- what the formulas and the data are
  have hFD : ∀ p : FFormContainer × FDataContainer, ∃ F D, p ∈ ps → FormulaIs p.1 F ∧ DataIs p.1 p.2 D := by
    intro p
    by_cases hp : p ∈ ps
    · obtain ⟨F, hF⟩ := formulaIs_exists S (hps p hp).formula
      obtain ⟨D, hD⟩ := dataIs_exists (fform := p.1) (fdat := p.2) (by
        intro k hk m h1 h2
        rw [(hps p hp).formulaM] at h1 h2
        exact (hps p hp).measured k hk m h1 h2)
      exact ⟨F, D, fun _ => ⟨hF, hD⟩⟩
    · exact ⟨fun _ _ _ => 0, fun _ _ => 0, fun h => absurd h hp⟩
  choose F D hFD using hFD
  obtain ⟨Fm, hFm⟩ := formulaIs_exists S hfr
  have hrepD : ∀ p i, ps[i]? = some p → ∀ k ∈ p.1.getKeys, ∀ j : ℤ, -16 ≤ j → j ≤ 16 →
      DRepresents fdat (m k i) j (D p k j) ∧ MachineNumber (D p k j) := by
    intro p i hp k hk j h1 h2
    have hp' := List.mem_of_getElem? hp
    obtain ⟨⟨v, g1, g2⟩, g3⟩ := (hFD p hp').2 k hk j (by rw [(hps p hp').formulaM]; exact h1) (by rw [(hps p hp').formulaM]; exact h2)
    refine ⟨⟨v, lookD p i hp k v g1, ?_⟩, g3⟩
    rw [hdM]
    rw [(hps p hp').dataM] at g2
    exact g2
  have hrepF : ∀ p i, ps[i]? = some p → ∀ k ∈ p.1.getKeys, ∀ j : ℤ, -16 ≤ j → j ≤ 16 → FRepresents fform (m k i) j (F p k j) := by
    intro p i hp k hk j h1 h2
    have hp' := List.mem_of_getElem? hp
    obtain ⟨a, o, g1, g2, g3⟩ := (hFD p hp').1 k hk j (by rw [(hps p hp').formulaM]; exact h1) (by rw [(hps p hp').formulaM]; exact h2)
    refine ⟨a, o, lookF p i hp k a g1, ?_, g3⟩
    rw [hfM]
    rw [(hps p hp').formulaM] at g2
    exact g2
  obtain ⟨Dm, hDm⟩ := dataIs_exists (fform := fform) (fdat := fdat) (by
    intro key hkey j h1 h2
    rw [hfM] at h1 h2
    obtain ⟨p, i, k, hp, _, hk, rfl⟩ := hmemkeys key hkey
    exact ⟨_, hrepD p i hp k hk j h1 h2⟩)
  -- the symbols
  have hlists : Lists fform l := by
    refine ⟨hl, ?_⟩
    rintro s ⟨key, a, j, e, h1, h2, h3⟩
    obtain ⟨p, i, k, hp, hp', hk, rfl⟩ := hmemkeys key (Dict.mem_keys_of_mem (Dict.mem_of_get? (Dict.get_ok_iff.1 h1)))
    obtain ⟨a', ha'⟩ := Dict.mem_keys.1 hk
    have ha'' : p.1.getPc k = .ok a' := get_of_mem (hps p hp').formula.good.wf ha'
    have := lookF p i hp k a' ha''
    rw [h1] at this; cases this
    refine hs p hp' s ⟨k, a, j, e, ha'', ?_, h3⟩
    rw [(hps p hp').formulaM]
    rwa [hfM] at h2
  -- the costs
  obtain ⟨cost, d', g1, g2⟩ := C57_cost S C d hfr (Or.inl ⟨rfl, hlists⟩) (by rw [hdM, hfM]) hFm hDm chunk (by
    intro hch hnil
    have hp₀ : p₀ ∈ ps := by rw [← hPs]; simp
    obtain ⟨k, hk⟩ := List.exists_mem_of_ne_nil _ (hc hch p₀ hp₀)
    have : m k 0 ∈ fform.getKeys := by
      obtain ⟨a, ha⟩ := Dict.mem_keys.1 hk
      have := lookF p₀ 0 (by rw [← hPs]; rfl) k a (get_of_mem (hps p₀ hp₀).formula.good.wf ha)
      exact Dict.mem_keys_of_mem (Dict.mem_of_get? (Dict.get_ok_iff.1 this))
    rw [hnil] at this
    cases this) save
  have hsingle : ∀ p : FFormContainer × FDataContainer, ∃ f : CFunc, p ∈ ps →
      (∃ d', genCostFunc S C d p.1 p.2 (some l) chunk none = .ok (f, d')) ∧
        ∀ r : Sym → ℝ, f (l.map r) = misfit p.1.getKeys p.1.getM (F p) (D p) r := by
    intro p
    by_cases hp : p ∈ ps
    · obtain ⟨f, d', a1, a2⟩ := C57_cost S C d (hps p hp).formula (Or.inl ⟨rfl, hl, hs p hp⟩)
        (by rw [(hps p hp).dataM, (hps p hp).formulaM]) (hFD p hp).1 (hFD p hp).2 chunk (fun h => hc h p hp) none
      exact ⟨f, fun _ => ⟨⟨d', a1⟩, a2⟩⟩
    · exact ⟨fun _ => 0, fun h => absurd h hp⟩
  choose f hf' using hsingle
  refine ⟨fform, fdat, cost, d', ps.map f, e1, e2, g1, ?_, ?_⟩
  · rw [List.forall₂_map_right_iff, List.forall₂_same]
    exact fun p hp => (hf' p hp).1
  · intro x hx
    obtain ⟨r, rfl⟩ := exists_map_eq hl hx
    rw [g2, List.map_map]
    have hterm : ∀ p i, ps[i]? = some p → ∀ k ∈ p.1.getKeys,
        (∑ j ∈ Finset.Icc (-(16 : ℕ) : ℤ) (16 : ℕ), ‖Fm (m k i) j (realVal r) - Dm (m k i) j‖ ^ 2) =
          ∑ j ∈ Finset.Icc (-(16 : ℕ) : ℤ) (16 : ℕ), ‖F p k j (realVal r) - D p k j‖ ^ 2 := by
      intro p i hp k hk
      have hkey : m k i ∈ fform.getKeys := by
        obtain ⟨a, ha⟩ := Dict.mem_keys.1 hk
        have := lookF p i hp k a (get_of_mem (hps p (List.mem_of_getElem? hp)).formula.good.wf ha)
        exact Dict.mem_keys_of_mem (Dict.mem_of_get? (Dict.get_ok_iff.1 this))
      refine Finset.sum_congr rfl (fun j hj => ?_)
      rw [Finset.mem_Icc] at hj
      have hj1 : -16 ≤ j := by simpa using hj.1
      have hj2 : j ≤ 16 := by simpa using hj.2
      rw [fRepresents_unique (hFm _ hkey j (by rw [hfM]; exact hj1) (by rw [hfM]; exact hj2)) (hrepF p i hp k hk j hj1 hj2),
        dRepresents_unique (hDm _ hkey j (by rw [hfM]; exact hj1) (by rw [hfM]; exact hj2)).1 (hrepD p i hp k hk j hj1 hj2).1]
    unfold misfit
    rw [hfM, hkeys, sum_flatMap]
    have h1 : ps.map (fun p => f p (l.map r)) =
        ps.zipIdx.map (fun pi => f pi.1 (l.map r)) := by
      conv_lhs => rw [← List.zipIdx_map_fst 0 ps, List.map_map]
      rfl
    show _ = (ps.map (fun p => f p (l.map r))).sum
    rw [h1]
    congr 1
    refine List.map_congr_left ?_
    rintro ⟨p, i⟩ hpi
    rw [List.mem_zipIdx_iff_getElem?] at hpi
    have hp' := List.mem_of_getElem? hpi
    simp only at hpi hp' ⊢
    rw [(hf' p hp').2 r]
    unfold misfit
    rw [(hps p hp').formulaM, List.map_map]
    congr 1
    exact List.map_congr_left (fun k hk => hterm p i hpi k hk)

/-! ## The hypotheses can be met -/

open FitCases SimCase in
/-- The hypotheses of `C94_merged_cost` are met: the formula with the data of two simulations, keys as in the documentation. -/
example (d : Disk) : ∃ z₁ z₂ fform fdat cost d', z₁.Reachable ∧ z₂.Reachable ∧
    mergeContainers Sympy.plain [.fform SimCase.wide, .fform SimCase.wide] (fun k i => .str (k ++ natStr i)) = .ok (.fform fform) ∧
    mergeContainers Sympy.plain [.fdata z₁, .fdata z₂] (fun k i => .str (k ++ natStr i)) = .ok (.fdata fdat) ∧
    genCostFunc Sympy.plain compiler d fform fdat (some [symB, symA]) false none = .ok (cost, d') := by
  let z : ℂ → FDataContainer := fun a => ⟨[(kPP, List.replicate 33 a)], 16, 1, .num 0⟩
  have hz : ∀ a, (z a).Reachable := fun a =>
    ⟨_, _, _, [], FDataContainer.init_items (d := [(kPP, List.replicate 33 a)]) (M := 16) .complex128 (Or.inr rfl)
      (by simp [Dict.WF, Dict.keys]) (by simp), rfl⟩
  have hfit : ∀ a : ℚ, Fittable Sympy.plain (SimCase.wide, z a) := by
    refine fun a => ⟨wide_reachable, hz a, rfl, rfl, wide_symbolic, ?_⟩
    intro k hk m h1 h2
    cases wide_key hk
    refine ⟨a, ⟨List.replicate 33 (a : ℂ), rfl, ⟨h1, h2⟩, ?_⟩, a, 0, by simp⟩
    have : (m + ((z a).getM : ℤ)).toNat < 33 := by
      show (m + 16).toNat < 33
      omega
    rw [List.getElem?_replicate, if_pos this]
  obtain ⟨fform, fdat, cost, d', _, h1, h2, h3, _⟩ := C94_merged_cost Sympy.plain compiler (ps := [(SimCase.wide, z (1 : ℚ)), (SimCase.wide, z (2 : ℚ))])
    (by simp) (by
      intro p hp
      simp only [List.mem_cons, List.not_mem_nil, or_false] at hp
      rcases hp with rfl | rfl
      · exact hfit 1
      · exact hfit 2)
    (fun k i => k ++ natStr i)
    (C34_numbered Sympy.plain (n := 2) (by
      intro c hc
      simp only [List.map_cons, List.map_nil, List.mem_cons, List.not_mem_nil, or_false, or_self] at hc
      subst hc; exact wide_reachable) (by
      intro c hc kv hkv
      simp only [List.map_cons, List.map_nil, List.mem_cons, List.not_mem_nil, or_false, or_self] at hc
      subst hc
      simp only [shown, SimCase.wide, List.map_cons, List.map_nil, List.mem_singleton] at hkv
      subst hkv; rfl))
    (C34_numbered Sympy.plain (n := 2) (by
      intro c hc
      simp only [List.map_cons, List.map_nil, List.mem_cons, List.not_mem_nil, or_false] at hc
      rcases hc with rfl | rfl
      · exact hz _
      · exact hz _) (by
      intro c hc kv hkv
      simp only [List.map_cons, List.map_nil, List.mem_cons, List.not_mem_nil, or_false] at hc
      rcases hc with rfl | rfl <;>
      · simp only [shown, z, List.map_cons, List.map_nil, List.mem_singleton] at hkv
        subst hkv; rfl))
    (l := [symB, symA]) (by decide) (by
      intro p hp s hs
      simp only [List.mem_cons, List.not_mem_nil, or_false] at hp
      rcases hp with rfl | rfl <;> rcases wide_occurs hs with rfl | rfl <;> simp) d false (by simp) none
  exact ⟨z (1 : ℚ), z (2 : ℚ), fform, fdat, cost, d', hz _, hz _, h1, h2, h3⟩

end Shgpy
