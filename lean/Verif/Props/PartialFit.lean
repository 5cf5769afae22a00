import Verif.Model.PartialFit
import Verif.Props.MergeFit
import Verif.Props.FFormFitCases

/-!
# Fitting some of the combinations (C102)
-/

set_option linter.unusedSectionVars false

namespace Shgpy
open Spec

variable (S : Sympy) (C : Compiler)

theorem partialFform_iterable {d : Dict Key FArr} (hd : Dict.WF d) (pcs : List Key) :
    d.foldl (fun (e : Dict Key FArr) kv => if kv.1 ∈ pcs then Dict.set e kv.1 kv.2 else e) [] = d.filter (fun kv => decide (kv.1 ∈ pcs)) := by
  have h : ∀ (l : List (Key × FArr)) (e : Dict Key FArr), l.foldl (fun (e : Dict Key FArr) kv => if kv.1 ∈ pcs then Dict.set e kv.1 kv.2 else e) e =
      (l.filter (fun kv => decide (kv.1 ∈ pcs))).foldl (fun e kv => Dict.set e kv.1 kv.2) e := by
    intro l
    induction l with
    | nil => intro e; rfl
    | cons kv l ih =>
      intro e
      by_cases hk : kv.1 ∈ pcs
      · rw [List.foldl_cons, if_pos hk, List.filter_cons_of_pos (by simpa using hk), List.foldl_cons, ih]
      · rw [List.foldl_cons, if_neg hk, List.filter_cons_of_neg (by simpa using hk), ih]
  rw [h, Dict.foldl_set_of_nodup]
  · rfl
  · have : ((d.filter (fun kv => decide (kv.1 ∈ pcs))).map Prod.fst).Nodup := List.Nodup.sublist (List.filter_sublist.map _) hd
    simpa using this

/-- C102.  The container made of the items of a formula for some combinations has these combinations, in the order of the formula,
with unchanged components. -/
theorem C102_selection {fform : FFormContainer} (hc : fform.Reachable S) (hs : Symbolic fform) (pcs : List Key) :
    ∃ sub, partialFform S fform pcs fform.getM = .ok sub ∧ sub.Reachable S ∧ sub.getM = fform.getM ∧
      sub.getKeys = fform.getKeys.filter (fun k => decide (k ∈ pcs)) ∧ ∀ k ∈ pcs, sub.getPc k = fform.getPc k := by
  have hwf := hc.good.wf
  have hg : (⟨fform.fform.filter (fun kv => decide (kv.1 ∈ pcs)), fform.M⟩ : FFormContainer).Good :=
    ⟨List.Nodup.sublist (List.filter_sublist.map _) hwf, fun it hit => hc.good.len it (List.mem_filter.1 hit).1⟩
  have hi : partialFform S fform pcs fform.getM = .ok ⟨fform.fform.filter (fun kv => decide (kv.1 ∈ pcs)), fform.M⟩ := by
    have h1 := FFormContainer.copy_ok S hg (fun it hit =>
      (FFormContainer.symbolic_iff hc.good).1 hs it (List.mem_filter.1 hit).1)
    unfold partialFform FFormContainer.getItems
    rw [partialFform_iterable hwf]
    exact h1
  refine ⟨_, hi, ⟨_, _, _, [], hi, rfl⟩, rfl, ?_, fun k hk => ?_⟩
  · simp only [FFormContainer.getKeys, Dict.keys, List.filter_map]
    rfl
  · unfold FFormContainer.getPc Dict.get
    have : ∀ d : Dict Key FArr, Dict.get? (d.filter (fun kv => decide (kv.1 ∈ pcs))) k = Dict.get? d k := by
      intro d
      induction d with
      | nil => rfl
      | cons kv d ih =>
        by_cases h : kv.1 ∈ pcs
        · rw [List.filter_cons_of_pos (by simpa using h)]
          show (if _ then _ else _) = if _ then _ else _
          rw [ih]
        · rw [List.filter_cons_of_neg (by simpa using h), ih]
          show _ = if _ then _ else _
          rw [if_neg (by rintro rfl; exact h hk)]
    rw [this]

/-- C102.  With another number of frequencies, such as the default when the formula has not `M = 16`, there is a `ValueError`. -/
theorem C102_other_M {fform : FFormContainer} (hc : fform.Reachable S) (pcs : List Key) (hk : ∃ k ∈ fform.getKeys, k ∈ pcs) {M : ℕ}
    (hM : M ≠ fform.getM) : partialFform S fform pcs M = .error .valueError := by
  obtain ⟨k, hk, hp⟩ := hk
  obtain ⟨kv, hkv, rfl⟩ := List.mem_map.1 hk
  unfold partialFform FFormContainer.getItems
  rw [partialFform_iterable hc.good.wf]
  unfold FFormContainer.init
  have hnd : (((fform.fform.filter (fun kv => decide (kv.1 ∈ pcs))).map (fun kv => (RawKey.str kv.1, kv.2.toRaw))).map Prod.fst).Nodup := by
    have h := List.Nodup.sublist (List.filter_sublist.map Prod.fst) hc.good.wf (l₁ := (fform.fform.filter (fun kv => decide (kv.1 ∈ pcs))).map Prod.fst)
    rw [List.map_map, show (Prod.fst ∘ fun kv : Key × FArr => (RawKey.str kv.1, kv.2.toRaw)) = RawKey.str ∘ Prod.fst from rfl, ← List.map_map]
    exact h.map (fun a b e => by cases e; rfl)
  dsimp only
  rw [Dict.ofPairs_of_nodup hnd]
  have hlen : ∀ it ∈ fform.fform.filter (fun kv => decide (kv.1 ∈ pcs)), checkFFVal M it.2.toRaw = none := by
    intro it hit
    have := hc.good.len it (List.mem_filter.1 hit).1
    cases h : it.2 with
    | obj v =>
      rw [h] at this
      have : v.length = 2 * fform.M + 1 := by simpa [FArr.objs] using this
      have hM' : M ≠ fform.M := hM
      simp only [FArr.toRaw, checkFFVal, List.length_map]
      rw [if_neg (by omega)]
    | native v => rfl
  have hne : fform.fform.filter (fun kv => decide (kv.1 ∈ pcs)) ≠ [] :=
    List.ne_nil_of_mem (List.mem_filter.2 ⟨hkv, by simpa using hp⟩)
  cases hl : fform.fform.filter (fun kv => decide (kv.1 ∈ pcs)) with
  | nil => exact absurd hl hne
  | cons a l =>
    rw [hl] at hlen
    simp only [List.map_cons, checkFFIterable, hlen a (by simp)]
    rfl

/-- C102.  The cost of the selected combinations depends on the data of these combinations only, and is the sum of their misfits. -/
theorem C102_cost (d : Disk) {fform sub : FFormContainer} (hc : fform.Reachable S) (hs : Symbolic fform) {pcs : List Key}
    (hsub : partialFform S fform pcs fform.getM = .ok sub) {fdat : FDataContainer} (hM : fdat.getM = fform.getM)
    {F : Key → ℤ → Valuation → ℂ} (hF : FormulaIs fform F) {D : Key → ℤ → ℂ}
    (hD : ∀ k ∈ fform.getKeys, k ∈ pcs → ∀ m : ℤ, -(fform.getM : ℤ) ≤ m → m ≤ fform.getM →
      DRepresents fdat k m (D k m) ∧ MachineNumber (D k m))
    {arguments : Option (List Sym)} {l : List Sym} (hl : ArgumentOrder S sub arguments l) (chunk : Bool)
    (hne : chunk = true → ∃ k ∈ fform.getKeys, k ∈ pcs) (save : Option Key) :
    ∃ f d', genCostFunc S C d sub fdat arguments chunk save = .ok (f, d') ∧
      ∀ r : Sym → ℝ, f (l.map r) = misfit (fform.getKeys.filter (fun k => decide (k ∈ pcs))) fform.getM F D r := by
  obtain ⟨sub', h1, h2, h3, h4, h5⟩ := C102_selection S hc hs pcs
  rw [hsub] at h1
  cases h1
  have hmem : ∀ k ∈ sub.getKeys, k ∈ fform.getKeys ∧ k ∈ pcs := by
    intro k hk
    rw [h4] at hk
    obtain ⟨g1, g2⟩ := List.mem_filter.1 hk
    exact ⟨g1, by simpa using g2⟩
  obtain ⟨f, d', g1, g2⟩ := C57_cost S C d h2 hl (hM.trans h3.symm) (F := F) (D := D) (by
      intro k hk m hm1 hm2
      rw [h3] at hm1 hm2
      obtain ⟨a, o, e1, e2, e3⟩ := hF k (hmem k hk).1 m hm1 hm2
      exact ⟨a, o, (h5 k (hmem k hk).2).trans e1, by rw [h3]; exact e2, e3⟩) (by
      intro k hk m hm1 hm2
      rw [h3] at hm1 hm2
      exact hD k (hmem k hk).1 (hmem k hk).2 m hm1 hm2) chunk (by
      intro hch
      obtain ⟨k, k1, k2⟩ := hne hch
      rw [h4]
      exact List.ne_nil_of_mem (List.mem_filter.2 ⟨k1, by simpa using k2⟩)) save
  refine ⟨f, d', g1, fun r => ?_⟩
  rw [g2 r, h4, h3]

/-- C102.  The cost of the whole formula is the cost of some of the combinations plus the cost of the others. -/
theorem C102_split (d : Disk) {fform sub rest : FFormContainer} (hc : fform.Reachable S) (hs : Symbolic fform) {pcs others : List Key}
    (ho : ∀ k ∈ fform.getKeys, k ∈ others ↔ k ∉ pcs) (hsub : partialFform S fform pcs fform.getM = .ok sub)
    (hrest : partialFform S fform others fform.getM = .ok rest) {fdat : FDataContainer} (hM : fdat.getM = fform.getM)
    {D : Key → ℤ → ℂ} (hD : DataIs fform fdat D) {l : List Sym} (hl : Lists fform l) :
    ∃ f g h d₁ d₂ d₃, genCostFunc S C d fform fdat (some l) false none = .ok (f, d₁) ∧
      genCostFunc S C d sub fdat (some l) false none = .ok (g, d₂) ∧
      genCostFunc S C d rest fdat (some l) false none = .ok (h, d₃) ∧
      ∀ x : List ℝ, x.length = l.length → f x = g x + h x := by
  obtain ⟨F, hF⟩ := formulaIs_exists S hc
  have hsubl : ∀ (ps : List Key) (c : FFormContainer), partialFform S fform ps fform.getM = .ok c → Lists c l := by
    intro ps c hcp
    obtain ⟨c', h1, h2, h3, h4, h5⟩ := C102_selection S hc hs ps
    rw [hcp] at h1
    cases h1
    refine ⟨hl.1, fun s hoc => hl.2 s ?_⟩
    obtain ⟨k, a, m, e, e1, e2, e3⟩ := hoc
    have hk : k ∈ c.getKeys := Dict.mem_keys.2 ⟨a, Dict.mem_of_get? (Dict.get_ok_iff.1 e1)⟩
    rw [h4] at hk
    have hk := (List.mem_filter.1 hk).2
    exact ⟨k, a, m, e, (h5 k (by simpa using hk)) ▸ e1, by rw [← h3]; exact e2, e3⟩
  obtain ⟨f, d₁, f1, f2⟩ := C57_cost S C d hc (Or.inl ⟨rfl, hl⟩) hM hF hD false (by simp) none
  obtain ⟨g, d₂, g1, g2⟩ := C102_cost S C d hc hs hsub hM hF (fun k hk _ => hD k hk) (Or.inl ⟨rfl, hsubl _ _ hsub⟩) false (by simp) none
  obtain ⟨h, d₃, h1, h2⟩ := C102_cost S C d hc hs hrest hM hF (fun k hk _ => hD k hk) (Or.inl ⟨rfl, hsubl _ _ hrest⟩) false (by simp) none
  refine ⟨f, g, h, d₁, d₂, d₃, f1, g1, h1, fun x hx => ?_⟩
  obtain ⟨r, rfl⟩ := exists_map_eq hl.1 hx
  rw [f2, g2, h2]
  unfold misfit
  generalize hq : (fun k => ∑ m ∈ Finset.Icc (-(fform.getM : ℤ)) fform.getM, ‖F k m (realVal r) - D k m‖ ^ 2) = q
  have : ∀ keys : List Key, (∀ k ∈ keys, k ∈ others ↔ k ∉ pcs) →
      (keys.map q).sum = ((keys.filter (fun k => decide (k ∈ pcs))).map q).sum + ((keys.filter (fun k => decide (k ∈ others))).map q).sum := by
    intro keys
    induction keys with
    | nil => simp
    | cons k keys ih =>
      intro hk
      have ih := ih (fun k' hk' => hk k' (by simp [hk']))
      have h0 := hk k (by simp)
      by_cases hp : k ∈ pcs
      · rw [List.filter_cons_of_pos (by simpa using hp), List.filter_cons_of_neg (by simpa using fun h => (h0.1 h) hp)]
        simp only [List.map_cons, List.sum_cons, ih]
        ring
      · rw [List.filter_cons_of_neg (by simpa using hp), List.filter_cons_of_pos (by simpa using h0.2 hp)]
        simp only [List.map_cons, List.sum_cons, ih]
        ring
  exact this _ ho

/-- A formula with two combinations, of which one is selected. -/
example : ∃ sub, partialFform Sympy.plain ⟨[(kPP, .obj [.sym FitCases.symB, .sym FitCases.symA, .sym FitCases.symB]),
      (kPS, .obj [.num 1, .sym FitCases.symA, .num 1])], 1⟩ [kPS] 1 = .ok sub ∧ sub.getKeys = [kPS] := by
  obtain ⟨sub, h1, _, _, h4, _⟩ := C102_selection Sympy.plain (fform := ⟨[(kPP, .obj [.sym FitCases.symB, .sym FitCases.symA, .sym FitCases.symB]),
      (kPS, .obj [.num 1, .sym FitCases.symA, .num 1])], 1⟩)
    ⟨[(.str kPP, .objArr [.sy (.sym FitCases.symB), .sy (.sym FitCases.symA), .sy (.sym FitCases.symB)]),
      (.str kPS, .objArr [.sy (.num 1), .sy (.sym FitCases.symA), .sy (.num 1)])], 1, _, [], rfl, rfl⟩ (by
      intro k a h
      have := Dict.mem_of_get? (Dict.get_ok_iff.1 h)
      simp only [List.mem_cons, Prod.mk.injEq, List.not_mem_nil, or_false] at this
      rcases this with ⟨_, rfl⟩ | ⟨_, rfl⟩ <;> rfl) [kPS]
  exact ⟨sub, h1, by rw [h4]; rfl⟩

open FitCases in
/-- The hypotheses of `C102_cost` and `C102_split` are met. -/
example : ∃ sub f d', partialFform Sympy.plain formula [kPP] 1 = .ok sub ∧
    genCostFunc Sympy.plain compiler noFiles sub data (some [symA, symB]) false none = .ok (f, d') ∧ f [2, 1] = 0 := by
  have hs : Symbolic formula := by
    intro k a h
    have := Dict.mem_of_get? (Dict.get_ok_iff.1 h)
    simp only [formula, List.mem_cons, Prod.mk.injEq, List.not_mem_nil, or_false] at this
    rcases this with ⟨_, rfl⟩; rfl
  have hl : Lists formula [symA, symB] := by
    obtain ⟨l, e1, e2, _, e4⟩ := (C31_fform_free_symbols Sympy.plain formula_reachable).1 hs
    rw [free_symbols] at e1
    cases e1
    exact ⟨e2, fun s h => (e4 s).2 h⟩
  obtain ⟨sub, h1, h2, h3, h4, h5⟩ := C102_selection Sympy.plain formula_reachable hs [kPP]
  obtain ⟨rest, g1, _⟩ := C102_selection Sympy.plain formula_reachable hs [kPS]
  obtain ⟨f, g, h, d₁, d₂, d₃, f1, f2, f3, f4⟩ := C102_split Sympy.plain compiler noFiles formula_reachable hs (pcs := [kPP]) (others := [kPS])
    (by decide) h1 g1 (fdat := data) rfl dataIs hl
  obtain ⟨f', d', e1, e2⟩ := C102_cost Sympy.plain compiler noFiles formula_reachable hs h1 (fdat := data) rfl formulaIs
    (fun k hk _ => dataIs k hk) (arguments := some [symA, symB]) (l := [symA, symB]) (Or.inl ⟨rfl, hl.1, fun s hs => hl.2 s (by
      obtain ⟨k, a, m, e, i1, i2, i3⟩ := hs
      have hk : k ∈ sub.getKeys := Dict.mem_keys.2 ⟨a, Dict.mem_of_get? (Dict.get_ok_iff.1 i1)⟩
      rw [h4] at hk
      have hk := (List.mem_filter.1 hk).2
      exact ⟨k, a, m, e, (h5 k (by simpa using hk)) ▸ i1, by rw [← h3]; exact i2, i3⟩)⟩) false (by simp) none
  refine ⟨sub, f', d', h1, e1, ?_⟩
  have := e2 (fun s => if s = symA then 2 else 1)
  rw [show [symA, symB].map (fun s => if s = symA then (2 : ℝ) else 1) = [2, 1] by simp [symA, symB]] at this
  rw [this, (C57_zero_iff _ _ _ _ _).2]
  intro k _ m _ _
  by_cases hm : m = 0 <;> simp [F, D, realVal, hm, symA, symB]

end Shgpy
