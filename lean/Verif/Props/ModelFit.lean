import Verif.Model.ModelFit
import Verif.Props.FitOrientation
import Verif.Props.Pandas

/-!
# Fitting with a model function (C101)
-/

set_option linter.unusedSectionVars false

namespace Shgpy
open Spec

variable (S : Sympy) (C : Compiler)

theorem foldlM_sum {α : Type} {step : ℝ → α → Except Err ℝ} {g : α → ℝ} {l : List α} (h : ∀ t, ∀ a ∈ l, step t a = .ok (t + g a)) (t : ℝ) :
    l.foldlM step t = .ok (t + (l.map g).sum) := by
  induction l generalizing t with
  | nil => simp; rfl
  | cons a l ih =>
    rw [List.foldlM_cons, h t a (by simp), ok_bind, ih (fun t b hb => h t b (by simp [hb])), List.map_cons, List.sum_cons, add_assoc]

theorem sum_by_key {α : Type} {keys : List Key} (hnd : keys.Nodup) (key : α → Key) (g : α → ℝ) {rows : List α}
    (h : ∀ r ∈ rows, key r ∈ keys) :
    (rows.map g).sum = (keys.map (fun k => ((rows.filter (fun r => key r = k)).map g).sum)).sum := by
  induction rows with
  | nil => simp
  | cons r rows ih =>
    rw [List.map_cons, List.sum_cons, ih (fun r' hr' => h r' (by simp [hr']))]
    have hk := h r (by simp)
    have : ∀ k, (((r :: rows).filter (fun r => key r = k)).map g).sum =
        (if key r = k then g r else 0) + ((rows.filter (fun r => key r = k)).map g).sum := by
      intro k
      rw [List.filter_cons]
      by_cases e : key r = k <;> simp [e]
    simp only [this, List.sum_map_add]
    congr 1
    have hcount : ∀ keys : List Key, (keys.map (fun k => if key r = k then g r else 0)).sum = keys.count (key r) * g r := by
      intro keys
      induction keys with
      | nil => simp
      | cons k keys ih =>
        rw [List.map_cons, List.sum_cons, ih, List.count_cons]
        by_cases e : key r = k
        · simp [e]; ring
        · rw [if_neg e, if_neg (by simpa using fun h => e h.symm)]; simp
    rw [hcount, List.count_eq_one_of_mem hnd hk]
    simp

/-- The rows of the frame of Fourier data: the sum over the rows is the sum over combinations and orders. -/
theorem sum_rows {fdat : FDataContainer} (hd : fdat.Reachable) {rows : List ((Key × ℤ) × ℂ)}
    (ht : Tabulates fdat.getKeys (fun k => (fdat.getPc k).map (fun v => (orders fdat.getM).zip v)) rows) {D : Key → ℤ → ℂ}
    (hD : ∀ k ∈ fdat.getKeys, ∀ m : ℤ, -(fdat.getM : ℤ) ≤ m → m ≤ fdat.getM → DRepresents fdat k m (D k m)) (g : Key → ℤ → ℂ → ℝ) :
    (∀ row ∈ rows, row.1.1 ∈ fdat.getKeys ∧ -(fdat.getM : ℤ) ≤ row.1.2 ∧ row.1.2 ≤ fdat.getM) ∧
    (rows.map (fun row => g row.1.1 row.1.2 row.2)).sum =
      (fdat.getKeys.map (fun k => ∑ m ∈ Finset.Icc (-(fdat.getM : ℤ)) fdat.getM, g k m (D k m))).sum := by
  have hk : ∀ k ∈ fdat.getKeys, (rows.filter (fun r => r.1.1 = k)).map (fun r => (r.1.2, r.2)) = (orders fdat.getM).map (fun m => (m, D k m)) := by
    intro k hk
    have h1 := ht.2 k hk
    obtain ⟨v, hv, -, -⟩ := hD k hk 0 (by omega) (by omega)
    simp only [hv] at h1
    have h2 : (orders fdat.getM).zip v = (rows.filter (fun r => r.1.1 = k)).map (fun r => (r.1.2, r.2)) := Except.ok.inj h1
    rw [← h2]
    have hlen : v.length = 2 * fdat.getM + 1 := by
      have := hd.good.len (k, v) (Dict.mem_of_get? (Dict.get_ok_iff.1 hv))
      exact this
    refine List.ext_getElem? (fun i => ?_)
    by_cases hi : i < 2 * fdat.getM + 1
    · obtain ⟨v', hv', -, hc⟩ := hD k hk ((i : ℤ) - fdat.getM) (by omega) (by omega)
      rw [hv] at hv'
      cases hv'
      rw [show ((i : ℤ) - fdat.getM + fdat.getM).toNat = i by omega] at hc
      have ho : (orders fdat.getM)[i]? = some ((i : ℤ) - fdat.getM) := by simp [orders, hi]
      rw [List.getElem?_zip_eq_some (z := ((i : ℤ) - fdat.getM, D k ((i : ℤ) - fdat.getM))).2 ⟨ho, hc⟩, List.getElem?_map, ho]
      rfl
    · rw [List.getElem?_eq_none (by simp [orders]; omega), List.getElem?_eq_none (by simp [orders]; omega)]
  constructor
  · intro row hrow
    refine ⟨ht.1 row hrow, ?_⟩
    have : (row.1.2, row.2) ∈ (rows.filter (fun r => r.1.1 = row.1.1)).map (fun r => (r.1.2, r.2)) :=
      List.mem_map.2 ⟨row, List.mem_filter.2 ⟨hrow, by simp⟩, rfl⟩
    rw [hk _ (ht.1 row hrow)] at this
    obtain ⟨m, hm, he⟩ := List.mem_map.1 this
    rw [← (Prod.mk.inj he).1]
    obtain ⟨i, hi, rfl⟩ := List.mem_map.1 hm
    rw [List.mem_range] at hi
    omega
  · rw [sum_by_key hd.good.wf (fun row : (Key × ℤ) × ℂ => row.1.1) (fun row => g row.1.1 row.1.2 row.2) ht.1]
    congr 1
    refine List.map_congr_left (fun k hk' => ?_)
    have e : (rows.filter (fun r => r.1.1 = k)).map (fun row => g row.1.1 row.1.2 row.2) =
        ((rows.filter (fun r => r.1.1 = k)).map (fun r => (r.1.2, r.2))).map (fun p => g k p.1 p.2) := by
      rw [List.map_map]
      refine List.map_congr_left (fun row hrow => ?_)
      have := (List.mem_filter.1 hrow).2
      simp only [decide_eq_true_eq] at this
      rw [this]
      rfl
    rw [e, hk k hk', List.map_map]
    exact sum_freqs_Icc _ (fun m => g k m (D k m))

/-- C101.  A model function is generated in a folder and loaded again, and a cost is assembled from it and from the frame of the Fourier
data, with the turn by `ψ` applied to the components; the parameter `ψ` may stand behind the others in the array.  At all values of the
parameters this cost is the generated cost of the formula that is phase shifted by an expression `a` with the value `-ψ`. -/
theorem C101_model_fit (L : Listing) (d d₀ : Disk) {fform : FFormContainer} (hc : fform.Reachable S) (hreal : RealSymbols fform)
    (hplain : ∀ k ∈ fform.getKeys, PlainName k) {l : List Sym} (hl : fform.getFreeSymbols S = .ok l)
    {fdat : FDataContainer} (hd : fdat.Reachable) (hM : fdat.getM = fform.getM)
    (hkeys : ∀ k, k ∈ fdat.getKeys ↔ k ∈ fform.getKeys)
    {F : Key → ℤ → Valuation → ℂ} {D : Key → ℤ → ℂ} (hF : FormulaIs fform F) (hD : DataIs fform fdat D)
    (folder : Key) (hfresh : ∀ name, folder ++ '/' :: name ∉ Dict.keys d.loaded) {n : ℤ} (hn : 0 < n)
    (a : Expr) {arguments : Option (List Sym)} {l' : List Sym}
    (hl' : ArgumentOrder S (FFormContainer.step S fform (.phaseShift a)).1 arguments l') (save : Option Key) :
    ∃ f d' g d'' rows c d₁, genModelFunc S C d fform folder n = .ok (f, d') ∧ loadModelFunc L d' fform folder = .ok (g, d'') ∧
      fdat.asPandas sMulti = .ok rows ∧
      genCostFunc S C d₀ (FFormContainer.step S fform (.phaseShift a)).1 fdat arguments false save = .ok (c, d₁) ∧
      ∀ (r : Sym → ℝ) (ψ : ℝ) (extra : List ℝ), a.eval (realVal r) = -(ψ : ℂ) →
        modelCost f rows (l.map r ++ extra) ψ = .ok (c (l'.map r)) ∧ modelCost g rows (l.map r ++ extra) ψ = .ok (c (l'.map r)) := by
  obtain ⟨f, d', g, d'', h1, h2, h3, h4⟩ := C58_loaded_model_partial S C L d hc hreal hplain hl hF folder hfresh hn
  obtain ⟨rows, h5, h6⟩ := (C74_fdata hd).1 (Or.inl (rfl : sMulti = sMulti))
  obtain ⟨h7, c, d₁, h8, h9⟩ := C95_orientation S C d₀ hc hd a hl' hM hF hD false (by simp) save
  refine ⟨f, d', g, d'', rows, c, d₁, h1, h2, h5, h8, fun r ψ extra ha => ?_⟩
  obtain ⟨D', h10, h11⟩ := h9 r (-ψ) (by rw [ha]; push_cast; rfl)
  have hDd : ∀ k ∈ fdat.getKeys, ∀ m : ℤ, -(fdat.getM : ℤ) ≤ m → m ≤ fdat.getM → DRepresents fdat k m (D k m) := by
    intro k hk m hm1 hm2
    rw [hM] at hm1 hm2
    exact (hD k ((hkeys k).1 hk) m hm1 hm2).1
  obtain ⟨hrows, hsum⟩ := sum_rows hd h6 hDd
    (fun k m z => ‖F k m (realVal r) * Complex.exp (-(Complex.I * m * ψ)) - z‖ ^ 2)
  have hcost : ∀ f : List ℝ → Key → ℤ → Except Err ℂ, (∀ k ∈ fform.getKeys, ∀ m : ℤ, -(fform.getM : ℤ) ≤ m → m ≤ fform.getM →
      f (l.map r ++ extra) k m = .ok (F k m (realVal r))) → modelCost f rows (l.map r ++ extra) ψ = .ok (c (l'.map r)) := by
    intro f hf
    have : modelCost f rows (l.map r ++ extra) ψ = _ := foldlM_sum (l := rows)
      (g := fun row => ‖F row.1.1 row.1.2 (realVal r) * Complex.exp (-(Complex.I * row.1.2 * ψ)) - row.2‖ ^ 2) (by
        intro t row hrow
        obtain ⟨k1, k2, k3⟩ := hrows row hrow
        rw [hM] at k2 k3
        unfold turnedModel
        rw [hf _ ((hkeys _).1 k1) _ k2 k3, ok_bind, ← Complex.normSq_eq_norm_sq, ← Complex.ofReal_re (Complex.normSq _), ← Complex.mul_conj]
        rfl) 0
    rw [zero_add, hsum] at this
    rw [this, h11]
    congr 1
    unfold misfit
    have hperm : fdat.getKeys.Perm fform.getKeys :=
      (List.perm_ext_iff_of_nodup hd.good.wf hc.good.wf).2 hkeys
    rw [(hperm.map _).sum_eq, hM]
    congr 1
    refine List.map_congr_left (fun k hk => Finset.sum_congr rfl (fun m hm => ?_))
    obtain ⟨hm1, hm2⟩ := Finset.mem_Icc.1 hm
    obtain ⟨v, e1, e2⟩ := h10 k hk m hm1 hm2
    have e3 := dRepresents_shifted hd (-(-ψ)) (u := sRadians) (Or.inl rfl) (hD k hk m hm1 hm2).1
    obtain ⟨v', e4, e5⟩ := e3
    rw [e1] at e4
    cases e4
    have e6 : D' k m = D k m * Complex.exp (Complex.I * (m * rad (lower sRadians) (-(-ψ)))) := by
      have := e2.2.symm.trans e5.2
      exact Option.some.inj this
    have e7 : rad (lower sRadians) (-(-ψ)) = ψ := by
      have : lower sRadians = sRadians := rfl
      rw [this]; simp [rad, sRadians, sDegrees]
    rw [e6, e7]
    have hunit : ‖Complex.exp (-(Complex.I * m * ψ))‖ = 1 := by
      rw [show -(Complex.I * m * (ψ : ℂ)) = ((-(m * ψ) : ℝ) : ℂ) * Complex.I by push_cast; ring]
      exact Complex.norm_exp_ofReal_mul_I _
    have hinv : Complex.exp (Complex.I * (m * (ψ : ℂ))) * Complex.exp (-(Complex.I * m * ψ)) = 1 := by
      rw [← Complex.exp_add, show Complex.I * (m * (ψ : ℂ)) + -(Complex.I * m * ψ) = 0 by ring, Complex.exp_zero]
    have : F k m (realVal r) * Complex.exp (-(Complex.I * m * ψ)) - D k m =
        (F k m (realVal r) - D k m * Complex.exp (Complex.I * (m * (ψ : ℂ)))) * Complex.exp (-(Complex.I * m * ψ)) := by
      rw [sub_mul, mul_assoc (D k m), hinv, mul_one]
    rw [this, norm_mul, hunit, mul_one]
  have hx : l.length ≤ (l.map r ++ extra).length := by simp
  refine ⟨hcost f (fun k hk m hm1 hm2 => ?_), hcost g (fun k hk m hm1 hm2 => h3 k hk m hm1 hm2 r extra)⟩
  rw [← h4 _ k m hx]
  exact h3 k hk m hm1 hm2 r extra

open FitCases in
/-- The hypotheses are met with a new parameter `p` and the shift `-p`. -/
example (L : Listing) : ∃ f d' rows, ∃ l' : List Sym, ∃ c d₁, genModelFunc Sympy.plain compiler noFiles formula ['m'] 10 = .ok (f, d') ∧
    data.asPandas sMulti = .ok rows ∧
    genCostFunc Sympy.plain compiler noFiles (FFormContainer.step Sympy.plain formula (.phaseShift (.mul [.num (-1), .sym ⟨['p'], 1⟩]))).1 data
      none false none = .ok (c, d₁) ∧
    ∀ r : Sym → ℝ, modelCost f rows [r symA, r symB, r ⟨['p'], 1⟩] (r ⟨['p'], 1⟩) = .ok (c (l'.map r)) := by
  have hr := shifted_reachable Sympy.plain formula_reachable (.mul [.num (-1), .sym ⟨['p'], 1⟩])
  obtain ⟨l', hl', _⟩ := (C31_fform_free_symbols Sympy.plain hr).1 (by
    rw [FFormContainer.symbolic_iff hr.good]
    intro it hit
    have e : (FFormContainer.step Sympy.plain formula (.phaseShift (.mul [.num (-1), .sym ⟨['p'], 1⟩]))).1 =
        ({ formula with fform := formula.fform.mapVals (FFormContainer.shiftF Sympy.plain formula.M (.mul [.num (-1), .sym ⟨['p'], 1⟩])) }) := by
      rw [FFormContainer.step_shift Sympy.plain formula_reachable.good]
    rw [e] at hit
    simp only [formula, Dict.mapVals, List.map_cons, List.map_nil, List.mem_singleton] at hit
    subst hit; rfl)
  obtain ⟨f, d', g, d'', rows, c, d₁, h1, _, h3, h4, h5⟩ := C101_model_fit Sympy.plain compiler L noFiles noFiles formula_reachable
    real_symbols plain_kPP free_symbols data_reachable rfl (fun k => Iff.rfl) formulaIs dataIs ['m']
    (fun _ => by simp [noFiles, Dict.keys]) (n := 10) (by norm_num) (.mul [.num (-1), .sym ⟨['p'], 1⟩]) (arguments := none)
    (Or.inr ⟨rfl, hl'⟩) none
  refine ⟨f, d', rows, l', c, d₁, h1, h3, h4, fun r => ?_⟩
  exact (h5 r (r ⟨['p'], 1⟩) [r ⟨['p'], 1⟩] (by simp [Expr.eval, Expr.evalProd, realVal])).1

end Shgpy
