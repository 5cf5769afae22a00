import Verif.Spec.LookExample
import Verif.Props.Plotter
import Verif.Props.Pandas
import Verif.Props.DataOps
import Verif.Props.ModelExample

/-!
# What the scripts that show data and formulas show: C119
-/

namespace Shgpy
open Spec

theorem loadData_reachable {float : Key → Option ℝ} {csv : CsvFiles} {names : Dict Key Key} {units : Key} {n2o : Bool} {dat : DataContainer ℝ}
    (h : loadData float csv names units n2o = .ok dat) : dat.Reachable := by
  unfold loadData at h
  obtain ⟨v, _, h⟩ := bind_ok h
  obtain ⟨⟨c, w⟩, h1, h⟩ := bind_ok h
  cases h
  exact ⟨_, _, _, _, _, [], h1, rfl⟩

/-- The data after the two calls of `data_plot_example.py`. -/
noncomputable def plottedData (dat : DataContainer ℝ) : DataContainer ℝ :=
  (DataContainer.step (DataContainer.step dat (.scale 100)).1 (.phaseShift (Real.pi / 2) sRadians)).1

theorem plotted_steps (dat : DataContainer ℝ) :
    ∃ c, dataStatement dat (.scale 100) = .ok c ∧ dataStatement c (.phaseShift (Real.pi / 2) sRadians) = .ok (plottedData dat) ∧
      (plottedData dat).data = (dat.data.mapVals (scalePts 100)).mapVals (shiftPts (Real.pi / 2)) := by
  have h1 : dat.scaleData 100 = .ok { dat with data := dat.data.mapVals (scalePts 100), scale := dat.scale * 100 } :=
    scaleData_ok.2 ⟨by norm_num, rfl⟩
  have h2 : ∀ c : DataContainer ℝ, c.phaseShiftData (Real.pi / 2) sRadians =
      .ok { c with data := c.data.mapVals (shiftPts (Real.pi / 2)), phaseShift := c.phaseShift + Real.pi / 2 } :=
    fun c => phaseShiftData_of_angleOf rfl
  unfold plottedData dataStatement
  refine ⟨(DataContainer.step dat (.scale 100)).1, ?_, ?_, ?_⟩
  · rw [step_scale, h1]
  · rw [step_phaseShift, h2]
  · rw [step_phaseShift, h2, step_scale, h1]

theorem plotted_reachable {dat : DataContainer ℝ} (h : dat.Reachable) : (plottedData dat).Reachable :=
  reachable_step (reachable_step h _) _

theorem plotted_keys (dat : DataContainer ℝ) : (plottedData dat).getKeys = dat.getKeys := by
  obtain ⟨_, _, _, h⟩ := plotted_steps dat
  unfold DataContainer.getKeys
  rw [h]
  simp

theorem plotted_get {dat : DataContainer ℝ} {k : Key} {pts : List (ℝ × ℝ)} :
    (plottedData dat).getPc k sRadians = .ok pts ↔
      ∃ pts₀, dat.getPc k sRadians = .ok pts₀ ∧ pts = shiftPts (Real.pi / 2) (scalePts 100 pts₀) := by
  obtain ⟨_, _, _, h⟩ := plotted_steps dat
  rw [getPc_radians, h, Dict.get_ok_iff, Dict.get?_mapVals, Dict.get?_mapVals]
  constructor
  · intro h
    rw [Option.map_eq_some_iff] at h
    obtain ⟨a, ha, rfl⟩ := h
    rw [Option.map_eq_some_iff] at ha
    obtain ⟨b, hb, rfl⟩ := ha
    exact ⟨b, by rw [getPc_radians, Dict.get_ok_iff]; exact hb, rfl⟩
  · rintro ⟨p, hp, rfl⟩
    rw [getPc_radians, Dict.get_ok_iff] at hp
    rw [hp]; rfl

theorem plotted_turned {dat : DataContainer ℝ} (hd : dat.Reachable) {k : Key} {pts : List (ℝ × ℝ)}
    (h : (plottedData dat).getPc k sRadians = .ok pts) : ScaledAndTurned dat k pts := by
  refine ⟨?_, ?_⟩
  · rw [getPc_radians, Dict.get_ok_iff] at h
    exact (reachable_normalForm (plotted_reachable hd)).2 _ (Dict.mem_of_get? h)
  · obtain ⟨p, hp, rfl⟩ := plotted_get.1 h
    refine ⟨p, hp, ?_⟩
    have h1 := MatchedD.trans (a := 0) (b := Real.pi / 2) (s := (100 : ℝ)) (t := 1) (d := [(([] : Key), p)])
      (d' := [(([] : Key), scalePts 100 p)]) (d'' := [(([] : Key), shiftPts (Real.pi / 2) (scalePts 100 p))])
      (.cons ⟨rfl, matched_scalePts _ _⟩ .nil) (.cons ⟨rfl, matched_shiftPts _ _⟩ .nil)
    rw [zero_add, mul_one] at h1
    cases h1 with
    | cons h _ => exact h.2

theorem draws_of_shows {P : Type} {dat : DataContainer ℝ} {p : P} {pcs : List Key} {fig : Plot ℝ P} {content : Key → List (ℝ × ℝ) → Prop}
    (hc : ∀ k pts, dat.getPc k sRadians = .ok pts → content k pts)
    (h : List.Forall₂ (Shows [dat] [p] false) pcs fig.grid.flatten) (h1 : fig.saved = none) (h2 : fig.shown = true) :
    Draws content p pcs fig := by
  refine ⟨h2, h1, h.imp ?_⟩
  rintro pc c ⟨s1, s2, s3⟩
  refine ⟨s1, s2, ?_⟩
  obtain ⟨v, hv, hcv⟩ : ∃ v, c.curves = [v] ∧ dat.getPc pc sRadians = .ok v.1 ∧ v.2 = p := by
    generalize c.curves = cs at s3
    cases s3 with
    | cons h t => cases t; exact ⟨_, rfl, h⟩
  obtain ⟨pts, q⟩ := v
  obtain ⟨a, rfl⟩ := hcv
  exact ⟨pts, hv, hc _ _ a⟩

/-- **C119, figures.**  `data_plot_example.py`, for any data files that load and two to four combinations of the data: the script succeeds;
the first figure shows the data, the second and the third one (in polar coordinates) the data scaled by 100 and turned by a quarter of a
turn, and every plot of the third one has a single tick of the radius, at 100 times the largest value of the data. -/
theorem C119_figures {P : Type} {float : Key → Option ℝ} {csv : CsvFiles} {names : Dict Key Key} {units : Key} {dat : DataContainer ℝ}
    (hdat : loadData float csv names units false = .ok dat) (p : P) {pcs : List Key} (hp : ∀ pc ∈ pcs, pc ∈ dat.getKeys)
    (h2 : 2 ≤ pcs.length) (h4 : pcs.length ≤ 4) :
    ∃ fig₁ fig₂ fig₃, plotExample float csv names units p pcs = .ok (fig₁, fig₂, fig₃) ∧
      Draws (Measured dat) p pcs fig₁ ∧ Draws (ScaledAndTurned dat) p pcs fig₂ ∧ Draws (ScaledAndTurned dat) p pcs fig₃ ∧
      (∀ fig ∈ [fig₁, fig₂], fig.grid.map List.length = if pcs.length = 4 then [2, 2] else [pcs.length]) ∧
      fig₃.grid.map List.length = [pcs.length] ∧
      ∃ x, LargestValue [dat] (some x) ∧ ∀ c ∈ fig₃.grid.flatten, c.rtick = some (some (100 * x)) := by
  have hd := loadData_reachable hdat
  have hd' := plotted_reachable hd
  obtain ⟨c, s1, s2, _⟩ := plotted_steps dat
  have hp' : ∀ pc ∈ pcs, pc ∈ (plottedData dat).getKeys := fun pc h => by rw [plotted_keys]; exact hp pc h
  rcases easyPlot_cases [dat] [p] pcs true false none none none (by omega) h4 with ⟨f1, a1, _, a2, a3, _, a4, a5⟩ | ⟨_, pc, hpc, dp, hdp, hn⟩
  swap
  · simp only [List.zip_cons_cons, List.zip_nil_right, List.mem_singleton] at hdp
    subst hdp; exact absurd (hp pc hpc) hn
  rcases easyPlot_cases [plottedData dat] [p] pcs true false none none none (by omega) h4 with
    ⟨f2, b1, _, b2, b3, _, b4, b5⟩ | ⟨_, pc, hpc, dp, hdp, hn⟩
  swap
  · simp only [List.zip_cons_cons, List.zip_nil_right, List.mem_singleton] at hdp
    subst hdp; exact absurd (hp' pc hpc) hn
  rcases easyPolarPlot_cases [plottedData dat] (by simpa using hd') [p] pcs true false none h2 with
    ⟨f3, m, c1, _, _, c2, c3, c4, c5, c6⟩ | ⟨_, pc, hpc, dp, hdp, hn⟩ | ⟨_, h⟩
  rotate_left
  · simp only [List.zip_cons_cons, List.zip_nil_right, List.mem_singleton] at hdp
    subst hdp; exact absurd (hp' pc hpc) hn
  · cases h
  refine ⟨f1, f2, f3, ?_, draws_of_shows (fun _ _ h => h) a3 a4 a5, draws_of_shows (fun _ _ h => plotted_turned hd h) b3 b4 b5,
    draws_of_shows (fun _ _ h => plotted_turned hd h) (c3.imp fun _ _ h => h.1) c5 c6, ?_, c2, ?_⟩
  · unfold plotExample
    rw [hdat, ok_bind, a1, ok_bind, s1, ok_bind, s2, ok_bind, b1, ok_bind, c1, ok_bind]
    rfl
  · intro fig hfig
    simp only [List.mem_cons, List.not_mem_nil, or_false] at hfig
    rcases hfig with rfl | rfl
    · exact a2
    · exact b2
  · -- the largest value
    obtain ⟨pc, hpc⟩ : ∃ pc, pc ∈ pcs := List.exists_mem_of_length_pos (by omega)
    obtain ⟨v, hv⟩ := Dict.mem_keys.1 (hp' pc hpc)
    have hg : (plottedData dat).getPc pc sRadians = .ok v := by
      rw [getPc_radians, Dict.get_ok_iff, Dict.get?_eq_some_iff (reachable_normalForm hd').1]; exact hv
    obtain ⟨q, hq⟩ := List.exists_mem_of_ne_nil _ ((reachable_normalForm hd').2 _ hv).1
    obtain ⟨x, rfl, _⟩ := c4.1 _ (List.mem_singleton.2 rfl) pc v hg q hq
    have hmem : ∀ (pts₀ : List (ℝ × ℝ)) (a : ℝ), (∃ r ∈ shiftPts (Real.pi / 2) (scalePts 100 pts₀), r.2 = a) ↔ ∃ r ∈ pts₀, 100 * r.2 = a := by
      intro pts₀ a
      unfold shiftPts scalePts
      simp only [(sortPts_perm _).mem_iff, List.mem_map, List.map_map]
      constructor
      · rintro ⟨r, ⟨s, hs, rfl⟩, h⟩
        exact ⟨s, hs, h⟩
      · rintro ⟨s, hs, h⟩
        exact ⟨_, ⟨s, hs, rfl⟩, h⟩
    refine ⟨x / 100, ⟨?_, ?_⟩, ?_⟩
    · intro d hdd k pts hpts r hr
      rw [List.mem_singleton] at hdd
      subst hdd
      refine ⟨_, rfl, ?_⟩
      obtain ⟨s, hs, hs2⟩ := (hmem pts (100 * r.2)).2 ⟨r, hr, rfl⟩
      obtain ⟨x', hx', hle⟩ := c4.1 _ (List.mem_singleton.2 rfl) k _ (plotted_get.2 ⟨pts, hpts, rfl⟩) s hs
      cases hx'
      rw [hs2] at hle
      rw [le_div_iff₀ (by norm_num)]
      linarith
    · rintro _ ⟨⟩
      obtain ⟨d, hdd, k, pts, hpts, s, hs, hs2⟩ := c4.2 x rfl
      rw [List.mem_singleton] at hdd
      subst hdd
      obtain ⟨pts₀, h0, rfl⟩ := plotted_get.1 hpts
      obtain ⟨r, hr, hr2⟩ := (hmem pts₀ x).1 ⟨s, hs, hs2⟩
      exact ⟨dat, List.mem_singleton.2 rfl, k, pts₀, h0, r, hr, by rw [← hr2]; ring⟩
    · intro cell hcell
      obtain ⟨i, hi, rfl⟩ := List.getElem_of_mem hcell
      have := ((List.forall₂_iff_get.1 c3).2 i (by have := c3.length_eq; omega) hi).2
      rw [List.get_eq_getElem] at this
      rw [this]
      congr 2
      ring

/-- **C119, exceptions.**  `data_plot_example.py` fails exactly if the files do not load; or if there are more than four combinations or none
(`ValueError`), a combination that is not in the data (`KeyError`), or only one (`AttributeError`, for the polar figure). -/
theorem C119_figures_errors {P : Type} {float : Key → Option ℝ} {csv : CsvFiles} {names : Dict Key Key} {units : Key} (p : P) (pcs : List Key)
    (e : Err) : plotExample float csv names units p pcs = .error e ↔
      loadData float csv names units false = .error e ∨
      ∃ dat, loadData float csv names units false = .ok dat ∧
        ((4 < pcs.length ∧ e = .valueError) ∨ (pcs.length ≤ 4 ∧ (∃ pc ∈ pcs, pc ∉ dat.getKeys) ∧ e = .keyError) ∨
          (pcs = [] ∧ e = .valueError) ∨ (pcs.length = 1 ∧ (∀ pc ∈ pcs, pc ∈ dat.getKeys) ∧ e = .attributeError)) := by
  cases hdat : loadData float csv names units false with
  | error e' =>
    unfold plotExample
    rw [hdat]
    simp [bind, Except.bind]
  | ok dat =>
    simp only [reduceCtorEq, false_or, Except.ok.injEq, exists_eq_left']
    have hz : ∀ d : DataContainer ℝ, (∃ pc ∈ pcs, ∃ dp ∈ [d].zip [p], pc ∉ dp.1.getKeys) ↔ ∃ pc ∈ pcs, pc ∉ d.getKeys := by
      intro d; simp
    have hd := loadData_reachable hdat
    obtain ⟨c, s1, s2, _⟩ := plotted_steps dat
    have hE := C63_errors [dat] [p] pcs true false none none none
    have hE' := C63_errors [plottedData dat] [p] pcs true false none none none
    rw [hz] at hE hE'
    rw [plotted_keys] at hE'
    unfold plotExample
    rw [hdat, ok_bind]
    cases h1 : easyPlot [dat] [p] pcs true none false none none with
    | error e' =>
      have := (hE e').1 h1
      have hne : pcs ≠ [] := by
        rintro rfl
        rcases this with ⟨h, _⟩ | ⟨_, _, pc, hpc, _⟩
        · simp at h
        · cases hpc
      show Except.error e' = Except.error e ↔ _
      rw [Except.error.injEq]
      rcases this with ⟨h, rfl⟩ | ⟨h, rfl, hm⟩
      · constructor
        · rintro rfl; exact .inl ⟨h, rfl⟩
        · rintro (⟨_, h'⟩ | ⟨h', _⟩ | ⟨h', _⟩ | ⟨h', _⟩)
          · exact h'.symm
          · omega
          · exact absurd h' hne
          · omega
      · constructor
        · rintro rfl; exact .inr (.inl ⟨h, hm, rfl⟩)
        · rintro (⟨h', _⟩ | ⟨_, _, h'⟩ | ⟨h', _⟩ | ⟨_, h', _⟩)
          · omega
          · exact h'.symm
          · exact absurd h' hne
          · obtain ⟨pc, hpc, hn⟩ := hm
            exact absurd (h' pc hpc) hn
    | ok f1 =>
      have h4 : pcs.length ≤ 4 := by
        by_contra h
        have := (hE .valueError).2 (.inl ⟨by omega, rfl⟩)
        rw [h1] at this; cases this
      have hall : ∀ pc ∈ pcs, pc ∈ dat.getKeys := by
        intro pc hpc
        by_contra h
        have := (hE .keyError).2 (.inr ⟨h4, rfl, pc, hpc, h⟩)
        rw [h1] at this; cases this
      have hne : ¬ ∃ pc ∈ pcs, pc ∉ dat.getKeys := fun ⟨pc, hpc, h⟩ => h (hall pc hpc)
      obtain ⟨f2, hf2⟩ : ∃ f2, easyPlot [plottedData dat] [p] pcs true none false none none = .ok f2 := by
        cases h : easyPlot [plottedData dat] [p] pcs true none false none none with
        | ok f2 => exact ⟨f2, rfl⟩
        | error e' =>
          rcases (hE' e').1 h with ⟨h, _⟩ | ⟨_, _, h⟩
          · omega
          · exact absurd h hne
      rw [ok_bind, s1, ok_bind, s2, ok_bind, hf2, ok_bind]
      by_cases h2 : 2 ≤ pcs.length
      · have hP := C73_errors (dats := [plottedData dat]) (by simpa using plotted_reachable hd) [p] pcs true false none h2
        rw [hz, plotted_keys] at hP
        obtain ⟨f3, hf3⟩ : ∃ f3, easyPolarPlot [plottedData dat] [p] pcs true none false = .ok f3 := by
          cases h : easyPolarPlot [plottedData dat] [p] pcs true none false with
          | ok f3 => exact ⟨f3, rfl⟩
          | error e' =>
            rcases (hP e').1 h with ⟨h, _⟩ | ⟨_, h⟩
            · cases h
            · exact absurd h hne
        rw [hf3]
        constructor
        · intro h; cases h
        · rintro (⟨h', _⟩ | ⟨_, h', _⟩ | ⟨h', _⟩ | ⟨h', _⟩)
          · omega
          · exact absurd h' hne
          · rw [h'] at h2; simp at h2
          · omega
      · match pcs, h2 with
        | [], _ =>
          show Except.error Err.valueError = Except.error e ↔ _
          simp [eq_comm]
        | [a], _ =>
          show Except.error Err.attributeError = Except.error e ↔ _
          have := hall a (by simp)
          simp [this, eq_comm]
        | _ :: _ :: _, h => exact absurd (by simp) h

theorem orders_get (i : ℕ) (hi : i < (orders 16).length) : (orders 16)[i] = (i : ℤ) - 16 := by
  simp [orders]

theorem orders_length : (orders 16).length = 33 := by simp [orders]

/-- The components of a formula, in order. -/
theorem component_row {S : Sympy} {fform : FFormContainer} (hc : fform.Reachable S) (hM : fform.getM = 16) {F : Key → ℤ → Valuation → ℂ}
    (hF : FormulaIs fform F) {k : Key} {v : FArr} (hv : fform.getPc k = .ok v) :
    v.objs.length = 33 ∧ ∀ (i : ℕ) (hi : i < v.objs.length) σ, objValue σ v.objs[i] = F k ((i : ℤ) - 16) σ := by
  have hmem : (k, v) ∈ fform.fform := Dict.mem_of_get? (Dict.get_ok_iff.1 hv)
  have hlen : v.objs.length = 33 := by
    have := hc.good.len _ hmem
    have hM' : fform.M = 16 := hM
    rw [this, hM']
  refine ⟨hlen, fun i hi σ => ?_⟩
  obtain ⟨a, o, ha, ⟨_, ho⟩, h⟩ := hF k (Dict.mem_keys_of_mem hmem) ((i : ℤ) - 16) (by rw [hM]; push_cast; omega) (by rw [hM]; push_cast; omega)
  rw [hv] at ha
  cases ha
  rw [hM] at ho
  have : ((i : ℤ) - 16 + ((16 : ℕ) : ℤ)).toNat = i := by push_cast; omega
  rw [this, List.getElem?_eq_getElem hi, Option.some.injEq] at ho
  rw [ho, h]

/-- **C119, frames.**  `pandas_example.py`, for any data files and any stored formula that load, where there are data and every combination
has at least two points: the script succeeds, and its frames hold the measured points, in degrees; the Fourier components of the orders
`-16, …, 16` of the interpolated data; the components of the formula; and, for every combination, a formula whose value is the sum of the
Fourier series. -/
theorem C119_frames {S : Sympy} {R : Repr} {float : Key → Option ℝ} {csv : CsvFiles} {files : Files} {interp : Interp}
    {names : Dict Key Key} {units fformName : Key} {dat : DataContainer ℝ} {fform : FFormContainer} {F : Key → ℤ → Valuation → ℂ}
    (hdat : loadData float csv names units false = .ok dat) (hform : loadFform S R files fformName = .ok fform) (hF : FormulaIs fform F)
    (hne : dat.getKeys ≠ []) {y : Key → ℝ → ℝ}
    (hi : ∀ k pts, dat.getPc k sRadians = .ok pts → 2 ≤ pts.length ∧ interp pts = .ok (y k)) :
    ∃ fr, pandasExample S R float csv files interp names units fformName = .ok fr ∧
      Tabulates dat.getKeys (fun k => dat.getPc k sDegrees) fr.dat ∧
      Tabulates dat.getKeys (fun k => (dat.getPc k sRadians).map (fun pts => (orders 16).map (fun m => (m, dft pts.length (y k) m)))) fr.fdat ∧
      TabulatesFormula fform.getKeys F fr.fform ∧
      fr.form.map Prod.fst = fform.getKeys ∧
      ∀ r ∈ fr.form, ∀ σ, r.2.eval σ = ∑ m ∈ Finset.Icc (-16 : ℤ) 16, F r.1 m σ * Complex.exp (Complex.I * (m * σ phi)) := by
  have hd := loadData_reachable hdat
  obtain ⟨hc, hM, _⟩ := loaded_symbolic hform
  obtain ⟨r1, a1, a2⟩ := C74_data_none hd (units := sDegrees) (.inr (by decide)) hne
  change dat.asPandas sDegrees sNone = .ok r1 at a1
  obtain ⟨fdat, t1, t2, t3, t4, t5⟩ := C89_transform hd 16 hi
  obtain ⟨r2, b1, b2, b3⟩ := (C74_fdata t2 (index := sMulti)).1 (.inl rfl)
  obtain ⟨r3, c1, c2, c3⟩ := (C74_fform hc (index := sNone)).1 (.inr rfl)
  obtain ⟨form, d1, d2, d3⟩ := C28_series S hc
  have hfr : form.Reachable S := by
    unfold fformToForm at d1
    obtain ⟨it, _, h⟩ := bind_ok d1
    exact ⟨_, _, [], h, rfl⟩
  obtain ⟨r4, e1, e2, e3⟩ := (C74_form hfr (index := sMulti)).1 (.inl rfl)
  refine ⟨⟨r1, r2, r3, r4⟩, ?_, a2, ⟨fun r hr => by rw [← t3]; exact b2 r hr, fun k hk => ?_⟩, ⟨c2, fun k hk => ?_⟩, by rw [← d2]; exact e2, ?_⟩
  · unfold pandasExample
    rw [hdat, ok_bind, a1, ok_bind, t1, ok_bind, b1, ok_bind, hform, ok_bind, c1, ok_bind, d1, ok_bind, e1, ok_bind]
    rfl
  · have h := b3 k (by rw [t3]; exact hk)
    obtain ⟨pts, hpts⟩ := Dict.mem_keys.1 hk
    have hpts' : dat.getPc k sRadians = .ok pts := by
      rw [getPc_radians, Dict.get_ok_iff, Dict.get?_eq_some_iff (reachable_normalForm hd).1]; exact hpts
    rw [← h]
    dsimp only
    rw [hpts']
    have hcomp := t5 k pts hpts'
    obtain ⟨v, hv, _⟩ := hcomp 0 (by norm_num) (by norm_num)
    rw [hv, t4]
    show Except.ok _ = Except.ok _
    congr 1
    have hlen : v.length = 33 := by
      have := t2.good.len _ (Dict.mem_of_get? (Dict.get_ok_iff.1 hv))
      have hM' : fdat.M = 16 := t4
      rw [this, hM']
    apply List.ext_getElem
    · simp [orders_length, hlen]
    · intro i h1 h2
      have hi33 : i < 33 := by simpa [orders_length] using h1
      simp only [List.getElem_map, List.getElem_zip, orders_get, Prod.mk.injEq, true_and]
      obtain ⟨v', hv', _, hz⟩ := hcomp ((i : ℤ) - 16) (by push_cast; omega) (by push_cast; omega)
      rw [hv] at hv'
      cases hv'
      rw [t4] at hz
      have : ((i : ℤ) - 16 + ((16 : ℕ) : ℤ)).toNat = i := by push_cast; omega
      rw [this, List.getElem?_eq_getElem (by omega), Option.some.injEq] at hz
      exact hz.symm
  · have h := c3 k hk
    obtain ⟨v, hv⟩ := Dict.mem_keys.1 hk
    have hv' : fform.getPc k = .ok v := get_of_mem hc.good.wf hv
    obtain ⟨hlen, hval⟩ := component_row hc hM hF hv'
    dsimp only at h
    rw [hv', hM] at h
    have h : (orders 16).zip v.objs = (r3.filter (fun r => r.1.1 = k)).map (fun r => (r.1.2, r.2)) := Except.ok.inj h
    generalize r3.filter (fun r => r.1.1 = k) = rows at h
    have hl : rows.length = 33 := by
      have := congrArg List.length h
      simpa [orders_length, hlen, eq_comm] using this
    rw [List.forall₂_iff_get]
    refine ⟨by rw [orders_length, hl], fun i h1 h2 => ?_⟩
    have hi := congrArg (fun l => l[i]?) h
    simp only [List.get_eq_getElem] at *
    rw [List.getElem?_eq_getElem (by simp only [List.length_zip, orders_length, hlen]; omega), List.getElem?_eq_getElem (by simpa using h2),
      Option.some.injEq, List.getElem_zip, List.getElem_map, Prod.mk.injEq] at hi
    refine ⟨hi.1.symm, fun σ => ?_⟩
    rw [← hi.2, hval, orders_get]
  · intro r hr σ
    have hkey : r.1 ∈ fform.getKeys := by
      rw [← d2, ← e2]; exact List.mem_map_of_mem hr
    obtain ⟨e, he, hval⟩ := d3 r.1 (F r.1) (fun m hm => hF r.1 hkey m hm.1 hm.2)
    rw [e3 r hr] at he
    cases he
    rw [hval, hM]
    rfl

/-- **C119, printed components.**  `look_at_fformula_example.py`, for any stored formula that loads, prints for every combination, in order,
one line for each of the orders `-16, …, 16`, with an expression for the component of this order. -/
theorem C119_printed {S : Sympy} {R : Repr} {files : Files} {fformName : Key} {fform : FFormContainer} {F : Key → ℤ → Valuation → ℂ}
    (hform : loadFform S R files fformName = .ok fform) (hF : FormulaIs fform F) (ex : Rewriting) :
    ∃ out, lookExample S R ex files fformName = .ok out ∧ out.map Prod.fst = fform.getKeys ∧
      ∀ b ∈ out, b.2.map Prod.fst = orders 16 ∧ ∀ l ∈ b.2, ∀ σ, l.2.eval σ = F b.1 l.1 σ := by
  obtain ⟨hc, hM, hs⟩ := loaded_symbolic hform
  let g : Key × FArr → Key × List (ℤ × Expr) :=
    fun kv => (kv.1, kv.2.objs.zipIdx.map (fun p => ((p.2 : ℤ) - 16, ex.run (p.1.sympify S))))
  refine ⟨fform.fform.map g, ?_, ?_, ?_⟩
  · unfold lookExample
    rw [hform, ok_bind]
    exact mapM_keys hc.good.wf (g := fun k v => g (k, v)) (fun k v h => by
      rw [show fform.getPc k = .ok v from Dict.get_ok_iff.2 h, ok_bind]
      rfl)
  · simp [g, FFormContainer.getKeys, Dict.keys]
  · intro b hb
    obtain ⟨⟨k, v⟩, hkv, rfl⟩ := List.mem_map.1 hb
    obtain ⟨hlen, hval⟩ := component_row hc hM hF (get_of_mem hc.good.wf hkv)
    refine ⟨?_, ?_⟩
    · apply List.ext_getElem
      · simp [g, orders_length, hlen]
      · intro i h1 h2
        simp [g, orders_get]
    · intro l hl σ
      obtain ⟨⟨o, i⟩, hp, rfl⟩ := List.mem_map.1 hl
      rw [List.mem_zipIdx_iff_getElem?, List.getElem?_eq_some_iff] at hp
      obtain ⟨hi, ho⟩ := hp
      dsimp only at hi ho
      show (ex.run (o.sympify S)).eval σ = F k ((i : ℤ) - 16) σ
      rw [ex.eval_run, ← hval i hi σ, PyObj.eval_sympify, ho]

namespace LookCases
open FitCases

/-- The hypotheses of `C119_figures` are met: the files of the examples, two of whose combinations are shown. -/
example : ∃ dat : DataContainer ℝ, loadData unaryFloat unaryCsv fourNames sDegrees false = .ok dat ∧
    (∀ pc ∈ [combo .S .P, combo .P .P], pc ∈ dat.getKeys) ∧
    ∃ figs, plotExample unaryFloat unaryCsv fourNames sDegrees () [combo .S .P, combo .P .P] = .ok figs := by
  obtain ⟨dat, l1, _, l2, l3⟩ := loadData_sampled (Or.inr rfl) (by unfold Dict.WF; decide) (by norm_num) (unary_samples_all fourNames)
  have h : ∀ pc ∈ [combo .S .P, combo .P .P], pc ∈ dat.getKeys := by rw [l2]; decide
  obtain ⟨f1, f2, f3, h1, _⟩ := C119_figures l1 () h (by decide) (by decide)
  exact ⟨dat, l1, h, _, h1⟩

/-- The other two scripts, on the same files and a stored formula. -/
example (ex : Rewriting) : ∃ F fr out, FormulaIs onlyA F ∧
    pandasExample Sympy.plain exRepr unaryFloat unaryCsv (saveFform exRepr (fun _ => none) onlyA ['s']) (fun _ => .ok (fun _ => 1 / 4))
      fourNames sDegrees ['s'] = .ok fr ∧ TabulatesFormula onlyA.getKeys F fr.fform ∧
    lookExample Sympy.plain exRepr ex (saveFform exRepr (fun _ => none) onlyA ['s']) ['s'] = .ok out ∧ out.length = 4 := by
  obtain ⟨F, hF⟩ := fourFform_is Sympy.plain exRepr (fun _ _ _ => .sym realA)
  obtain ⟨dat, l1, _, l2, l3⟩ := loadData_sampled (Or.inr rfl) (by unfold Dict.WF; decide) (by norm_num) (unary_samples_all fourNames)
  have hload : loadFform Sympy.plain exRepr (saveFform exRepr (fun _ => none) onlyA ['s']) ['s'] = .ok onlyA :=
    fourFform_load Sympy.plain exRepr _ _ _
  obtain ⟨fr, h1, _, _, h2, _⟩ := C119_frames (interp := fun _ => .ok (fun _ => 1 / 4)) (y := fun _ _ => 1 / 4) l1 hload hF
    (by rw [l2]; decide) (fun k pts h => ⟨by
      have hk : k ∈ dat.getKeys := by
        rw [getPc_radians, Dict.get_ok_iff] at h
        exact Dict.mem_keys_of_mem (Dict.mem_of_get? h)
      rw [l3 k (by rw [← l2]; exact hk)] at h
      rw [← Except.ok.inj h]; simp [sampled], rfl⟩)
  obtain ⟨out, h3, h4, _⟩ := C119_printed hload hF ex
  refine ⟨F, fr, out, hF, h1, h2, h3, ?_⟩
  have := congrArg List.length h4
  rw [List.length_map] at this
  exact this

end LookCases
end Shgpy
