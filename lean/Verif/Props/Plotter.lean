import Verif.Proofs.Plotter

/-!
# Properties C63 and C73: what the plots show
-/

set_option linter.unusedSectionVars false
set_option linter.unusedSimpArgs false

namespace Shgpy
open Spec

variable {K P : Type} [Field K] [LinearOrder K] [IsStrictOrderedRing K] [FloorRing K] [HasPi K]

namespace Spec

/-- The axis labels of a grid: `xlabel` below the last row only, `ylabel` left of the first column only. -/
def Labelled (xlabel ylabel : Option Key) (grid : List (List (Cell K P))) : Prop :=
  ∀ (i : ℕ) (row : List (Cell K P)), grid[i]? = some row → ∀ (j : ℕ) (c : Cell K P), row[j]? = some c →
    c.xlabel = (if i + 1 = grid.length then xlabel else none) ∧ c.ylabel = (if j = 0 then ylabel else none)

end Spec

/-- The grid made of freshly drawn cells. -/
theorem labelledGrid {dats : List (DataContainer K)} {params : List P} {legend : Bool} {pcs : List Key}
    {out : List (Cell K P)} (h1 : 1 ≤ pcs.length) (h4 : pcs.length ≤ 4) {r c : ℕ}
    (hr : gridEntry [1, 1, 1, 2] pcs.length = .ok r) (hc : gridEntry [1, 2, 3, 2] pcs.length = .ok c)
    (h : List.Forall₂ (fun pc c => Shows dats params legend pc c ∧ c.xlabel = none ∧ c.ylabel = none ∧ c.rtick = none)
        pcs out) (xlabel ylabel : Option Key) :
    (setYlabel ylabel (setXlabel xlabel (toRows c r out))).map List.length =
      (if pcs.length = 4 then [2, 2] else [pcs.length]) ∧
    List.Forall₂ (Shows dats params legend) pcs (setYlabel ylabel (setXlabel xlabel (toRows c r out))).flatten ∧
    Labelled xlabel ylabel (setYlabel ylabel (setXlabel xlabel (toRows c r out))) := by
  have hlen := h.length_eq
  have hlab : ∀ c ∈ out, c.xlabel = none ∧ c.ylabel = none := by
    intro c hc
    obtain ⟨i, hi, rfl⟩ := List.getElem_of_mem hc
    exact ⟨((List.forall₂_iff_get.1 h).2 i (by omega) hi).2.1, ((List.forall₂_iff_get.1 h).2 i (by omega) hi).2.2.1⟩
  have hs : List.Forall₂ (fun pc c => Shows dats params legend pc c) pcs out := h.imp (fun _ _ h => h.1)
  clear h
  match pcs, h1, h4, hr, hc, out, hlen with
  | [a], _, _, hr, hc, [u], _ =>
    cases hr; cases hc
    simp only [List.forall₂_cons, List.Forall₂.nil, and_true] at hs
    have hu := hlab u (by simp)
    refine ⟨?_, ?_, ?_⟩
    · cases xlabel <;> cases ylabel <;> simp [toRows, setXlabel, setYlabel]
    · cases xlabel <;> cases ylabel <;> simpa [toRows, setXlabel, setYlabel, Shows] using hs
    · intro i row hrow j c hcj
      cases xlabel <;> cases ylabel <;> simp [toRows, setXlabel, setYlabel] at hrow hcj ⊢ <;>
        rcases i with _ | i <;> simp at hrow <;> subst hrow <;> rcases j with _ | j <;> simp at hcj <;> subst hcj <;>
        simp [hu]
  | [a, b], _, _, hr, hc, [u, v], _ =>
    cases hr; cases hc
    simp only [List.forall₂_cons, List.Forall₂.nil, and_true] at hs
    have hu := hlab u (by simp)
    have hv := hlab v (by simp)
    refine ⟨?_, ?_, ?_⟩
    · cases xlabel <;> cases ylabel <;> simp [toRows, setXlabel, setYlabel]
    · cases xlabel <;> cases ylabel <;> simpa [toRows, setXlabel, setYlabel, Shows] using hs
    · intro i row hrow j c hcj
      cases xlabel <;> cases ylabel <;> simp [toRows, setXlabel, setYlabel] at hrow hcj ⊢ <;>
        rcases i with _ | i <;> simp at hrow <;> subst hrow <;> rcases j with _ | _ | j <;> simp at hcj <;> subst hcj <;>
        simp [hu, hv]
  | [a, b, d], _, _, hr, hc, [u, v, w], _ =>
    cases hr; cases hc
    simp only [List.forall₂_cons, List.Forall₂.nil, and_true] at hs
    have hu := hlab u (by simp)
    have hv := hlab v (by simp)
    have hw := hlab w (by simp)
    refine ⟨?_, ?_, ?_⟩
    · cases xlabel <;> cases ylabel <;> simp [toRows, setXlabel, setYlabel]
    · cases xlabel <;> cases ylabel <;> simpa [toRows, setXlabel, setYlabel, Shows] using hs
    · intro i row hrow j c hcj
      cases xlabel <;> cases ylabel <;> simp [toRows, setXlabel, setYlabel] at hrow hcj ⊢ <;>
        rcases i with _ | i <;> simp at hrow <;> subst hrow <;> rcases j with _ | _ | _ | j <;> simp at hcj <;>
        subst hcj <;> simp [hu, hv, hw]
  | [a, b, d, e], _, _, hr, hc, [u, v, w, x], _ =>
    cases hr; cases hc
    simp only [List.forall₂_cons, List.Forall₂.nil, and_true] at hs
    have hu := hlab u (by simp)
    have hv := hlab v (by simp)
    have hw := hlab w (by simp)
    have hx := hlab x (by simp)
    refine ⟨?_, ?_, ?_⟩
    · cases xlabel <;> cases ylabel <;> simp [toRows, setXlabel, setYlabel]
    · cases xlabel <;> cases ylabel <;> simpa [toRows, setXlabel, setYlabel, Shows] using hs
    · intro i row hrow j c hcj
      cases xlabel <;> cases ylabel <;> simp [toRows, setXlabel, setYlabel] at hrow hcj ⊢ <;>
        rcases i with _ | _ | i <;> simp at hrow <;> subst hrow <;> rcases j with _ | _ | j <;> simp at hcj <;>
        subst hcj <;> simp [hu, hv, hw, hx]
  | _ :: _ :: _ :: _ :: _ :: _, _, h4, _, _, _, _ => simp only [List.length_cons] at h4; omega

theorem easyPlot_cases (dats : List (DataContainer K)) (params : List P) (pcs : List Key) (shown legend : Bool)
    (file xlabel ylabel : Option Key) (h1 : 1 ≤ pcs.length) (h4 : pcs.length ≤ 4) :
    (∃ plot, easyPlot dats params pcs shown file legend xlabel ylabel = .ok plot ∧
      (∀ pc ∈ pcs, ∀ dp ∈ dats.zip params, pc ∈ dp.1.getKeys) ∧
      plot.grid.map List.length = (if pcs.length = 4 then [2, 2] else [pcs.length]) ∧
      List.Forall₂ (Shows dats params legend) pcs plot.grid.flatten ∧
      Labelled xlabel ylabel plot.grid ∧ plot.saved = file ∧ plot.shown = shown) ∨
    (easyPlot dats params pcs shown file legend xlabel ylabel = .error .keyError ∧
      ∃ pc ∈ pcs, ∃ dp ∈ dats.zip params, pc ∉ dp.1.getKeys) := by
  have hrc : ∃ r c, gridEntry [1, 1, 1, 2] pcs.length = .ok r ∧ gridEntry [1, 2, 3, 2] pcs.length = .ok c ∧
      r * c = pcs.length := by
    generalize pcs.length = n at h1 h4
    interval_cases n
    · exact ⟨1, 1, rfl, rfl, rfl⟩
    · exact ⟨1, 2, rfl, rfl, rfl⟩
    · exact ⟨1, 3, rfl, rfl, rfl⟩
    · exact ⟨2, 2, rfl, rfl, rfl⟩
  obtain ⟨r, c, hr, hc, hn⟩ := hrc
  have hval : easyPlot dats params pcs shown file legend xlabel ylabel =
      (drawCells dats params legend pcs (List.replicate pcs.length {}) >>= fun cells =>
        .ok ⟨setYlabel ylabel (setXlabel xlabel (toRows c r cells)), file, shown⟩) := by
    unfold easyPlot
    simp only [if_neg (not_lt.2 h4), hr, hc, ok_bind, hn]
    rfl
  rw [hval]
  rcases drawCells_cases dats params legend pcs with ⟨out, h, hk, hf⟩ | ⟨h, hk⟩
  · left
    rw [h, ok_bind]
    obtain ⟨g1, g2, g3⟩ := labelledGrid h1 h4 hr hc hf xlabel ylabel
    exact ⟨_, rfl, hk, g1, g2, g3, rfl, rfl⟩
  · right
    rw [h]
    exact ⟨rfl, hk⟩

/-- **C63.**  For one to three combinations `easy_plot` makes one row, for four a two by two grid; the cells, read row by
row, show the requested combinations in the requested order, each with one curve per container.  The axis labels are at the
outer edges, and the figure is written and shown as requested. -/
theorem C63_layout {dats : List (DataContainer K)} {params : List P} {pcs : List Key} {shown legend : Bool}
    {file xlabel ylabel : Option Key} {plot : Plot K P} (hn : pcs ≠ [])
    (h : easyPlot dats params pcs shown file legend xlabel ylabel = .ok plot) :
    pcs.length ≤ 4 ∧
    plot.grid.map List.length = (if pcs.length = 4 then [2, 2] else [pcs.length]) ∧
    List.Forall₂ (Shows dats params legend) pcs plot.grid.flatten ∧
    Labelled xlabel ylabel plot.grid ∧ plot.saved = file ∧ plot.shown = shown := by
  have h1 : 1 ≤ pcs.length := List.length_pos_iff.2 hn
  by_cases h4 : pcs.length ≤ 4
  · rcases easyPlot_cases dats params pcs shown legend file xlabel ylabel h1 h4 with ⟨p, hp, _, r⟩ | ⟨he, _⟩
    · rw [hp] at h; cases h; exact ⟨h4, r⟩
    · rw [he] at h; cases h
  · unfold easyPlot at h
    simp only [if_pos (not_le.1 h4)] at h
    cases h

/-- **C63, errors.**  `easy_plot` fails exactly for more than four combinations (`ValueError`) and when a container that is
to be drawn lacks one of the combinations (`KeyError`). -/
theorem C63_errors (dats : List (DataContainer K)) (params : List P) (pcs : List Key) (shown legend : Bool)
    (file xlabel ylabel : Option Key) (e : Err) :
    easyPlot dats params pcs shown file legend xlabel ylabel = .error e ↔
      (pcs.length > 4 ∧ e = .valueError) ∨
      (pcs.length ≤ 4 ∧ e = .keyError ∧ ∃ pc ∈ pcs, ∃ dp ∈ dats.zip params, pc ∉ dp.1.getKeys) := by
  by_cases h4 : pcs.length ≤ 4
  · by_cases h1 : pcs = []
    · subst h1
      have : ∃ p, easyPlot dats params [] shown file legend xlabel ylabel = .ok p := ⟨_, rfl⟩
      obtain ⟨p, hp⟩ := this
      rw [hp]
      simp
    · rcases easyPlot_cases dats params pcs shown legend file xlabel ylabel (List.length_pos_iff.2 h1) h4 with
        ⟨p, hp, hk, _⟩ | ⟨he, hk⟩
      · rw [hp]
        constructor
        · intro h; cases h
        · rintro (⟨h, _⟩ | ⟨_, _, pc, hpc, dp, hdp, hno⟩)
          · omega
          · exact absurd (hk pc hpc dp hdp) hno
      · rw [he]
        constructor
        · intro h; cases h; exact .inr ⟨h4, rfl, hk⟩
        · rintro (⟨h, _⟩ | ⟨_, rfl, _⟩)
          · omega
          · rfl
  · have : easyPlot dats params pcs shown file legend xlabel ylabel = .error .valueError := by
      unfold easyPlot
      simp only [if_pos (not_le.1 h4)]
      rfl
    rw [this]
    constructor
    · intro h; cases h; exact .inl ⟨not_le.1 h4, rfl⟩
    · rintro (⟨_, rfl⟩ | ⟨h, _⟩)
      · rfl
      · exact absurd h h4

/-- **C63 refuted for no combination at all.**  `easy_plot(dats, params, [])` succeeds with a figure of four empty cells
instead of none. -/
theorem C63_no_combination_broken (dats : List (DataContainer K)) (params : List P) :
    easyPlot dats params [] true none false none none = .ok ⟨[[{}, {}], [{}, {}]], none, true⟩ := rfl

/-- **C63 refuted for too few parameter dictionaries.**  Containers beyond the number of parameter dictionaries are
silently not drawn: each cell has as many curves as the shorter of the two lists. -/
theorem C63_undrawn_broken {dats : List (DataContainer K)} {params : List P} {pcs : List Key} {shown legend : Bool}
    {file xlabel ylabel : Option Key} {plot : Plot K P} (hn : pcs ≠ []) (hp : params.length < dats.length)
    (h : easyPlot dats params pcs shown file legend xlabel ylabel = .ok plot) :
    ∀ c ∈ plot.grid.flatten, c.curves.length < dats.length := by
  obtain ⟨_, _, hs, _⟩ := C63_layout hn h
  intro c hc
  obtain ⟨i, hi, rfl⟩ := List.getElem_of_mem hc
  have := ((List.forall₂_iff_get.1 hs).2 i (by have := hs.length_eq; omega) hi).2.2.length_eq
  rw [List.length_zip] at this
  simp only [List.get_eq_getElem] at this
  omega

/-! ### C73 -/

theorem easyPolarPlot_cases (dats : List (DataContainer K)) (hd : ∀ d ∈ dats, d.Reachable) (params : List P)
    (pcs : List Key) (shown legend : Bool) (file : Option Key) (h2 : 2 ≤ pcs.length) :
    (∃ plot m, easyPolarPlot dats params pcs shown file legend = .ok plot ∧ dats ≠ [] ∧
      (∀ pc ∈ pcs, ∀ dp ∈ dats.zip params, pc ∈ dp.1.getKeys) ∧
      plot.grid.map List.length = [pcs.length] ∧
      List.Forall₂ (fun pc c => Shows dats params legend pc c ∧ c.rtick = some m) pcs plot.grid.flatten ∧
      LargestValue dats m ∧ plot.saved = file ∧ plot.shown = shown) ∨
    (easyPolarPlot dats params pcs shown file legend = .error .keyError ∧
      ∃ pc ∈ pcs, ∃ dp ∈ dats.zip params, pc ∉ dp.1.getKeys) ∨
    (easyPolarPlot dats params pcs shown file legend = .error .valueError ∧ dats = []) := by
  have hval : easyPolarPlot dats params pcs shown file legend =
      (drawCells dats params legend pcs (List.replicate pcs.length {}) >>= fun cells =>
        decorate dats pcs cells >>= fun cells => .ok ⟨[cells], file, shown⟩) := by
    unfold easyPolarPlot
    simp only [if_neg (show ¬ pcs.length = 0 by omega), if_neg (show ¬ pcs.length = 1 by omega)]
    rfl
  rw [hval]
  rcases drawCells_cases dats params legend pcs with ⟨out, h, hk, hf⟩ | ⟨h, hk⟩
  · rw [h, ok_bind]
    by_cases hne : dats = []
    · right; right
      refine ⟨?_, hne⟩
      cases hf with
      | nil => simp at h2
      | cons _ _ =>
        rw [hne, decorate_error maxOfDats_nil]
        rfl
    · left
      obtain ⟨m, hm, hl⟩ := maxOfDats_ok hd hne
      obtain ⟨out', h3, h4⟩ := decorate_ok hm hf
      rw [h3, ok_bind]
      refine ⟨_, m, rfl, hne, hk, ?_, ?_, hl, rfl, rfl⟩
      · simp [h4.length_eq]
      · simp only [List.flatten_cons, List.flatten_nil, List.append_nil]
        refine h4.imp ?_
        rintro pc c ⟨c₀, ⟨hs, _⟩, rfl⟩
        exact ⟨⟨rfl, hs.2.1, hs.2.2⟩, rfl⟩
  · right; left
    rw [h]
    exact ⟨rfl, hk⟩

/-- **C73 for two or more combinations.**  `easy_polar_plot` makes one row with one cell per combination, in order, each
with one curve per container, and the radial tick of every cell is the largest value in the containers. -/
theorem C73_polar_partial {dats : List (DataContainer K)} (hd : ∀ d ∈ dats, d.Reachable) {params : List P}
    {pcs : List Key} {shown legend : Bool} {file : Option Key} {plot : Plot K P}
    (h : easyPolarPlot dats params pcs shown file legend = .ok plot) :
    ∃ m, plot.grid.map List.length = [pcs.length] ∧
      List.Forall₂ (fun pc c => Shows dats params legend pc c ∧ c.rtick = some m) pcs plot.grid.flatten ∧
      LargestValue dats m ∧ plot.saved = file ∧ plot.shown = shown := by
  by_cases h2 : 2 ≤ pcs.length
  · rcases easyPolarPlot_cases dats hd params pcs shown legend file h2 with ⟨p, m, hp, _, _, r⟩ | ⟨he, _⟩ | ⟨he, _⟩
    · rw [hp] at h; cases h; exact ⟨m, r⟩
    · rw [he] at h; cases h
    · rw [he] at h; cases h
  · unfold easyPolarPlot at h
    have : pcs.length = 0 ∨ pcs.length = 1 := by omega
    rcases this with h0 | h0 <;> simp only [h0, if_true, if_false, one_ne_zero] at h <;> cases h

/-- **C73, errors.**  For two or more combinations `easy_polar_plot` fails exactly when a container that is to be drawn
lacks a combination (`KeyError`) or no container is given (`ValueError`). -/
theorem C73_errors {dats : List (DataContainer K)} (hd : ∀ d ∈ dats, d.Reachable) (params : List P) (pcs : List Key)
    (shown legend : Bool) (file : Option Key) (h2 : 2 ≤ pcs.length) (e : Err) :
    easyPolarPlot dats params pcs shown file legend = .error e ↔
      (dats = [] ∧ e = .valueError) ∨
      (e = .keyError ∧ ∃ pc ∈ pcs, ∃ dp ∈ dats.zip params, pc ∉ dp.1.getKeys) := by
  rcases easyPolarPlot_cases dats hd params pcs shown legend file h2 with
    ⟨p, m, hp, hne, hk, _⟩ | ⟨he, hk⟩ | ⟨he, hk⟩
  · rw [hp]
    constructor
    · intro h; cases h
    · rintro (⟨h, _⟩ | ⟨_, pc, hpc, dp, hdp, hno⟩)
      · exact absurd h hne
      · exact absurd (hk pc hpc dp hdp) hno
  · rw [he]
    have hne : dats ≠ [] := by
      rintro rfl
      obtain ⟨_, _, dp, hdp, _⟩ := hk
      simp at hdp
    constructor
    · intro h; cases h; exact .inr ⟨rfl, hk⟩
    · rintro (⟨h, _⟩ | ⟨rfl, _⟩)
      · exact absurd h hne
      · rfl
  · rw [he]
    subst hk
    constructor
    · intro h; cases h; exact .inl ⟨rfl, rfl⟩
    · rintro (⟨_, rfl⟩ | ⟨_, _, _, dp, hdp, _⟩)
      · rfl
      · simp at hdp

/-- **C73 refuted for a single combination**: `easy_polar_plot` raises `AttributeError`, whatever the data. -/
theorem C73_single_broken (dats : List (DataContainer K)) (params : List P) (pc : Key) (shown legend : Bool)
    (file : Option Key) : easyPolarPlot dats params [pc] shown file legend = .error .attributeError := rfl

section Examples

/-- A container with two combinations. -/
def plotDat : DataContainer ℚ := ⟨[(kPP, [(0, 1), (1, 3)]), (kSS, [(2, 5)])], 1, 0, some 0, false, sRadians⟩

/-- Both functions succeed on two combinations: the hypotheses of C63 and C73 are met. -/
example : easyPlot [plotDat] [()] [kSS, kPP] true none true (some ['x']) (some ['y']) =
    .ok ⟨[[⟨[([(2, 5)], ())], some kSS, true, some ['x'], some ['y'], none⟩,
      ⟨[([(0, 1), (1, 3)], ())], some kPP, true, some ['x'], none, none⟩]], none, true⟩ := rfl

example : easyPolarPlot [plotDat] [()] [kSS, kPP] true none true =
    .ok ⟨[[⟨[([(2, 5)], ())], some kSS, true, none, none, some (some 5)⟩,
      ⟨[([(0, 1), (1, 3)], ())], some kPP, true, none, none, some (some 5)⟩]], none, true⟩ := by
  have hm : maxOfDats [plotDat] = .ok (some 5) := by
    norm_num [maxOfDats, plotDat, DataContainer.getMaxval, DataContainer.maxLoop, DataContainer.pyMax, bind, Except.bind,
      List.mapM_cons, pure, Except.pure]
  unfold easyPolarPlot
  simp only [List.length_cons, List.length_nil, decorate, hm]
  rfl

/-- Two containers and one parameter dictionary: the second container is not drawn. -/
example : easyPlot [plotDat, plotDat] [()] [kSS] true none false none none =
    .ok ⟨[[⟨[([(2, 5)], ())], some kSS, false, none, none, none⟩]], none, true⟩ := rfl

end Examples

end Shgpy
