import Verif.Model.FformDict
import Verif.Props.SaveFform
import Verif.Proofs.Formgen3

/-!
# Saved dictionaries of Fourier formulas come back: C110
-/

namespace Shgpy

theorem mapM_parse (R : Repr) (l : List Expr) : (l.map (fun e => R.srepr (.sy e))).mapM R.parse = .ok l := by
  induction l with
  | nil => rfl
  | cons e l ih => rw [List.map_cons, List.mapM_cons, R.round_trip, ih]; rfl

theorem mapValsM_parse (R : Repr) (d : Dict Key (List Expr)) :
    Dict.mapValsM (fun v => v.mapM R.parse) (d.mapVals (fun v => v.map (fun e => R.srepr (.sy e)))) = .ok d := by
  induction d with
  | nil => rfl
  | cons it d ih =>
    obtain ⟨k, v⟩ := it
    rw [Dict.mapVals_cons]
    unfold Dict.mapValsM
    rw [mapM_parse, ih]
    rfl

/-- C110.  What `_save_fform_dict` saves, `_load_fform_dict` gives back, expression by expression (so that symbols keep
their assumptions); other files are not touched; a missing file raises `FileNotFoundError`. -/
theorem C110_dict (R : Repr) (fs : Files) (name : Key) (d : Dict Key (List Expr)) :
    loadFformDict R (saveFformDict R fs name (d.mapVals (fun v => v.map .sy))) name = .ok d ∧
    (∀ n, n ≠ name → loadFformDict R (saveFformDict R fs name (d.mapVals (fun v => v.map .sy))) n = loadFformDict R fs n) ∧
    ∀ n, fs n = none → loadFformDict R fs n = .error .fileNotFoundError := by
  refine ⟨?_, fun n hn => ?_, fun n hn => ?_⟩
  · have : (d.mapVals (fun v => v.map PyObj.sy)).mapVals (fun v => v.map R.srepr) = d.mapVals (fun v => v.map (fun e => R.srepr (.sy e))) := by
      unfold Dict.mapVals
      rw [List.map_map]
      refine List.map_congr_left (fun it _ => ?_)
      simp
    unfold loadFformDict saveFformDict
    simp only [if_true, this, mapValsM_parse]
  · unfold loadFformDict saveFformDict
    simp only [if_neg hn]
  · unfold loadFformDict
    rw [hn]

/-- C110.  The file that `generate_contracted_fourier_transforms` writes, with and without `ndigits`, has the formulas as
`_load_fform_dict` and `load_fform` read them: `load_fform` is `_load_fform_dict` followed by the constructor. -/
theorem C110_contracted (S : Sympy) (R : Repr) (fs : Files) (nfs : NpFiles) (save pre : Key) (chiD chiQ : Nd Expr) (M : ℕ) {fs' : Files}
    (h : generateContracted S R fs nfs save pre chiD chiQ M = .ok fs') :
    ∃ d, contractedFform S nfs pre chiD chiQ M = .ok d ∧ loadFformDict R fs' save = .ok d ∧
      loadFform S R fs' save = FFormContainer.init S (d.map (fun kv => (.str kv.1, .objArr (kv.2.map .sy)))) 16 := by
  obtain ⟨d, hd, h⟩ := bind_ok h
  cases h
  have hl : loadFformDict R (fun n => if n = save then some (d.mapVals (fun v => v.map (fun e => R.srepr (.sy e)))) else fs n) save =
      .ok d := by
    unfold loadFformDict
    simp only [if_true, mapValsM_parse]
  refine ⟨d, hd, hl, ?_⟩
  unfold loadFform
  unfold loadFformDict at hl
  simp only [if_true] at hl ⊢
  rw [hl]
  rfl

/-- C110, with `ndigits`: the file has the rounded formulas. -/
theorem C110_rounded (S : Sympy) (ex : Rewriting) {n : ℕ} (D : DecRound n) (R : Repr) (fs : Files) (nfs : NpFiles) (save pre : Key)
    (chiD chiQ : Nd Expr) (M : ℕ) {fs' : Files} (h : generateContractedRounded S ex D R fs nfs save pre chiD chiQ M = .ok fs') :
    ∃ d, contractedFform S nfs pre chiD chiQ M = .ok d ∧
      loadFformDict R fs' save = .ok (d.mapVals (fun v => v.map (roundExpr S ex D))) := by
  obtain ⟨d, hd, h⟩ := bind_ok h
  cases h
  refine ⟨d, hd, ?_⟩
  have : d.mapVals (fun v => v.map (fun e => R.srepr (.sy (roundExpr S ex D e)))) =
      (d.mapVals (fun v => v.map (roundExpr S ex D))).mapVals (fun v => v.map (fun e => R.srepr (.sy e))) := by
    unfold Dict.mapVals
    rw [List.map_map]
    refine List.map_congr_left (fun it _ => ?_)
    simp
  unfold loadFformDict
  simp only [if_true, this, mapValsM_parse]

/-- The example of tests/test_pickle.py: `x**2` with a real symbol comes back with the real symbol. -/
example : ∃ v, loadFformDict exRepr (saveFformDict exRepr (fun _ => none) ['f']
      [(['S', 'S'], [.sy (.pow (.sym ⟨['x'], 1⟩) 2)])]) ['f'] = .ok [(['S', 'S'], [v])] ∧
    v.eval (fun s => if s = ⟨['x'], 1⟩ then 3 else 0) = 9 ∧ v.eval (fun s => if s = ⟨['x'], 0⟩ then 3 else 0) = 0 := by
  refine ⟨_, (C110_dict exRepr (fun _ => none) ['f'] [(['S', 'S'], [.pow (.sym ⟨['x'], 1⟩) 2])]).1, ?_, ?_⟩
  · norm_num [Expr.eval]
  · norm_num [Expr.eval]

end Shgpy
