import Verif.Model.SaveFform
import Verif.Props.FormConvert
import Mathlib.Data.Rat.Encodable
import Mathlib.Logic.Equiv.List

/-!
# Property C33: saving and loading Fourier formulas
-/

set_option linter.unusedSectionVars false
set_option linter.unusedSimpArgs false

namespace Shgpy
open Spec

/-- What is built when a saved container is loaded, given what parsing the stored strings returns. -/
theorem load_save_eq (S : Sympy) (R : Repr) (fs : Files) (name : Key) {c : FFormContainer} {F : PyObj → Expr}
    (hF : ∀ it ∈ c.fform, ∀ o ∈ it.2.objs, R.parse (R.srepr o) = .ok (F o)) :
    loadFform S R (saveFform R fs c name) name =
      FFormContainer.init S (FFormContainer.toIterable ⟨c.fform.mapVals (fun a => .obj (a.objs.map F)), c.M⟩) 16 := by
  unfold loadFform saveFform
  simp only [if_true]
  have h : Dict.mapValsM (fun v => v.mapM R.parse) (c.fform.mapVals (fun v => v.objs.map R.srepr))
      = .ok (c.fform.mapVals (fun a => a.objs.map F)) := by
    generalize hd : c.fform = d at hF
    clear hd
    induction d with
    | nil => rfl
    | cons it d ih =>
      obtain ⟨k, a⟩ := it
      have h1 : (a.objs.map R.srepr).mapM R.parse = .ok (a.objs.map F) := by
        have h2 := hF (k, a) List.mem_cons_self
        simp only at h2
        generalize a.objs = l at h2
        clear ih hF
        induction l with
        | nil => rfl
        | cons o l ih =>
          rw [List.map_cons, List.mapM_cons, h2 o List.mem_cons_self, ok_bind,
            ih (fun o ho => h2 o (List.mem_cons_of_mem _ ho))]
          rfl
      have h2 := ih (fun it hit => hF it (List.mem_cons_of_mem _ hit))
      simp only [Dict.mapVals, List.map_cons, Dict.mapValsM] at h2 ⊢
      rw [h1, ok_bind, h2]
      rfl
  rw [h, ok_bind]
  simp only [FFormContainer.toIterable, Dict.mapVals, List.map_map, Function.comp_def, FArr.toRaw]

/-- **C33, for the default `M = 16`.** A container without numeric arrays is the same after `save_fform` and
`load_fform`.  The full property, for every `M`, is false: `C33_other_M`. -/
theorem C33_round_trip_partial (S : Sympy) (R : Repr) (fs : Files) (name : Key) {c : FFormContainer}
    (hc : c.Reachable S) (hn : Symbolic c) (hM : c.getM = 16) :
    loadFform S R (saveFform R fs c name) name = .ok c := by
  have hn' := (FFormContainer.symbolic_iff hc.good).1 hn
  let F : PyObj → Expr := fun o => match o with | .sy e => e | .native _ _ => .num 0
  rw [load_save_eq (F := F)]
  · have : c.fform.mapVals (fun a => FArr.obj (a.objs.map F)) = c.fform := by
      calc _ = Dict.mapVals (fun v => v) c.fform := Dict.mapVals_congr (fun it hit => ?_)
        _ = _ := Dict.mapVals_id _
      obtain ⟨k, a⟩ := it
      have h1 := hn' _ hit
      cases a with
      | native v => cases h1
      | obj v => simp [F, Function.comp_def]
    rw [this]
    have := FFormContainer.init_16 S hc.good hn' (Or.inl hM)
    rw [show FFormContainer.mk c.fform c.M = c from rfl, this]
    cases c
    cases hM
    rfl
  · intro it hit o ho
    obtain ⟨k, a⟩ := it
    have h1 := hn' _ hit
    cases a with
    | native v => cases h1
    | obj v =>
      simp only [FArr.objs_obj, List.mem_map] at ho
      obtain ⟨e, _, rfl⟩ := ho
      exact R.round_trip e

/-- **C33, numeric arrays.** If parsing the text of a native number gives that number as a sympy number, then a
container with `M = 16` comes back with the same combinations and the same values, and no numeric arrays. -/
theorem C33_numeric_arrays_partial (S : Sympy) (R : Repr) (fs : Files) (name : Key) {c : FFormContainer}
    (hc : c.Reachable S) (hM : c.getM = 16)
    (hR : ∀ re im, ∃ e, R.parse (R.srepr (.native re im)) = .ok e ∧ ∀ σ, e.eval σ = (re : ℂ) + (im : ℂ) * Complex.I) :
    ∃ c', loadFform S R (saveFform R fs c name) name = .ok c' ∧ c'.getKeys = c.getKeys ∧ c'.getM = 16 ∧ Symbolic c' ∧
      ∀ k m f, FRepresents c k m f → FRepresents c' k m f := by
  have hval : ∀ o, ∃ e, R.parse (R.srepr o) = .ok e ∧ ∀ σ, e.eval σ = objValue σ o := by
    intro o
    cases o with
    | sy e => exact ⟨e, R.round_trip e, fun _ => rfl⟩
    | native re im => exact hR re im
  choose F hF1 hF2 using hval
  rw [load_save_eq (F := F) S R fs name (fun it _ o _ => hF1 o)]
  have hg : (FFormContainer.mk (c.fform.mapVals (fun a => FArr.obj (a.objs.map F))) c.M).Good :=
    hc.good.mapVals (fun it _ => by simp)
  have hn : ∀ it ∈ c.fform.mapVals (fun a => FArr.obj (a.objs.map F)), it.2.isNative = false := by
    rintro ⟨k, b⟩ hit
    obtain ⟨a, _, rfl⟩ := Dict.mem_mapVals.1 hit
    rfl
  have hM' : c.M = 16 := hM
  rw [FFormContainer.init_16 S hg hn (Or.inl hM')]
  rw [hM'] at hg
  refine ⟨_, rfl, by simp [FFormContainer.getKeys], rfl, (FFormContainer.symbolic_iff hg).2 hn, ?_⟩
  rintro k m f ⟨a, o, h1, h2, h3⟩
  refine ⟨.obj (a.objs.map F), .sy (F o), ?_, ?_, fun σ => by rw [← h3 σ]; exact hF2 o σ⟩
  · unfold FFormContainer.getPc at *
    rw [Dict.get_ok_iff, Dict.get?_mapVals, Dict.get_ok_iff.1 h1]
    rfl
  · rw [show c.getM = 16 from hM] at h2
    have := component_map F h2
    exact component_map PyObj.sy this

/-- **C33 is false for `M ≠ 16`.** Loading a saved container of another size raises `ValueError` when it has a
combination; without combinations the loaded container has `M = 16`. -/
theorem C33_other_M (S : Sympy) (R : Repr) (fs : Files) (name : Key) {c : FFormContainer}
    (hc : c.Reachable S) (hn : Symbolic c) (hM : c.getM ≠ 16) :
    (c.getKeys ≠ [] → loadFform S R (saveFform R fs c name) name = .error .valueError) ∧
    (c.getKeys = [] → ∃ c', loadFform S R (saveFform R fs c name) name = .ok c' ∧ c'.getM = 16) := by
  have hn' := (FFormContainer.symbolic_iff hc.good).1 hn
  let F : PyObj → Expr := fun o => match o with | .sy e => e | .native _ _ => .num 0
  have hF : ∀ it ∈ c.fform, ∀ o ∈ it.2.objs, R.parse (R.srepr o) = .ok (F o) := by
    intro it hit o ho
    obtain ⟨k, a⟩ := it
    have h1 := hn' _ hit
    cases a with
    | native v => cases h1
    | obj v =>
      simp only [FArr.objs_obj, List.mem_map] at ho
      obtain ⟨e, _, rfl⟩ := ho
      exact R.round_trip e
  rw [load_save_eq S R fs name hF]
  constructor
  · intro hk
    apply FFormContainer.init_16_error S (hc.good.mapVals (fun it _ => by simp)) hM
    intro h
    apply hk
    have : Dict.keys (c.fform.mapVals (fun a => FArr.obj (a.objs.map F))) = [] := by
      simp only at h; rw [h]; rfl
    simpa [FFormContainer.getKeys] using this
  · intro hk
    have : c.fform = [] := by
      have h : (c.fform.map Prod.fst) = [] := hk
      simpa using h
    rw [this]
    exact ⟨⟨[], 16⟩, rfl, rfl⟩

/-- **C33.** `save_fform` writes one file and overwrites what it held before; other files can still be loaded as
before, and a missing file raises `FileNotFoundError`. -/
theorem C33_files (S : Sympy) (R : Repr) (fs : Files) (name : Key) (c c' : FFormContainer) :
    (∀ n, n ≠ name → loadFform S R (saveFform R fs c name) n = loadFform S R fs n) ∧
    saveFform R (saveFform R fs c' name) c name = saveFform R fs c name ∧
    (∀ n, fs n = none → loadFform S R fs n = .error .fileNotFoundError) := by
  refine ⟨fun n hn => ?_, ?_, fun n hn => ?_⟩
  · unfold loadFform saveFform
    simp only [if_neg hn]
  · funext n
    unfold saveFform
    by_cases h : n = name <;> simp [h]
  · unfold loadFform
    rw [hn]

/-! ### The hypotheses can be met -/

theorem exFF_symbolic : Symbolic exFF := by
  rw [FFormContainer.symbolic_iff exFF_reachable.good]
  intro it hit
  simp only [exFF, List.mem_singleton] at hit
  subst hit; rfl

/-! A textual representation as `Repr` requires exists: expressions written in prefix order. -/

mutual
/-- An expression as a list of numbers, followed by `r`. -/
def tokens : Expr → List ℕ → List ℕ
  | .num q, r => 0 :: Encodable.encode q :: r
  | .I, r => 1 :: r
  | .sym s, r => 2 :: Encodable.encode (s.name.map Char.toNat) :: s.tag :: r
  | .add l, r => 3 :: tokensL l r
  | .mul l, r => 4 :: tokensL l r
  | .pow b n, r => 5 :: n :: tokens b r
  | .cos e, r => 6 :: tokens e r
  | .sin e, r => 7 :: tokens e r
/-- The same for a list of expressions. -/
def tokensL : List Expr → List ℕ → List ℕ
  | [], r => 0 :: r
  | e :: l, r => 1 :: tokens e (tokensL l r)
end

mutual
theorem tokens_inj : ∀ (e e' : Expr) (r r' : List ℕ), tokens e r = tokens e' r' → e = e' ∧ r = r'
  | .num q, e', r, r', h => by
      cases e' <;> simp [tokens] at h ⊢
      exact h
  | .I, e', r, r', h => by
      cases e' <;> simp [tokens] at h ⊢
      exact h
  | .sym s, e', r, r', h => by
      cases e' <;> simp [tokens] at h ⊢
      rename_i s'
      obtain ⟨h1, h2, h3⟩ := h
      have : s.name = s'.name := List.map_injective_iff.2 (fun a b hab => Char.toNat_inj.1 hab) h1
      cases s; cases s'
      simp_all
  | .add l, e', r, r', h => by
      cases e' <;> simp [tokens] at h ⊢
      exact tokensL_inj _ _ _ _ h
  | .mul l, e', r, r', h => by
      cases e' <;> simp [tokens] at h ⊢
      exact tokensL_inj _ _ _ _ h
  | .pow b n, e', r, r', h => by
      cases e' <;> simp [tokens] at h ⊢
      have := tokens_inj _ _ _ _ h.2
      exact ⟨⟨this.1, h.1⟩, this.2⟩
  | .cos e, e', r, r', h => by
      cases e' <;> simp [tokens] at h ⊢
      exact tokens_inj _ _ _ _ h
  | .sin e, e', r, r', h => by
      cases e' <;> simp [tokens] at h ⊢
      exact tokens_inj _ _ _ _ h
theorem tokensL_inj : ∀ (l l' : List Expr) (r r' : List ℕ), tokensL l r = tokensL l' r' → l = l' ∧ r = r'
  | [], l', r, r', h => by
      cases l' <;> simp [tokensL] at h ⊢
      exact h
  | e :: l, l', r, r', h => by
      cases l' <;> simp [tokensL] at h ⊢
      have h1 := tokens_inj _ _ _ _ h
      have h2 := tokensL_inj _ _ _ _ h1.2
      exact ⟨⟨h1.1, h2.1⟩, h2.2⟩
end

/-- The text of an expression. -/
def textOf (e : Expr) : Key := List.replicate (Encodable.encode (tokens e [])) 'x'

theorem textOf_inj {e e' : Expr} (h : textOf e = textOf e') : e = e' := by
  have h1 := congrArg List.length h
  simp only [textOf, List.length_replicate] at h1
  exact (tokens_inj _ _ _ _ (Encodable.encode_injective h1)).1

open Classical in
/-- A faithful representation. -/
noncomputable def exRepr : Repr where
  srepr o := textOf (o.sympify Sympy.plain)
  parse k := if h : ∃ e, textOf e = k then .ok h.choose else .error .valueError
  round_trip e := by
    have h : ∃ e', textOf e' = textOf ((PyObj.sy e).sympify Sympy.plain) := ⟨e, rfl⟩
    rw [dif_pos h, textOf_inj h.choose_spec]
    rfl

example : ∀ re im, ∃ e, exRepr.parse (exRepr.srepr (.native re im)) = .ok e ∧
    ∀ σ, e.eval σ = (re : ℂ) + (im : ℂ) * Complex.I := by
  intro re im
  refine ⟨(PyObj.native re im).sympify Sympy.plain, exRepr.round_trip _, fun σ => ?_⟩
  simp only [PyObj.sympify]
  split
  · rename_i h
    simp [Expr.eval, h]
  · rw [Sympy.plain.eval_norm]
    simp [Expr.eval, Expr.evalSum, Expr.evalProd]

example (R : Repr) (fs : Files) (name : Key) :
    loadFform Sympy.plain R (saveFform R fs exFF name) name = .ok exFF :=
  C33_round_trip_partial Sympy.plain R fs name exFF_reachable exFF_symbolic rfl

end Shgpy
