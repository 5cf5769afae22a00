import Verif.Props.Pandas
import Verif.Props.FormConvert

/-!
# Property C77: the accessors of the four containers show the same content
-/

set_option linter.unusedSectionVars false
set_option linter.unusedSimpArgs false

namespace Shgpy
open Spec

/-- The answers of `get_keys`, `get_values`, `get_items` and `get_pc` belong to one table: keys and values are the columns of
the items, no key occurs twice, and `get_pc` finds exactly the entries, with `KeyError` for every other key. -/
structure Spec.OneTable {α : Type} (keys : List Key) (values : List α) (items : List (Key × α)) (pc : Key → Except Err α) :
    Prop where
  rows : items = keys.zip values
  size : keys.length = values.length
  distinct : keys.Nodup
  found : ∀ k v, pc k = .ok v ↔ (k, v) ∈ items
  missing : ∀ k e, pc k = .error e ↔ k ∉ keys ∧ e = .keyError

theorem oneTable_of {α : Type} {d : Dict Key α} (h : Dict.WF d) : OneTable (Dict.keys d) (Dict.values d) d (Dict.get d) where
  rows := by
    unfold Dict.keys Dict.values
    rw [List.zip_map']
    simp
  size := by simp [Dict.keys, Dict.values]
  distinct := h
  found k v := by rw [Dict.get_ok_iff, Dict.get?_eq_some_iff h]
  missing k e := Dict.get_error_iff

section
variable {K : Type} [Field K] [LinearOrder K] [IsStrictOrderedRing K] [FloorRing K] [HasPi K]

/-- **C77** for `DataContainer`, in radians and in degrees, in upper or lower case. -/
theorem C77_data {c : DataContainer K} (hc : c.Reachable) {units : Key} (hu : lower units = sRadians ∨ lower units = sDegrees) :
    ∃ values items, c.getValues units = .ok values ∧ c.getItems units = .ok items ∧
      OneTable c.getKeys values items (fun k => c.getPc k units) ∧ c.getItems (lower units) = .ok items := by
  have hwf := (reachable_normalForm hc).1
  have hwf' : Dict.WF c.dataDegrees := by
    unfold DataContainer.dataDegrees
    simpa [Dict.WF] using hwf
  have hk : c.getKeys = Dict.keys c.dataDegrees := by
    unfold DataContainer.getKeys DataContainer.dataDegrees
    simp
  unfold DataContainer.getValues DataContainer.getItems DataContainer.getPc
  rcases hu with h | h
  · rw [h]
    exact ⟨_, _, rfl, rfl, oneTable_of hwf, rfl⟩
  · rw [h]
    refine ⟨c.dataDegrees.values, c.dataDegrees, rfl, rfl, ?_, rfl⟩
    rw [hk]
    exact oneTable_of hwf'

/-- **C77.** Other units are a `ValueError` in every accessor. -/
theorem C77_units (c : DataContainer K) {units : Key} (hu : lower units ≠ sRadians) (hu' : lower units ≠ sDegrees) (k : Key) :
    c.getValues units = .error .valueError ∧ c.getItems units = .error .valueError ∧ c.getPc k units = .error .valueError := by
  have h : checkAngleUnits (lower units) = .error .valueError := by
    unfold checkAngleUnits
    simp [hu, hu']
  unfold DataContainer.getValues DataContainer.getItems DataContainer.getPc
  rw [h]
  exact ⟨rfl, rfl, rfl⟩

end

/-- **C77** for `fDataContainer`. -/
theorem C77_fdata {c : FDataContainer} (hc : c.Reachable) : OneTable c.getKeys c.getValues c.getItems c.getPc :=
  oneTable_of hc.good.wf

/-- **C77** for `fFormContainer`. -/
theorem C77_fform (S : Sympy) {c : FFormContainer} (hc : c.Reachable S) : OneTable c.getKeys c.getValues c.getItems c.getPc :=
  oneTable_of hc.good.wf

/-- **C77** for `FormContainer`. -/
theorem C77_form (S : Sympy) {c : FormContainer} (hc : c.Reachable S) : OneTable c.getKeys c.getValues c.getItems c.getPc :=
  oneTable_of hc.wf

/-- The hypotheses are met. -/
example : ∃ values items, frameDat.getValues ['D', 'e', 'g', 'r', 'e', 'e', 's'] = .ok values ∧
    frameDat.getItems ['D', 'e', 'g', 'r', 'e', 'e', 's'] = .ok items ∧
    OneTable frameDat.getKeys values items (fun k => frameDat.getPc k ['D', 'e', 'g', 'r', 'e', 'e', 's']) := by
  obtain ⟨values, items, h1, h2, h3, _⟩ := C77_data frameDat_reachable (units := ['D', 'e', 'g', 'r', 'e', 'e', 's']) (Or.inr (by decide))
  exact ⟨values, items, h1, h2, h3⟩

example : OneTable exFF.getKeys exFF.getValues exFF.getItems exFF.getPc ∧
    OneTable exCos2.getKeys exCos2.getValues exCos2.getItems exCos2.getPc :=
  ⟨C77_fform _ exFF_reachable, C77_form _ (singleForm_reachable Sympy.plain _ _)⟩

end Shgpy
