import Verif.Model.Merge
import Verif.Spec.Angle
import Verif.Spec.Form

/-!
# Specification vocabulary for merging containers
-/

namespace Shgpy.Spec

/-- The combinations of a container with their values, in order. -/
def shown : AnyC → List (Key × MVal)
  | .data c => c.data.map (fun kv => (kv.1, .arr2 kv.2))
  | .fdata c => c.fdata.map (fun kv => (kv.1, .arr1 kv.2))
  | .form c => c.form.map (fun kv => (kv.1, .expr kv.2))
  | .fform c => c.fform.map (fun kv => (kv.1, .farr kv.2))

/-- All combinations of all containers in order, each under the key that the mapping gives to it. -/
def mergeEntries {κ : Type} (cs : List AnyC) (m : Key → ℕ → κ) : List (κ × MVal) :=
  cs.zipIdx.flatMap (fun ci => (shown ci.1).map (fun kv => (m kv.1 ci.2, kv.2)))

/-- `v` is the value of the last entry with key `k`. -/
def LastAt {κ α : Type} (l : List (κ × α)) (k : κ) (v : α) : Prop :=
  ∃ pre post, l = pre ++ (k, v) :: post ∧ ∀ p ∈ post, p.1 ≠ k

/-- The value can be stored in a container with `M = 16`: Fourier arrays have 33 components and are not numeric formula
arrays. -/
def Fits : MVal → Prop
  | .arr1 v => v.length = 33
  | .farr a => a.objs.length = 33 ∧ a.isNative = false
  | _ => True

end Shgpy.Spec
