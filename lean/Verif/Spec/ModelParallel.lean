import Verif.Model.ModelParallel

/-!
# Specification vocabulary for processes that generate model functions at the same time (C128)
-/

namespace Shgpy.Spec

/-- The files that are found in a folder with exactly these libraries in it. -/
def libFolder (libs : List (Key × CFunc)) : Node := .dir (Dict.ofPairs (libs.map (fun p => (p.1, some p.2))))

/-- What a folder can be while it is generated: not there, a part of the old folder, or a folder of new libraries and of one that is
not complete. -/
def FolderProgress (old new : Option Node) (libs : List (Key × CFunc)) : Prop :=
  new = none ∨
  (∃ c c', old = some (.dir c) ∧ new = some (.dir c') ∧ ∀ name v, Dict.get? c' name = some v → Dict.get? c name = some v) ∨
  ∃ c, new = some (.dir c) ∧ ∀ name v, Dict.get? c name = some v → ∃ f, (name, f) ∈ libs ∧ (v = none ∨ v = some f)

/-- The number of files in a folder. -/
def fileCount : Option Node → ℕ
  | some (.dir c) => c.length
  | _ => 0

/-- A bound for the number of steps that a process needs: one for every old file, two for every library, and four more. -/
def folderSteps (old : Option Node) (libs : List (Key × CFunc)) : ℕ := fileCount old + 2 * libs.length + 4

/-- The calls of `gen_model_func` in `n` processes, as folders and libraries. -/
noncomputable def modelCalls (S : Sympy) (C : Compiler) (L : Listing) (n : ℕ) (d : ℕ → Disk) (fform : ℕ → FFormContainer) (folder : ℕ → Key) (per : ℕ → ℤ) :
    List (Key × List (Key × CFunc)) :=
  (List.range n).map (fun i => (folder i, (modelTrace S C L (d i) (fform i) (folder i) (per i)).libs))

end Shgpy.Spec
