import Verif.Model.FFormFit
import Verif.Spec.Glob

/-!
# The files that `load_model_func` finds (C58)
-/

namespace Shgpy
open Spec

theorem matches_of_glob : ∀ (ps cs : List Char), globMatch ps cs = true → Matches ps cs
  | [], [], _ => .nil
  | [], _ :: _, h => by simp [globMatch] at h
  | p :: ps, [], h => by
    rw [globMatch] at h
    simp only [Bool.and_eq_true, beq_iff_eq] at h
    rw [h.1]
    exact .star [] (matches_of_glob ps [] h.2)
  | p :: ps, c :: cs, h => by
    rw [globMatch] at h
    split_ifs at h with h1 h2
    · rcases (Bool.or_eq_true _ _).mp h with h | h
      · rw [h1]
        exact .star [] (matches_of_glob ps (c :: cs) h)
      · have := matches_of_glob (p :: ps) cs h
        rw [h1] at this ⊢
        cases this with
        | star w hw => exact .star (c :: w) hw
        | self hs _ _ => exact absurd rfl hs
    · rw [h2]; exact .one c (matches_of_glob ps cs h)
    · simp only [Bool.and_eq_true, beq_iff_eq] at h
      obtain ⟨rfl, h⟩ := h
      exact .self h1 h2 (matches_of_glob ps cs h)
termination_by ps cs => ps.length + cs.length

theorem globMatch_append {ps cs : List Char} (h : globMatch ps cs = true) : ∀ w, globMatch ('*' :: ps) (w ++ cs) = true
  | [] => by
    cases cs with
    | nil => rw [List.nil_append, globMatch]; simp [h]
    | cons c cs => rw [List.nil_append, globMatch]; simp [h]
  | c :: w => by
    rw [List.cons_append, globMatch]
    simp [globMatch_append h w]

/-- C58, the search for files: the model of `glob` accepts exactly the names that match the pattern. -/
theorem C58_glob (ps cs : List Char) : globMatch ps cs = true ↔ Matches ps cs := by
  refine ⟨matches_of_glob ps cs, fun h => ?_⟩
  induction h with
  | nil => rw [globMatch]
  | star w _ ih => exact globMatch_append ih w
  | one c _ ih => rw [globMatch]; simp [ih]
  | self h1 h2 _ ih => rw [globMatch]; simp [ih, h1, h2]

/-- A name that matches and one that does not. -/
example : Matches ['P', '?', '_', '*', 's', 'o'] ['P', 'S', '_', '1', '2', 's', 'o'] ∧ ¬ Matches ['P', '_', '*'] ['P', '1'] := by
  constructor
  · rw [← C58_glob]; simp [globMatch]
  · rw [← C58_glob]; simp [globMatch]

end Shgpy
