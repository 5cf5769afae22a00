import Verif.Model.FormThreads
import Verif.Spec.Form

/-!
# Specification vocabulary for threads that use one container of formulas (C144)
-/

namespace Shgpy.Spec

variable {α O : Type}

/-- Every thread has made all its calls. -/
def AllDone (w : FormThreads.World α O) : Prop := ∀ t ∈ w.threads, (∃ e, t.now = .stop e) ∧ t.later = []

/-- The thread with number `i` is between two calls, and is going to make the calls `l`. -/
def BetweenCalls (w : FormThreads.World α O) (i : ℕ) (l : List O) : Prop := ∃ e, w.threads[i]? = some ⟨.stop e, l⟩

/-- The threads take turns, as with a lock around each call: `w'` is reached from `w` when one thread after the other makes one or more
whole calls while the others wait; the calls are, in this order, those in the list. -/
inductive TakingTurns (pr : O → FormThreads.Prog α) : FormThreads.World α O → FormThreads.World α O → List O → Prop
  | refl (w) : TakingTurns pr w w []
  | turn {w w' : FormThreads.World α O} {done : List O} (i n : ℕ) (l l' : List O) : TakingTurns pr w w' done → BetweenCalls w' i (l ++ l') →
      BetweenCalls (w'.run pr (List.replicate n i)) i l' → TakingTurns pr w (w'.run pr (List.replicate n i)) (done ++ l)

/-- The function that a formula stands for after the calls in the list, the first one first. -/
noncomputable def formEffects (l : List FormContainer.Op) (f : Valuation → ℂ) : Valuation → ℂ := l.foldl (fun f op => formEffect op f) f

/-- The function that the component of frequency `m` stands for after the calls in the list, the first one first. -/
noncomputable def fformEffects (m : ℤ) (l : List FFormContainer.Op) (f : Valuation → ℂ) : Valuation → ℂ :=
  l.foldl (fun f op => fformEffect op m f) f

end Shgpy.Spec
