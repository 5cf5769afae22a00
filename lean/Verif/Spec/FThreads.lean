import Verif.Model.FThreads
import Verif.Spec.Interrupt

/-!
# Specification vocabulary for threads that use one container of Fourier data (C143)
-/

namespace Shgpy.Spec

open FDataContainer

/-- A factor that a call may multiply the data by: that of a scaling, unless it is negative and rejected; some factor that is not negative for a
normalization; and 1 for a phase shift. -/
def FFactor : Op → ℝ → Prop
  | .scale s, f => f = if s < 0 then 1 else s
  | .normalize _, f => 0 ≤ f
  | .phaseShift _ _, f => f = 1

/-- The angle by which a call turns the data, if it is a phase shift; other units are rejected. -/
noncomputable def fTurn : Op → ℝ
  | .phaseShift a u => if lower u = sRadians then a else if lower u = sDegrees then Real.pi / 180 * a else 0
  | _ => 0

/-- The sum of the angles of the calls. -/
noncomputable def fTurns (l : List Op) : ℝ := (l.map fTurn).sum

/-- Every thread has made all its calls. -/
def FFinished (w : FThreads.World) : Prop := ∀ t ∈ w.threads, (∃ e, t.now = .stop e) ∧ t.later = []

/-- The thread with number `i` is between two calls, and is going to make the calls `l`. -/
def FResting (w : FThreads.World) (i : ℕ) (l : List Op) : Prop := ∃ e, w.threads[i]? = some ⟨.stop e, l⟩

/-- The threads take turns, as with a lock around each call: `w'` is reached from `w` when one thread after the other makes one or more
whole calls while the others wait; the calls are, in this order, those in the list. -/
inductive FInTurns : FThreads.World → FThreads.World → List Op → Prop
  | refl (w) : FInTurns w w []
  | turn {w w' : FThreads.World} {done : List Op} (i n : ℕ) (l l' : List Op) : FInTurns w w' done → FResting w' i (l ++ l') →
      FResting (w'.run (List.replicate n i)) i l' → FInTurns w (w'.run (List.replicate n i)) (done ++ l)

end Shgpy.Spec
