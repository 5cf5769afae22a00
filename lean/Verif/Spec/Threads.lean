import Verif.Model.Threads
import Verif.Spec.Interrupt

/-!
# Specification vocabulary for threads that use one container (C136)
-/

namespace Shgpy.Spec

variable {K : Type} [Field K] [LinearOrder K] [FloorRing K] [HasPi K]
open DataContainer

/-- The factor by which a call multiplies the values, if it is a scaling; negative factors are rejected. -/
def factorOf : Op K → K
  | .scale s => if s < 0 then 1 else s
  | _ => 1

/-- The angle by which a call turns the data, if it is a phase shift; other units are rejected. -/
def turnOf : Op K → K
  | .phaseShift a u => if lower u = sRadians then a else if lower u = sDegrees then HasPi.pi / 180 * a else 0
  | _ => 0

/-- The call is a `scale_data` or a `phase_shift_data`. -/
def ScaleOrTurn : Op K → Prop
  | .scale _ => True
  | .phaseShift _ _ => True
  | _ => False

/-- The product of the factors of the calls. -/
def factors (l : List (Op K)) : K := (l.map factorOf).prod

/-- The sum of the angles of the calls. -/
def turns (l : List (Op K)) : K := (l.map turnOf).sum

/-- Every thread has made all its calls. -/
def Finished (w : Threads.World K) : Prop := ∀ t ∈ w.threads, (∃ e, t.now = .stop e) ∧ t.later = []

/-- The thread with number `i` is between two calls, and is going to make the calls `l`. -/
def Resting (w : Threads.World K) (i : ℕ) (l : List (Op K)) : Prop := ∃ e, w.threads[i]? = some ⟨.stop e, l⟩

/-- The threads take turns, as with a lock around each call: `w'` is reached from `w` when one thread after the other makes one or more
whole calls while the others wait; the calls are, in this order, those in the list. -/
inductive InTurns : Threads.World K → Threads.World K → List (Op K) → Prop
  | refl (w) : InTurns w w []
  | turn {w w' : Threads.World K} {done : List (Op K)} (i n : ℕ) (l l' : List (Op K)) : InTurns w w' done → Resting w' i (l ++ l') →
      Resting (w'.run (List.replicate n i)) i l' → InTurns w (w'.run (List.replicate n i)) (done ++ l)

end Shgpy.Spec
