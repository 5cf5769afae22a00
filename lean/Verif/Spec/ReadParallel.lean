import Verif.Model.ReadParallel
import Verif.Spec.Crash

/-!
# Specification vocabulary for loading while another process writes (C130)
-/

namespace Shgpy.Spec

/-- `v t` is the disk at operation number `t` of a process, while another one goes through the steps of a call: before every operation
any number of further steps have been made. -/
def Watches {α : Type} (d : Disk) (call : Trace α) (v : ℕ → Disk) : Prop :=
  ∃ n : ℕ → ℕ, Monotone n ∧ ∀ t, v t = d.after (call.steps.take (n t))

/-- The value that the libraries `re` and `im` give together. -/
noncomputable def sumOf (re im : List (Key × CFunc)) (x : List ℝ) : ℂ :=
  (re.map (fun p => ((p.2 x : ℝ) : ℂ))).sum + Complex.I * (im.map (fun p => ((p.2 x : ℝ) : ℂ))).sum

end Shgpy.Spec
