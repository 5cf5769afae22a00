import Verif.Model.Interrupt

/-!
Fourier data and formulas that one thread changes while other threads read them.  `get_pc`, `get_items`, `get_scale`, `get_phase_shift` and
`get_M` read one attribute, data_handler.py:519-584, 593-606, 709-744, 781-851, 1040-1088, and `get_pc` one entry of the dictionary in it:
what they return is the value at one moment.  Simplified: a `get_items` that walks the dictionary while the other thread assigns to its
entries is taken as one read of the whole dictionary.
-/

namespace Shgpy

/-- The instance at the successive moments of a list of calls made by one thread that catches the exceptions of its calls: the moments of
each call, and then what the last call leaves. -/
def traceOf {σ ω : Type} (moments : σ → ω → List σ) (step : σ → ω → σ) (c : σ) : List ω → List σ
  | [] => [c]
  | op :: l => moments c op ++ traceOf moments step (step c op) l

/-- The number of calls that have returned, or raised, at a moment. -/
def finishedOf {σ ω : Type} (moments : σ → ω → List σ) (step : σ → ω → σ) (c : σ) : List ω → ℕ → ℕ
  | [], _ => 0
  | op :: l, i => if i < (moments c op).length then 0 else 1 + finishedOf moments step (step c op) l (i - (moments c op).length)

/-- The moments of calls of `scale_fdata`, `normalize_fdata` and `phase_shift_fdata`, data_handler.py:586-591, 651-675. -/
noncomputable def FDataContainer.trace (c : FDataContainer) (ops : List FDataContainer.Op) : List FDataContainer :=
  traceOf FDataContainer.moments (fun c op => (FDataContainer.step c op).1) c ops

/-- The number of calls that have ended, data_handler.py:586-591, 651-675. -/
noncomputable def FDataContainer.finished (c : FDataContainer) (ops : List FDataContainer.Op) (i : ℕ) : ℕ :=
  finishedOf FDataContainer.moments (fun c op => (FDataContainer.step c op).1) c ops i

/-- The moments of calls of `subs`, `apply_phase_shift` and `apply_arbitrary_scale`, data_handler.py:746-779, 890-892. -/
def FFormContainer.trace (S : Sympy) (c : FFormContainer) (ops : List FFormContainer.Op) : List FFormContainer :=
  traceOf (FFormContainer.moments S) (fun c op => (FFormContainer.step S c op).1) c ops

/-- The number of calls that have ended, data_handler.py:746-779, 890-892. -/
def FFormContainer.finished (S : Sympy) (c : FFormContainer) (ops : List FFormContainer.Op) (i : ℕ) : ℕ :=
  finishedOf (FFormContainer.moments S) (fun c op => (FFormContainer.step S c op).1) c ops i

/-- The moments of calls of `subs`, `apply_phase_shift`, `simplify`, `expand` and `apply_arbitrary_scale`, data_handler.py:941-993,
1090-1092. -/
def FormContainer.trace (S : Sympy) (c : FormContainer) (ops : List FormContainer.Op) : List FormContainer :=
  traceOf (FormContainer.moments S) (fun c op => (FormContainer.step S c op).1) c ops

/-- The number of calls that have ended, data_handler.py:941-993, 1090-1092. -/
def FormContainer.finished (S : Sympy) (c : FormContainer) (ops : List FormContainer.Op) (i : ℕ) : ℕ :=
  finishedOf (FormContainer.moments S) (fun c op => (FormContainer.step S c op).1) c ops i

end Shgpy
