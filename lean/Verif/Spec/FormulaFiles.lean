import Verif.Model.FormulaFiles
import Verif.Spec.Intensity
import Verif.Spec.Trig

/-!
# Specification vocabulary for files of Fourier formulas that are written step by step (C132, C133)
-/

namespace Shgpy.Spec

/-- The file of the array for a combination. -/
def arrayFile (pre : Key) (p q : Pol) : Key :=
  pre ++ ['_'] ++ [if p = .P then 'p' else 's', if q = .P then 'p' else 's'] ++ ['.', 'n', 'p', 'y']

/-- The number of the combination in the order in which its file is written and read: `PP`, `PS`, `SP`, `SS`. -/
def comboNumber (p q : Pol) : ℕ := (if p = .P then 0 else 2) + (if q = .P then 0 else 1)

/-- The container holds the Fourier components of the intensity of the crystal with the tensors `chiD` and `chiQ`, where the angle of
incidence is `θ p q` in the combination `pq`. -/
def HoldsIntensities (c : FFormContainer) (chiD chiQ : Nd Expr) (θ : Pol → Pol → (Sym → ℝ) → ℝ) : Prop :=
  c.getKeys = [combo .P .P, combo .P .S, combo .S .P, combo .S .S] ∧ c.getM = 16 ∧
  ∀ p q m, -16 ≤ m ∧ m ≤ 16 → RealComponent c (combo p q) m (fun r => integralCoeff (fun x =>
    (intensity (crystalOf (some chiD) none (some chiQ) (realVal r)) (θ p q r) (x + Real.pi) p q : ℂ)) m)

/-- `l` are the steps with which one of the two functions that write arrays writes the arrays for the angle of incidence `θ`, which is a
number or the symbol `theta`. -/
inductive WritesArrays (S : Sympy) (pre : Key) : ((Sym → ℝ) → ℝ) → List (WStep (List FTensor)) → Prop
  | num {aoi : ℚ} {l : List (WStep (List FTensor))} (h : uncontractedSteps S aoi pre 16 = .ok l) : WritesArrays S pre (fun _ => aoi) l
  | symb {l : List (WStep (List FTensor))} (h : uncontractedSymbSteps S pre 16 = .ok l) : WritesArrays S pre (fun r => r thetaSym) l

/-- The events are steps of several processes; each makes the first steps of its call, perhaps not all of them. -/
def Interleaved {ι α : Type} [DecidableEq ι] (calls : ι → List (WStep α)) (events : List (ι × WStep α)) : Prop :=
  ∀ i, (events.filter (fun e => e.1 = i)).map Prod.snd <+: calls i

/-- The process has made all steps of its call. -/
def Completed {ι α : Type} [DecidableEq ι] (calls : ι → List (WStep α)) (events : List (ι × WStep α)) (i : ι) : Prop :=
  (events.filter (fun e => e.1 = i)).map Prod.snd = calls i

end Shgpy.Spec
