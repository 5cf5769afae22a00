import Verif.Spec.Form
import Verif.Spec.Intensity
import Verif.Model.FFormFit
import Mathlib.Analysis.Calculus.Deriv.Basic

/-!
# Specification vocabulary for fits
-/

namespace Shgpy.Spec

/-- Component `m` of combination `k` of the Fourier data is the number `z`. -/
def DRepresents (c : FDataContainer) (k : Key) (m : ℤ) (z : ℂ) : Prop :=
  ∃ v, c.getPc k = .ok v ∧ Component v c.getM m z

/-- A number that a pair of floats can represent: real and imaginary part are rational. -/
def MachineNumber (z : ℂ) : Prop := ∃ a b : ℚ, z = (a : ℂ) + (b : ℂ) * Complex.I

/-- The components of the Fourier formula are the functions `F k m` of the parameters, for every combination of the formula
and every frequency. -/
def FormulaIs (fform : FFormContainer) (F : Key → ℤ → Valuation → ℂ) : Prop :=
  ∀ k ∈ fform.getKeys, ∀ m, -(fform.getM : ℤ) ≤ m → m ≤ fform.getM → FRepresents fform k m (F k m)

/-- The Fourier data have, for the combinations and frequencies of the formula, the components `D k m`, which are machine
numbers. -/
def DataIs (fform : FFormContainer) (fdat : FDataContainer) (D : Key → ℤ → ℂ) : Prop :=
  ∀ k ∈ fform.getKeys, ∀ m, -(fform.getM : ℤ) ≤ m → m ≤ fform.getM → DRepresents fdat k m (D k m) ∧ MachineNumber (D k m)

/-- The sum over the combinations `k` and the frequencies `-M ≤ m ≤ M` of `|F_{k,m} - D_{k,m}|²`, when the parameters have the
values `r`. -/
noncomputable def misfit (keys : List Key) (M : ℕ) (F : Key → ℤ → Valuation → ℂ) (D : Key → ℤ → ℂ) (r : Sym → ℝ) : ℝ :=
  (keys.map (fun k => ∑ m ∈ Finset.Icc (-(M : ℤ)) M, ‖F k m (realVal r) - D k m‖ ^ 2)).sum

/-- `l` lists every symbol of the formula, and no symbol twice. -/
def Lists (fform : FFormContainer) (l : List Sym) : Prop := l.Nodup ∧ ∀ s, FOccurs fform s → s ∈ l

/-- The list `l` is the order of the arguments: the one given, or the default one. -/
def ArgumentOrder (S : Sympy) (fform : FFormContainer) (arguments : Option (List Sym)) (l : List Sym) : Prop :=
  (arguments = some l ∧ Lists fform l) ∨ (arguments = none ∧ fform.getFreeSymbols S = .ok l)

/-- Every symbol of the formula has the assumption of being real. -/
def RealSymbols (fform : FFormContainer) : Prop := ∀ s, FOccurs fform s → s.tag = 1

/-- The cost function of a fit comes from a formula and data that fit together, or from a file that has a function with the
same values. -/
def CostSource (fform : FFormContainer) (fdat : FDataContainer) (F : Key → ℤ → Valuation → ℂ)
    (D : Key → ℤ → ℂ) (l : List Sym) (chunk : Bool) (load : Option Key) (d : Disk) : Prop :=
  (load = none ∧ fdat.getM = fform.getM ∧ FormulaIs fform F ∧ DataIs fform fdat D ∧ (chunk = true → fform.getKeys ≠ [])) ∨
  (∃ name f d', load = some name ∧ loadFunc d name = .ok (f, d') ∧ ∀ r, f (l.map r) = misfit fform.getKeys fform.getM F D r)

/-- The list `v` has, in the order of `l`, the partial derivatives of `g` at the point `r`. -/
def IsGradient (l : List Sym) (g : (Sym → ℝ) → ℝ) (r : Sym → ℝ) (v : List ℝ) : Prop :=
  v.length = l.length ∧ ∀ (i : ℕ) (s : Sym), l[i]? = some s → ∃ y, v[i]? = some y ∧
    HasDerivAt (fun t => g (Function.update r s t)) y (r s)

/-- The function computes the misfit and its gradient. -/
def IsMisfitGrad (fform : FFormContainer) (F : Key → ℤ → Valuation → ℂ) (D : Key → ℤ → ℂ) (l : List Sym) (f : CGrad) : Prop :=
  ∀ r : Sym → ℝ, (f (l.map r)).1 = misfit fform.getKeys fform.getM F D r ∧
    IsGradient l (misfit fform.getKeys fform.getM F D) r (f (l.map r)).2

/-- The cost function and the gradient of a fit come from a formula in real symbols and data that fit together and a misfit
that is not constant, or from files that have functions with the right values. -/
def GradSource (fform : FFormContainer) (fdat : FDataContainer) (F : Key → ℤ → Valuation → ℂ)
    (D : Key → ℤ → ℂ) (l : List Sym) (chunk : Bool) (load gradLoad : Option Key) (d : Disk) : Prop :=
  ((load = none ∨ gradLoad = none) ∧ chunk = false ∧ fdat.getM = fform.getM ∧ RealSymbols fform ∧ FormulaIs fform F ∧
    DataIs fform fdat D ∧ ∃ r₁ r₂, misfit fform.getKeys fform.getM F D r₁ ≠ misfit fform.getKeys fform.getM F D r₂) ∨
  (∃ name pre f d', load = some name ∧ gradLoad = some pre ∧ loadEnergyAndDenergy d name pre = .ok (f, d') ∧
    IsMisfitGrad fform F D l f)

/-- The result of a fit is the optimizer's and reports that the parameters `l` have the values `r`. -/
def Reports (res : OptResult) (l : List Sym) (r : Sym → ℝ) : Prop :=
  res.optimized = true ∧ res.x = l.map r ∧ Dict.keys res.xdict = l ∧ ∀ s ∈ l, Dict.get res.xdict s = .ok (r s)

/-- The caller's option dictionary does not have any of these entries. -/
def Without (kwargs : Kwargs) (names : List Key) : Prop := ∀ q ∈ names, q ∉ Dict.keys kwargs

/-- What a fit returns when the optimizer is called as in `call`: the values of the parameters that the optimizer found, or
the optimizer's error. -/
def FitOutcome {γ : Type} (opt : Optimizer γ) (call : γ) (l : List Sym) (out : Except Err OptResult) : Prop :=
  (∀ r, opt call = .ok (l.map r) → ∃ res, out = .ok res ∧ Reports res l r) ∧ ∀ e, opt call = .error e → out = .error e

/-- The options for the local minimizer in the caller's dictionary. -/
def UserOptions (kwargs : Kwargs) (d : Dict Key OptVal) : Prop :=
  Dict.WF d ∧ (Dict.get? kwargs sMinimizer = some (.dict d) ∨ (sMinimizer ∉ Dict.keys kwargs ∧ d = []))

/-- The call of the optimizer has the guess, the step size and the number of iterations of the caller, and for the minimizer
the options of the caller and, for the others, the options `own`. -/
def BHArguments (call : BHCall) (l : List Sym) (g : Sym → ℝ) (user own : Dict Key OptVal) (niter : ℕ) (stepsize : ℝ)
    (kwargs : Kwargs) : Prop :=
  call.x0 = l.map g ∧ call.niter = niter ∧ call.stepsize = stepsize ∧
  (∀ q, Dict.get? call.minimizer q = (Dict.get? user q).or (Dict.get? own q)) ∧
  call.kwargs = kwargs.filter (fun p => p.1 ≠ sMinimizer)

/-- The value of the option `bounds`. -/
def boundsOption (l : List Sym) (lo hi : Sym → ℝ) (boundsDict : Option (Dict Sym (ℝ × ℝ))) : OptVal :=
  if boundsDict.isSome then .bounds (l.map (fun s => (lo s, hi s))) else .none

/-- The bounds dictionary, if there is one, has the bounds `lo s` and `hi s` for every parameter. -/
def BoundsAre (boundsDict : Option (Dict Sym (ℝ × ℝ))) (l : List Sym) (lo hi : Sym → ℝ) : Prop :=
  ∀ b, boundsDict = some b → ∀ s ∈ l, Dict.get b s = .ok (lo s, hi s)

/-- The name of a polarization combination has no character with a special meaning in a file name or a file pattern. -/
def PlainName (k : Key) : Prop := ∀ c ∈ ['_', '*', '?', '[', '/'], c ∉ k

/-- The number of terms of an expression: the terms of a sum, or one. -/
def termCount : Expr → ℕ
  | .add l => l.length
  | _ => 1

end Shgpy.Spec
