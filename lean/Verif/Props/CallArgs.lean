import Verif.Model.CallArgs
import Verif.Props.FFormFitCases

/-!
# Property C86: cost and model functions depend on the values of their argument array only
-/

set_option linter.unusedSectionVars false

namespace Shgpy
open Spec

theorem readArgs_contiguous (B : Bits) (mem : Memory) (x : View) {n : ℕ} (hs : x.stride = 1) (hn : x.len = n)
    (hf : ∀ i < x.len, ∃ y, mem (x.addr i) = .float y) : readArgs B mem x.base n = x.values mem := by
  subst hn
  refine List.map_congr_left (fun i hi => ?_)
  obtain ⟨y, hy⟩ := hf i (List.mem_range.1 hi)
  have ha : x.base + (i : ℤ) = x.addr i := by rw [View.addr, hs, mul_one]
  rw [ha, hy]
  rfl

theorem View.length_values (x : View) (mem : Memory) : (x.values mem).length = x.len := by simp [View.values]

theorem readArgs_astype (B : Bits) (mem : Memory) (free : ℤ) (x : View) {n : ℕ} (hn : x.len = n) :
    readArgs B (x.astypeFloat mem free).1 (x.astypeFloat mem free).2.base n = x.values mem := by
  subst hn
  refine List.map_congr_left (fun i hi => ?_)
  have hi' := List.mem_range.1 hi
  have h1 : free ≤ free + (i : ℤ) ∧ free + (i : ℤ) < free + (x.len : ℤ) := ⟨by omega, by omega⟩
  show Word.asDouble B (if free ≤ free + (i : ℤ) ∧ free + (i : ℤ) < free + (x.len : ℤ) then
    .float (mem (x.addr (free + (i : ℤ) - free).toNat)).value else mem (free + (i : ℤ))) = _
  rw [if_pos h1]
  have h2 : (free + (i : ℤ) - free).toNat = i := by omega
  rw [h2]
  rfl

section
variable (S : Sympy) (C : Compiler) (B : Bits)

/-- C86.  A cost function that is called with an array of floats that lie side by side, with the values of the parameters in
their order, returns the misfit, whatever else is in the memory.  Partial: for arrays of integers or with gaps the statement is
false. -/
theorem C86_cost_partial (d : Disk) {fform : FFormContainer} (hc : fform.Reachable S) {fdat : FDataContainer}
    {arguments : Option (List Sym)} {l : List Sym} (hl : ArgumentOrder S fform arguments l)
    (hM : fdat.getM = fform.getM) {F : Key → ℤ → Valuation → ℂ} {D : Key → ℤ → ℂ} (hF : FormulaIs fform F)
    (hD : DataIs fform fdat D) (chunk : Bool) (hne : chunk = true → fform.getKeys ≠ []) (save : Option Key) :
    ∃ f d', genCostFunc S C d fform fdat arguments chunk save = .ok (f, d') ∧
      ∀ (mem : Memory) (x : View) (r : Sym → ℝ), x.values mem = l.map r → x.stride = 1 →
        (∀ i < x.len, ∃ y, mem (x.addr i) = .float y) →
        callFunc B f l.length mem x = misfit fform.getKeys fform.getM F D r := by
  obtain ⟨f, d', h1, h2⟩ := C57_cost S C d hc hl hM hF hD chunk hne save
  refine ⟨f, d', h1, fun mem x r hv hs hf => ?_⟩
  have hlen : x.len = l.length := by rw [← View.length_values x mem, hv, List.length_map]
  rw [callFunc, readArgs_contiguous B mem x hs hlen hf, hv, h2]

/-- C86.  A model function that is called with any array, of floats or integers and with or without gaps, with the values of the
parameters in their order, returns the component of the formula, whatever else is in the memory and wherever the copy of the
array is placed. -/
theorem C86_model (d : Disk) {fform : FFormContainer} (hc : fform.Reachable S) (hreal : RealSymbols fform) {l : List Sym}
    (hl : fform.getFreeSymbols S = .ok l) {F : Key → ℤ → Valuation → ℂ} (hF : FormulaIs fform F) (folder : Key) {n : ℤ}
    (hn : 0 < n) :
    ∃ f d', genModelFunc S C d fform folder n = .ok (f, d') ∧
      ∀ (mem : Memory) (free : ℤ) (x : View) (r : Sym → ℝ), x.values mem = l.map r →
        ∀ k ∈ fform.getKeys, ∀ m : ℤ, -(fform.getM : ℤ) ≤ m → m ≤ fform.getM →
          callModel B f l.length mem free x k m = .ok (F k m (realVal r)) := by
  obtain ⟨f, d', h1, h2, _⟩ := C58_model S C d hc hreal hl hF folder hn
  refine ⟨f, d', h1, fun mem free x r hv k hk m hm1 hm2 => ?_⟩
  have hlen : x.len = l.length := by rw [← View.length_values x mem, hv, List.length_map]
  have h3 := h2 k hk m hm1 hm2 r []
  rw [List.append_nil] at h3
  rw [callModel, readArgs_astype B mem free x hlen, hv, h3]

end

namespace FitCases

/-- The cost function `2 (b - 1)² + (a - 2)²`, for the calls below. -/
theorem cost_values (d : Disk) : ∃ f d', genCostFunc Sympy.plain compiler d formula data none false none = .ok (f, d') ∧
    ∀ a b : ℝ, f [a, b] = 2 * (b - 1) ^ 2 + (a - 2) ^ 2 := by
  obtain ⟨f, d', h1, h2⟩ := C57_cost Sympy.plain compiler d formula_reachable (Or.inr ⟨rfl, free_symbols⟩) rfl formulaIs dataIs
    false (by simp) none
  refine ⟨f, d', h1, fun a b => ?_⟩
  have := h2 (fun s => if s = symA then a else b)
  rw [misfit_eq] at this
  have hab : symB ≠ symA := by decide
  simpa [hab] using this

/-- Every second element of an array: numpy shows `2`, `1`. -/
def every2 : View := ⟨0, 2, 2⟩
/-- Two elements side by side. -/
def side2 : View := ⟨0, 1, 2⟩
/-- One element. -/
def one : View := ⟨0, 1, 1⟩
/-- The memory with the given floats. -/
def floats (l : List ℝ) : Memory := fun p => .float (l.getD p.toNat 0)
/-- The memory with the given integers. -/
def ints (l : List ℤ) : Memory := fun p => .int (l.getD p.toNat 0)

/-- C86.  A slice with gaps: the array shows the best parameters `2`, `1`, for which the misfit is zero, but the function
returns 2. -/
theorem C86_slice_broken (B : Bits) (d : Disk) :
    ∃ f d', genCostFunc Sympy.plain compiler d formula data none false none = .ok (f, d') ∧
      every2.values (floats [2, 0, 1]) = [2, 1] ∧ f [2, 1] = 0 ∧ callFunc B f 2 (floats [2, 0, 1]) every2 = 2 := by
  obtain ⟨f, d', h1, h2⟩ := cost_values d
  refine ⟨f, d', h1, ?_, by rw [h2]; norm_num, ?_⟩
  · simp [every2, View.values, View.addr, floats, Word.value, List.range_succ]
  · have : callFunc B f 2 (floats [2, 0, 1]) every2 = f [2, 0] := by
      simp [callFunc, readArgs, every2, floats, Word.asDouble, List.range_succ]
    rw [this, h2]
    norm_num

/-- C86.  An array of integers: it shows the best parameters `2`, `1`, for which the misfit is zero, but the function returns a
number greater than 5. -/
theorem C86_integers_broken (B : Bits) (d : Disk) :
    ∃ f d', genCostFunc Sympy.plain compiler d formula data none false none = .ok (f, d') ∧
      side2.values (ints [2, 1]) = [2, 1] ∧ f [2, 1] = 0 ∧ 5 < callFunc B f 2 (ints [2, 1]) side2 := by
  obtain ⟨f, d', h1, h2⟩ := cost_values d
  refine ⟨f, d', h1, ?_, by rw [h2]; norm_num, ?_⟩
  · simp [side2, View.values, View.addr, ints, Word.value, List.range_succ]
  · have : callFunc B f 2 (ints [2, 1]) side2 = f [2 * (2 : ℝ) ^ (-1074 : ℤ), 1 * (2 : ℝ) ^ (-1074 : ℤ)] := by
      have e2 := B.small 2 (by norm_num) (by norm_num)
      have e1 := B.small 1 (by norm_num) (by norm_num)
      push_cast at e1 e2
      rw [← e2, ← e1]
      simp [callFunc, readArgs, side2, ints, Word.asDouble, List.range_succ]
    rw [this, h2]
    have hs : (0 : ℝ) < (2 : ℝ) ^ (-1074 : ℤ) ∧ (2 : ℝ) ^ (-1074 : ℤ) ≤ (2 : ℝ) ^ (-10 : ℤ) :=
      ⟨by positivity, zpow_le_zpow_right₀ (by norm_num) (by norm_num)⟩
    generalize (2 : ℝ) ^ (-1074 : ℤ) = ε at hs
    have h10 : (2 : ℝ) ^ (-10 : ℤ) = 1 / 1024 := by norm_num
    rw [h10] at hs
    nlinarith [hs.1, hs.2]

/-- C86.  An array that is too short is accepted: what the function returns depends on the memory behind the array. -/
theorem C86_short_broken (B : Bits) (d : Disk) :
    ∃ f d', genCostFunc Sympy.plain compiler d formula data none false none = .ok (f, d') ∧
      one.values (floats [2, 1]) = one.values (floats [2, 0]) ∧
      callFunc B f 2 (floats [2, 1]) one ≠ callFunc B f 2 (floats [2, 0]) one := by
  obtain ⟨f, d', h1, h2⟩ := cost_values d
  refine ⟨f, d', h1, by simp [one, View.values, View.addr, floats, List.range_succ], ?_⟩
  have e : ∀ y, callFunc B f 2 (floats [2, y]) one = f [2, y] := by
    intro y
    simp [callFunc, readArgs, one, floats, Word.asDouble, List.range_succ]
  rw [e, e, h2, h2]
  norm_num

/-- The reading of integers that the theorems ask for exists. -/
noncomputable def someBits : Bits := ⟨fun n => n * (2 : ℝ) ^ (-1074 : ℤ), fun _ _ _ => rfl⟩

/-- The hypotheses are met: the two best parameters side by side in the memory. -/
example (d : Disk) : ∃ f d', genCostFunc Sympy.plain compiler d formula data none false none = .ok (f, d') ∧
    callFunc someBits f 2 (floats [2, 1]) side2 = 0 := by
  obtain ⟨f, d', h1, h2⟩ := C86_cost_partial Sympy.plain compiler someBits d formula_reachable (Or.inr ⟨rfl, free_symbols⟩) rfl
    formulaIs dataIs false (by simp) none
  refine ⟨f, d', h1, ?_⟩
  have := h2 (floats [2, 1]) side2 (fun s => if s = symA then 2 else 1)
    (by simp [side2, View.values, View.addr, floats, Word.value, List.range_succ, show symB ≠ symA by decide]) rfl
    (fun i _ => ⟨_, rfl⟩)
  rw [misfit_eq] at this
  have hab : symB ≠ symA := by decide
  simpa [hab] using this

/-- The hypotheses are met: a model function with a slice of an array of integers that runs backwards. -/
example (folder : Key) : ∃ f d', genModelFunc Sympy.plain compiler noFiles formula folder 10 = .ok (f, d') ∧
    ∀ free, callModel someBits f 2 (ints [1, 7, 2]) free ⟨2, -2, 2⟩ kPP 0 = .ok (2 : ℂ) := by
  obtain ⟨f, d', h1, h2⟩ := C86_model Sympy.plain compiler someBits noFiles formula_reachable real_symbols free_symbols formulaIs
    folder (n := 10) (by norm_num)
  refine ⟨f, d', h1, fun free => ?_⟩
  have := h2 (ints [1, 7, 2]) free ⟨2, -2, 2⟩ (fun s => if s = symA then 2 else 1)
    (by simp [View.values, View.addr, ints, Word.value, List.range_succ, show symB ≠ symA by decide]) kPP (by decide) 0 (by decide)
    (by decide)
  simpa [F, realVal] using this

end FitCases

end Shgpy
