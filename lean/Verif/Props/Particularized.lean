import Verif.Spec.Particularized
import Verif.Props.TensorSym
import Verif.Proofs.Selection

/-!
# Tables made symmetric with `particularize`: C42 (nothing is lost), C55
-/

set_option linter.unusedSectionVars false

namespace Shgpy
open Spec PG TensorDef

section
variable (S : Sympy)

/-- **C42, nothing is lost.**  For tensors with linear elements and solvers that are complete for linear equations: where the original
is symmetric in its last two indices, the result has the same value, for the same values of the symbols. -/
theorem C42_keeps {solve : Solver} (hs : SolverComplete solve) (exclude : List Sym) (n : ℕ) (t res : Nd Expr)
    (ht : IsTensor 3 (n + 2) t) (hlin : ∀ I a b, Nd.InRange t.shape (I ++ [a, b]) → IsLinear (S.sub (t.get (I ++ [a, b])) (t.get (I ++ [b, a]))))
    (h : particularize S solve exclude false t = .ok res) (σ : Valuation)
    (hσ : ∀ I a b, Nd.InRange t.shape (I ++ [a, b]) → (t.get (I ++ [a, b])).eval σ = (t.get (I ++ [b, a])).eval σ) :
    ∀ idx, (res.get idx).eval σ = (t.get idx).eval σ := by
  obtain ⟨t2, h2, hsh, hget⟩ := swapLastTwo_ok ht
  unfold particularize at h
  simp only [Bool.false_eq_true, if_false] at h
  unfold particularizeLastTwo at h
  rw [h2, ok_bind] at h
  split_ifs at h with heq
  · cases h
    exact fun _ => rfl
  · rcases hsol : solve (swapEquations S t t2) exclude with _ | ⟨sol, rest⟩
    · rw [hsol] at h; cases h
    · rw [hsol] at h
      cases h
      intro idx
      show (S.subs sol (t.get idx)).eval σ = _
      rw [S.eval_subs, assigned_self]
      refine hs _ _ _ _ ?_ hsol σ ?_
      · intro q hq
        obtain ⟨i, hi, rfl⟩ := List.mem_map.1 hq
        have hi' := mem_tuples.1 hi
        have hi2 := hi'
        rw [show t.shape = _ from ht] at hi2
        obtain ⟨I, a, b, rfl, -⟩ := split_last_two hi2
        rw [hget I a b hi']
        exact hlin I a b hi'
      · intro q hq
        obtain ⟨i, hi, rfl⟩ := List.mem_map.1 hq
        have hi' := mem_tuples.1 hi
        have hi2 := hi'
        rw [show t.shape = _ from ht] at hi2
        obtain ⟨I, a, b, rfl, -⟩ := split_last_two hi2
        rw [hget I a b hi']
        have := hσ I a b hi'
        rw [eval_subtract, this, sub_self]

theorem ofFn_val_eq {r : ℕ} {i : Fin r → Fin 3} {I : List (Fin 3)} {a b : Fin 3} (h : List.ofFn i = I ++ [a, b]) :
    List.ofFn (fun k => (i k).val) = I.map Fin.val ++ [a.val, b.val] := by
  have : List.ofFn (fun k => (i k).val) = (List.ofFn i).map Fin.val := by rw [List.map_ofFn]; rfl
  rw [this, h]; simp

/-- For arrays, symmetric values are symmetric tensors. -/
theorem symmetricTensor_iff {n : ℕ} {t : Nd Expr} (ht : IsTensor 3 (n + 2) t) (σ : Valuation) :
    SymmetricTensor (valueOf (n + 2) t σ) ↔
      ∀ I a b, Nd.InRange t.shape (I ++ [a, b]) → (t.get (I ++ [a, b])).eval σ = (t.get (I ++ [b, a])).eval σ := by
  constructor
  · intro h I a b hr
    rw [show t.shape = _ from ht] at hr
    obtain ⟨h1, h2⟩ := inRange_replicate.1 hr
    have hr' : Nd.InRange (List.replicate (n + 2) 3) (I ++ [b, a]) := by
      rw [inRange_replicate]
      refine ⟨by simpa using h1, fun i hi => h2 i ?_⟩
      simp only [List.mem_append, List.mem_cons, List.not_mem_nil, or_false] at hi ⊢
      tauto
    obtain ⟨i, hi⟩ := inRange_ofFn hr
    obtain ⟨j, hj⟩ := inRange_ofFn hr'
    have key : ∀ (i : Fin (n + 2) → Fin 3) (a b : ℕ) (ha : a < 3) (hb : b < 3) (hI : ∀ x ∈ I, x < 3),
        I ++ [a, b] = List.ofFn (fun k => (i k).val) →
        List.ofFn i = (I.pmap (fun x hx => (⟨x, hx⟩ : Fin 3)) hI) ++ [⟨a, ha⟩, ⟨b, hb⟩] := by
      intro i a b ha hb hI he
      apply (List.map_injective_iff.2 Fin.val_injective)
      rw [List.map_ofFn, List.map_append, List.map_pmap]
      have e : (Fin.val ∘ i) = fun k => (i k).val := rfl
      rw [e, ← he]
      simp
    have ha : a < 3 := h2 a (by simp)
    have hb : b < 3 := h2 b (by simp)
    have hI : ∀ x ∈ I, x < 3 := fun x hx => h2 x (by simp [hx])
    have := h i j _ _ _ (key i a b ha hb hI hi) (key j b a hb ha hI hj)
    unfold valueOf at this
    rw [← hi, ← hj] at this
    exact this
  · intro h i j I a b hi hj
    unfold valueOf
    rw [ofFn_val_eq hi, ofFn_val_eq hj]
    apply h
    rw [← ofFn_val_eq hi, show t.shape = _ from ht, inRange_replicate]
    refine ⟨by simp, fun x hx => ?_⟩
    obtain ⟨k, rfl⟩ := List.mem_ofFn.1 hx
    exact (i k).isLt

/-- **C55 after `particularize`.**  A tensor of a table, made symmetric with a solver that is sound, and complete for linear
equations, stands for exactly the tensors that are invariant under the point group and symmetric in the last two indices. -/
theorem C55_particularized {solve : Solver} (hs : SolverSound S solve) (hsc : SolverComplete solve) {r : ℕ} {t res : Nd Expr}
    {G : Set SymOp} (h : OfTable S r t G) (exclude : List Sym) (hp : particularize S solve exclude false t = .ok res) :
    DescribesSet r res {T | InvariantUnder G T ∧ SymmetricTensor T} := by
  obtain ⟨hsh, hd⟩ := ofTable_describes S h
  obtain ⟨n, rfl⟩ : ∃ n, r = n + 2 := by cases h <;> exact ⟨_, rfl⟩
  obtain ⟨a1, a2, a3⟩ := C42_last_two S hs exclude n t res hsh hp
  refine ⟨a1.trans hsh, fun T => ⟨?_, ?_⟩⟩
  · rintro ⟨h1, h2⟩
    obtain ⟨σ, rfl⟩ := (hd T).1 h1
    refine ⟨σ, ?_⟩
    obtain ⟨pre, flat, rfl⟩ := ofTable_array S h
    have := C42_keeps S hsc exclude n _ res hsh (fun I a b _ => by
      rw [get_tensorArray, get_tensorArray]; exact isLinear_element S _ _ _ _) hp σ ((symmetricTensor_iff hsh σ).1 h2)
    funext i
    exact (this _).symm
  · rintro ⟨σ, rfl⟩
    refine ⟨?_, (symmetricTensor_iff (a1.trans hsh) σ).2 (fun I a b hr => a2 I a b hr σ)⟩
    obtain ⟨τ, hτ⟩ := a3 σ
    have : valueOf (n + 2) res σ = valueOf (n + 2) t τ := by funext i; exact hτ _
    rw [this]
    exact (hd _).2 ⟨τ, rfl⟩

end

/-! ## A concrete case -/

/-- The tensor `dipole['T']` with its last two indices exchanged. -/
def swappedT (S : Sympy) : Nd Expr :=
  ⟨[3, 3, 3], fun i => (tensorArray S [] 3 dipole_T).get [i.getD 0 0, i.getD 2 0, i.getD 1 0]⟩

/-- The elements of `dipole['T']`. -/
def elementT (a b c : Fin 3) : Expr :=
  if (a, b, c) = (0, 1, 2) ∨ (a, b, c) = (1, 2, 0) ∨ (a, b, c) = (2, 0, 1) then .sym ⟨['z', 'x', 'y'], 0⟩
  else if (a, b, c) = (0, 2, 1) ∨ (a, b, c) = (1, 0, 2) ∨ (a, b, c) = (2, 1, 0) then .sym ⟨['z', 'y', 'x'], 0⟩ else .num 0

theorem elements_T (S : Sympy) : ∀ a b c : Fin 3, (tensorArray S [] 3 dipole_T).get [a.val, b.val, c.val] = elementT a b c := by
  intro a b c
  fin_cases a <;> fin_cases b <;> fin_cases c <;> rfl

/-- A solver that solves one system: the one for `dipole['T']`, with the solution that `zxy` is `zyx`. -/
def solverT (S : Sympy) : Solver := fun eqs _ =>
  if eqs = swapEquations S (tensorArray S [] 3 dipole_T) (swappedT S) then
    [[(⟨['z', 'x', 'y'], 0⟩, .sym ⟨['z', 'y', 'x'], 0⟩)]] else []

theorem solverT_some {S : Sympy} {eqs : List Expr} {ex : List Sym} {sol : List (Sym × Expr)} {rest : List (List (Sym × Expr))}
    (h : (solverT S) eqs ex = sol :: rest) : sol = [(⟨['z', 'x', 'y'], 0⟩, .sym ⟨['z', 'y', 'x'], 0⟩)] ∧
      eqs = swapEquations S (tensorArray S [] 3 dipole_T) (swappedT S) := by
  unfold solverT at h
  split_ifs at h with he
  simp only [List.cons.injEq] at h
  exact ⟨h.1.symm, he⟩

theorem solverT_sound (S : Sympy) : SolverSound S (solverT S) := by
  intro eqs ex sol rest h q hq σ
  obtain ⟨rfl, rfl⟩ := solverT_some h
  obtain ⟨i, hi, rfl⟩ := List.mem_map.1 hq
  rw [eval_sub', sub_eq_zero]
  obtain ⟨I, hI⟩ := inRange_ofFn (r := 3) (mem_tuples.1 hi)
  subst hI
  simp only [Sympy.eval_subs, assigned, swappedT]
  have : ∀ I : Fin 3 → Fin 3, List.ofFn (fun k => (I k).val) = [(I 0).val, (I 1).val, (I 2).val] := fun I => by
    simp [List.ofFn_succ]
  rw [this]
  generalize I 0 = a
  generalize I 1 = b
  generalize I 2 = c
  simp only [List.getD_cons_zero, List.getD_cons_succ, elements_T]
  fin_cases a <;> fin_cases b <;> fin_cases c <;> simp [elementT, Expr.eval, assign]

theorem solverT_complete (S : Sympy) : SolverComplete (solverT S) := by
  intro eqs ex sol rest _ h σ hσ p hp
  obtain ⟨rfl, rfl⟩ := solverT_some h
  obtain rfl := List.mem_singleton.1 hp
  have := hσ _ (List.mem_map.2 ⟨[0, 1, 2], mem_tuples.2 (.cons (by norm_num) (.cons (by norm_num) (.cons (by norm_num) .nil))), rfl⟩)
  rw [eval_subtract, sub_eq_zero] at this
  have e1 := elements_T S 0 1 2
  have e2 := elements_T S 0 2 1
  simp only [Fin.val_zero, Fin.val_one, Fin.val_two] at e1 e2
  simp only [swappedT, List.getD_cons_zero, List.getD_cons_succ, e1, e2] at this
  simp [elementT, Expr.eval] at this ⊢
  exact this.symm

theorem solverT_good (S : Sympy) : GoodSolver S (solverT S) := by
  refine ⟨solverT_sound S, solverT_complete S, ?_⟩
  intro eqs ex sol rest h p hp s hs
  obtain ⟨rfl, rfl⟩ := solverT_some h
  obtain rfl := List.mem_singleton.1 hp
  simp only [Expr.free, List.mem_singleton] at hs
  subst hs
  refine ⟨by simp, _, List.mem_map.2 ⟨[0, 1, 2], mem_tuples.2 (.cons (by norm_num) (.cons (by norm_num) (.cons (by norm_num) .nil))), rfl⟩, ?_⟩
  have e1 := elements_T S 0 1 2
  have e2 := elements_T S 0 2 1
  simp only [Fin.val_zero, Fin.val_one, Fin.val_two] at e1 e2
  by_contra hn
  have := Expr.eval_congr (σ := fun _ => 0) (τ := fun s => if s = ⟨['z', 'y', 'x'], 0⟩ then 1 else 0) _ (fun s hs => by
    rw [if_neg]
    rintro rfl
    exact hn hs)
  rw [eval_subtract, eval_subtract] at this
  simp only [swappedT, List.getD_cons_zero, List.getD_cons_succ, e1, e2] at this
  simp [elementT, Expr.eval] at this

/-- `particularize` of `dipole['T']`. -/
theorem particularizeT (S : Sympy) : particularize S (solverT S) [] false (tensorArray S [] 3 dipole_T) =
    .ok (applySol S [(⟨['z', 'x', 'y'], 0⟩, .sym ⟨['z', 'y', 'x'], 0⟩)] (tensorArray S [] 3 dipole_T)) := by
  obtain ⟨t2, h2, hsh, hget⟩ := swapLastTwo_ok (n := 1) (t := tensorArray S [] 3 dipole_T) rfl
  have e : swapEquations S (tensorArray S [] 3 dipole_T) t2 =
      swapEquations S (tensorArray S [] 3 dipole_T) (swappedT S) := by
    unfold swapEquations
    refine List.map_congr_left (fun i hi => ?_)
    congr 1
    have hi' := mem_tuples.1 hi
    obtain ⟨I, a, b, rfl, hI, -⟩ := split_last_two (n := 1) (d := 3) hi'
    rw [hget I a b hi']
    obtain ⟨x, rfl⟩ := List.length_eq_one_iff.1 hI
    rfl
  unfold particularize
  simp only [Bool.false_eq_true, if_false]
  unfold particularizeLastTwo
  rw [h2, ok_bind, if_neg, show (solverT S) (swapEquations S (tensorArray S [] 3 dipole_T) t2) [] =
    [[(⟨['z', 'x', 'y'], 0⟩, .sym ⟨['z', 'y', 'x'], 0⟩)]] from if_pos e]
  · rfl
  · rw [flatten_eq_iff hsh]
    intro hall
    have hr : Nd.InRange (tensorArray S [] 3 dipole_T).shape ([0] ++ [1, 2]) :=
      .cons (by norm_num) (.cons (by norm_num) (.cons (by norm_num) .nil))
    have h1 := hall _ hr
    rw [hget [0] 1 2 hr] at h1
    have e1 := elements_T S 0 1 2
    have e2 := elements_T S 0 2 1
    simp only [Fin.val_zero, Fin.val_one, Fin.val_two] at e1 e2
    simp only [List.cons_append, List.nil_append, e1, e2] at h1
    simp [elementT] at h1

/-- The hypotheses of `C55_particularized` are met by `dipole['T']`, which is not symmetric; the result has one parameter. -/
example : ∃ t res, Dict.get (dipole Sympy.plain) ['T'] = .ok t ∧ particularize Sympy.plain (solverT Sympy.plain) [] false t = .ok res ∧
    DescribesSet 3 res {T | InvariantUnder (generated [twofoldZ, threefoldDiagonal]) T ∧ SymmetricTensor T} ∧
    res.get [0, 1, 2] = .sym ⟨['z', 'y', 'x'], 0⟩ := by
  have h := particularizeT Sympy.plain
  refine ⟨_, _, rfl, h, C55_particularized Sympy.plain (solverT_sound _) (solverT_complete _)
    (.dipole (g := ['T']) (by simp [pointGroups]) rfl) [] h, ?_⟩
  decide +kernel

end Shgpy
