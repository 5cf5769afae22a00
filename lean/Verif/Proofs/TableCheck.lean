import Verif.Model.TensorTable
import Verif.Spec.PointGroup
import Mathlib.Analysis.SpecialFunctions.Trigonometric.Basic
import Mathlib.Algebra.BigOperators.Fin
import Mathlib.Data.Fintype.Prod
import Mathlib.Algebra.BigOperators.Group.Finset.Sigma
import Mathlib.Tactic.FinCases
import Mathlib.Tactic.Ring
import Mathlib.Tactic.LinearCombination

/-!
# A checker for tables of invariant tensors

Numbers `a + b√3` are pairs of integers, symmetry operations are given by twice their matrix.
-/

namespace Shgpy
open Spec.PG

set_option linter.unusedSectionVars false
set_option linter.unusedSimpArgs false

namespace TensorDef

/-- A number `a + b√3`. -/
abbrev Z3 := ℤ × ℤ
/-- The product. -/
def Z3.mul (x y : Z3) : Z3 := (x.1 * y.1 + 3 * x.2 * y.2, x.1 * y.2 + x.2 * y.1)
/-- The number. -/
noncomputable def Z3.val (x : Z3) : ℂ := (x.1 : ℂ) + (x.2 : ℂ) * (Real.sqrt 3 : ℂ)

theorem sqrt3_sq : ((Real.sqrt 3 : ℝ) : ℂ) * (Real.sqrt 3 : ℝ) = 3 := by
  rw [← Complex.ofReal_mul, Real.mul_self_sqrt (by norm_num)]; norm_num

theorem Z3.val_mul (x y : Z3) : (Z3.mul x y).val = x.val * y.val := by
  unfold Z3.mul Z3.val; push_cast
  linear_combination (-(x.2 : ℂ) * y.2) * sqrt3_sq
theorem Z3.val_add (x y : Z3) : Z3.val (x + y) = x.val + y.val := by
  unfold Z3.val; push_cast [Prod.fst_add, Prod.snd_add]; ring
theorem Z3.val_neg (x : Z3) : Z3.val (-x) = -x.val := by
  unfold Z3.val; push_cast [Prod.fst_neg, Prod.snd_neg]; ring
theorem Z3.val_zero : Z3.val (0, 0) = 0 := by simp [Z3.val]

/-- A linear form in the variables numbered by `ℕ`. -/
abbrev LF := List (ℕ × Z3)
/-- Its value. -/
noncomputable def LF.val (w : ℕ → ℂ) (l : LF) : ℂ := (l.map (fun t => t.2.val * w t.1)).sum

theorem LF.val_nil (w : ℕ → ℂ) : LF.val w [] = 0 := rfl
theorem LF.val_cons (w : ℕ → ℂ) (t : ℕ × Z3) (l : LF) : LF.val w (t :: l) = t.2.val * w t.1 + LF.val w l := by
  simp [LF.val]
theorem LF.val_append (w : ℕ → ℂ) (l m : LF) : LF.val w (l ++ m) = LF.val w l + LF.val w m := by
  simp [LF.val]

/-- Multiple of a linear form. -/
def LF.scale (c : Z3) (l : LF) : LF := l.map (fun t => (t.1, Z3.mul c t.2))
theorem LF.val_scale (w : ℕ → ℂ) (c : Z3) (l : LF) : LF.val w (LF.scale c l) = c.val * LF.val w l := by
  induction l with
  | nil => simp [LF.scale, LF.val]
  | cons t l ih =>
    have : LF.scale c (t :: l) = (t.1, Z3.mul c t.2) :: LF.scale c l := rfl
    rw [this, LF.val_cons, LF.val_cons, ih, Z3.val_mul]; ring

/-- Add a term. -/
def LF.ins (c : ℕ) (z : Z3) : LF → LF
  | [] => [(c, z)]
  | (d, y) :: l => if Nat.beq c d then (d, (y.1 + z.1, y.2 + z.2)) :: l else (d, y) :: LF.ins c z l
theorem LF.val_ins (w : ℕ → ℂ) (c : ℕ) (z : Z3) (l : LF) : LF.val w (LF.ins c z l) = z.val * w c + LF.val w l := by
  induction l with
  | nil => rfl
  | cons t l ih =>
    obtain ⟨d, y⟩ := t
    unfold LF.ins
    split
    · rename_i h
      have h : c = d := Nat.eq_of_beq_eq_true h
      subst h
      rw [LF.val_cons, LF.val_cons]
      show Z3.val (y + z) * w c + _ = _
      rw [Z3.val_add]; ring
    · rw [LF.val_cons, LF.val_cons, ih]; ring

/-- Collect equal variables. -/
def LF.collect : LF → LF
  | [] => []
  | t :: l => LF.ins t.1 t.2 (LF.collect l)
theorem LF.val_collect (w : ℕ → ℂ) (l : LF) : LF.val w (LF.collect l) = LF.val w l := by
  induction l with
  | nil => rfl
  | cons t l ih => unfold LF.collect; rw [LF.val_ins, ih, LF.val_cons]

/-- Whether a number is zero. -/
def Z3.isZero (z : Z3) : Bool := (Nat.beq z.1.natAbs 0) && (Nat.beq z.2.natAbs 0)
/-- Whether all coefficients are zero. -/
def LF.isZero (l : LF) : Bool := (LF.collect l).all (fun t => Z3.isZero t.2)
theorem LF.val_of_isZero {w : ℕ → ℂ} {l : LF} (h : LF.isZero l = true) : LF.val w l = 0 := by
  rw [← LF.val_collect]
  unfold LF.isZero at h
  revert h
  generalize LF.collect l = m
  intro h
  induction m with
  | nil => rfl
  | cons t m ih =>
    rw [List.all_cons, Bool.and_eq_true] at h
    rw [LF.val_cons, ih h.2]
    have h0 : t.2 = (0, 0) := by
      have := h.1
      unfold Z3.isZero at this
      rw [Bool.and_eq_true] at this
      exact Prod.ext (Int.natAbs_eq_zero.1 (Nat.eq_of_beq_eq_true this.1))
        (Int.natAbs_eq_zero.1 (Nat.eq_of_beq_eq_true this.2))
    rw [h0, Z3.val_zero]; ring

/-- The generators. -/
inductive Gen
  | inv | C2x | C2y | C2z | mx | my | mz | C3z | C4z | C6z | S4z | C3d

/-- The symmetry operation. -/
noncomputable def Gen.op : Gen → SymOp
  | .inv => inversion
  | .C2x => twofoldX
  | .C2y => twofoldY
  | .C2z => twofoldZ
  | .mx => mirrorX
  | .my => mirrorY
  | .mz => mirrorZ
  | .C3z => threefoldZ
  | .C4z => fourfoldZ
  | .C6z => sixfoldZ
  | .S4z => rotoinversion4
  | .C3d => threefoldDiagonal

/-- Twice its matrix: for every row, the nonzero elements with their columns. -/
def Gen.rows : Gen → List (List (ℕ × Z3))
  | .inv => [[(0, (-2, 0))], [(1, (-2, 0))], [(2, (-2, 0))]]
  | .C2x => [[(0, (2, 0))], [(1, (-2, 0))], [(2, (-2, 0))]]
  | .C2y => [[(0, (-2, 0))], [(1, (2, 0))], [(2, (-2, 0))]]
  | .C2z => [[(0, (-2, 0))], [(1, (-2, 0))], [(2, (2, 0))]]
  | .mx => [[(0, (-2, 0))], [(1, (2, 0))], [(2, (2, 0))]]
  | .my => [[(0, (2, 0))], [(1, (-2, 0))], [(2, (2, 0))]]
  | .mz => [[(0, (2, 0))], [(1, (2, 0))], [(2, (-2, 0))]]
  | .C3z => [[(0, (-1, 0)), (1, (0, -1))], [(0, (0, 1)), (1, (-1, 0))], [(2, (2, 0))]]
  | .C4z => [[(1, (-2, 0))], [(0, (2, 0))], [(2, (2, 0))]]
  | .C6z => [[(0, (1, 0)), (1, (0, -1))], [(0, (0, 1)), (1, (1, 0))], [(2, (2, 0))]]
  | .S4z => [[(1, (2, 0))], [(0, (-2, 0))], [(2, (-2, 0))]]
  | .C3d => [[(2, (2, 0))], [(0, (2, 0))], [(1, (2, 0))]]

theorem cos3 : Real.cos (2 * Real.pi / 3) = -1 / 2 := by
  rw [show 2 * Real.pi / 3 = Real.pi - Real.pi / 3 by ring, Real.cos_pi_sub, Real.cos_pi_div_three]; norm_num
theorem sin3 : Real.sin (2 * Real.pi / 3) = Real.sqrt 3 / 2 := by
  rw [show 2 * Real.pi / 3 = Real.pi - Real.pi / 3 by ring, Real.sin_pi_sub, Real.sin_pi_div_three]
theorem cos4 : Real.cos (2 * Real.pi / 4) = 0 := by
  rw [show 2 * Real.pi / 4 = Real.pi / 2 by ring, Real.cos_pi_div_two]
theorem sin4 : Real.sin (2 * Real.pi / 4) = 1 := by
  rw [show 2 * Real.pi / 4 = Real.pi / 2 by ring, Real.sin_pi_div_two]
theorem cos6 : Real.cos (2 * Real.pi / 6) = 1 / 2 := by
  rw [show 2 * Real.pi / 6 = Real.pi / 3 by ring, Real.cos_pi_div_three]
theorem sin6 : Real.sin (2 * Real.pi / 6) = Real.sqrt 3 / 2 := by
  rw [show 2 * Real.pi / 6 = Real.pi / 3 by ring, Real.sin_pi_div_three]

/-- The rows are twice the matrix. -/
theorem Gen.rows_val (g : Gen) (i : Fin 3) (f : ℕ → ℂ) :
    LF.val f (g.rows.getD i.val []) = ∑ j : Fin 3, 2 * (g.op i j : ℂ) * f j.val := by
  rw [Fin.sum_univ_three]
  cases g <;> fin_cases i <;>
    simp [Gen.rows, Gen.op, LF.val, Z3.val, inversion, twofoldX, twofoldY, twofoldZ, mirrorX, mirrorY, mirrorZ,
      threefoldZ, fourfoldZ, sixfoldZ, rotoinversion4, threefoldDiagonal, rotZ, cos3, sin3, cos4, sin4, cos6, sin6] <;>
    first | ring1 | exact Or.inl (by ring1)

/-- The right hand side of the invariance equation for an index tuple, times `2 ^ r`. -/
def rowTerms (rows : List (List (ℕ × Z3))) : List ℕ → LF
  | [] => [(0, (1, 0))]
  | j :: js =>
      let rest := rowTerms rows js
      let k := 3 ^ js.length
      (rows.getD j []).flatMap (fun iz => rest.map (fun t => (iz.1 * k + t.1, Z3.mul iz.2 t.2)))

theorem val_shift (w : ℕ → ℂ) (k : ℕ) (i : ℕ) (z : Z3) (l : LF) :
    LF.val w (l.map (fun t => (i * k + t.1, Z3.mul z t.2))) = z.val * LF.val (fun c => w (i * k + c)) l := by
  induction l with
  | nil => simp [LF.val]
  | cons t l ih => rw [List.map_cons, LF.val_cons, LF.val_cons, ih]; simp only; rw [Z3.val_mul]; ring

theorem val_flatMap {α : Type} (w : ℕ → ℂ) (l : List α) (f : α → LF) :
    LF.val w (l.flatMap f) = (l.map (fun a => LF.val w (f a))).sum := by
  induction l with
  | nil => rfl
  | cons a l ih => rw [List.flatMap_cons, LF.val_append, ih, List.map_cons, List.sum_cons]

theorem rowTerms_val (g : Gen) : ∀ (r : ℕ) (i : Fin r → Fin 3) (w : ℕ → ℂ),
    LF.val w (rowTerms g.rows (List.ofFn (fun k => (i k).val))) =
      2 ^ r * ∑ j : Fin r → Fin 3, (∏ k, (g.op (i k) (j k) : ℂ)) * w (position (List.ofFn (fun k => (j k).val))) := by
  intro r
  induction r with
  | zero => intro i w; simp [rowTerms, LF.val, Z3.val, position]
  | succ r ih =>
    intro i w
    rw [List.ofFn_succ]
    unfold rowTerms
    simp only [List.length_ofFn]
    rw [val_flatMap]
    have h1 : ∀ iz : ℕ × Z3, LF.val w ((rowTerms g.rows (List.ofFn (fun k : Fin r => (i k.succ).val))).map
        (fun t => (iz.1 * 3 ^ r + t.1, Z3.mul iz.2 t.2))) =
        iz.2.val * (fun a : ℕ => LF.val (fun c => w (a * 3 ^ r + c))
          (rowTerms g.rows (List.ofFn (fun k : Fin r => (i k.succ).val)))) iz.1 := fun iz => val_shift _ _ _ _ _
    rw [List.map_congr_left (fun iz _ => h1 iz)]
    have h2 := g.rows_val (i 0) (fun a : ℕ => LF.val (fun c => w (a * 3 ^ r + c))
          (rowTerms g.rows (List.ofFn (fun k : Fin r => (i k.succ).val))))
    unfold LF.val at h2 ⊢
    rw [h2]
    have h3 : ∀ a : ℕ, (List.map (fun t : ℕ × Z3 => t.2.val * w (a * 3 ^ r + t.1))
        (rowTerms g.rows (List.ofFn (fun k : Fin r => (i k.succ).val)))).sum = _ := fun a =>
      ih (fun k => i k.succ) (fun c => w (a * 3 ^ r + c))
    simp only [h3]
    rw [← (Fin.consEquiv (fun _ : Fin (r + 1) => Fin 3)).sum_comp, Fintype.sum_prod_type, Finset.mul_sum]
    refine Finset.sum_congr rfl (fun a _ => ?_)
    rw [Finset.mul_sum, Finset.mul_sum, Finset.mul_sum]
    refine Finset.sum_congr rfl (fun j _ => ?_)
    rw [Fin.prod_univ_succ, List.ofFn_succ]
    simp only [Fin.consEquiv_apply, Fin.cons_zero, Fin.cons_succ, position, List.length_ofFn]
    ring

/-- The invariance equation times `2 ^ r`: `T - T'`. -/
def equation (r : ℕ) (g : Gen) (J : ℕ) : LF :=
  (J, (2 ^ r, 0)) :: LF.scale (-1, 0) (rowTerms g.rows (digits3 r J))

/-- A denominator and the coefficients of the equations. -/
abbrev Cert := ℕ × List (ℕ × ℕ × ℤ × ℤ)

/-- The terms of an element of a table. -/
def elementTerms (z : Z3) (e : List ℤ) : LF := e.map (fun c => (c.natAbs - 1, if c < 0 then (-z.1, -z.2) else z))

/-- The certificate proves the element. -/
def checkCert (r : ℕ) (gens : List Gen) (flat : List (List ℤ)) (I : ℕ) (c : Cert) : Bool :=
  !(Nat.beq c.1 0) &&
  LF.isZero ((I, (((c.1 : ℤ), 0) : Z3)) :: elementTerms (-(c.1 : ℤ), 0) (flat.getD I []) ++
    LF.scale (-1, 0) (c.2.flatMap (fun t =>
      match gens[t.1]? with
      | some g => if Nat.blt t.2.1 (3 ^ r) then LF.scale (t.2.2.1, t.2.2.2) (equation r g t.2.1) else []
      | none => [])))

/-- The table satisfies an invariance equation. -/
def checkInv (r : ℕ) (flat : List (List ℤ)) (g : Gen) (J : ℕ) : Bool :=
  LF.isZero ((equation r g J).flatMap (fun t => elementTerms t.2 (flat.getD t.1 [])))

/-- The symbols are in range. -/
def checkRange (r : ℕ) (flat : List (List ℤ)) : Bool :=
  Nat.beq flat.length (3 ^ r) &&
  flat.all (fun e => e.all (fun c => Nat.ble 1 c.natAbs && Nat.ble c.natAbs (3 ^ r)))

/-- All checks for a table. -/
def checkTable (r : ℕ) (gens : List Gen) (flat : List (List ℤ)) (certs : List Cert) : Bool :=
  checkRange r flat &&
  gens.all (fun g => (List.range (3 ^ r)).all (fun J => checkInv r flat g J)) &&
  (List.range (3 ^ r)).all (fun I =>
    match certs[I]? with
    | some c => checkCert r gens flat I c
    | none => false)

/-! ## Correctness of the checker -/

theorem digits3_length : ∀ r n, (digits3 r n).length = r := by
  intro r; induction r with
  | zero => intro n; rfl
  | succ r ih => intro n; simp [digits3, ih]

theorem digits3_lt : ∀ r n, ∀ d ∈ digits3 r n, d < 3 := by
  intro r; induction r with
  | zero => intro n d h; simp [digits3] at h
  | succ r ih =>
    intro n d h
    rcases List.mem_cons.1 h with rfl | h
    · exact Nat.mod_lt _ (by norm_num)
    · exact ih n d h

theorem digits3_mod : ∀ r n, digits3 r (n % 3 ^ r) = digits3 r n := by
  intro r
  suffices h : ∀ k r n, r ≤ k → digits3 r (n % 3 ^ k) = digits3 r n from fun n => h r r n le_rfl
  intro k r
  induction r with
  | zero => intro n _; rfl
  | succ r ih =>
    intro n hk
    simp only [digits3]
    rw [ih n (by omega)]
    congr 1
    obtain ⟨m, rfl⟩ : ∃ m, k = r + 1 + m := ⟨k - (r + 1), by omega⟩
    rw [show (3 : ℕ) ^ (r + 1 + m) = 3 ^ r * (3 * 3 ^ m) by ring, Nat.mod_mul_right_div_self,
      Nat.mod_mul_right_mod]

theorem position_digits3 : ∀ r n, n < 3 ^ r → position (digits3 r n) = n := by
  intro r; induction r with
  | zero => intro n h; simp at h; simp [digits3, position, h]
  | succ r ih =>
    intro n h
    simp only [digits3, position, digits3_length]
    rw [← digits3_mod r n, ih _ (Nat.mod_lt _ (by positivity))]
    have : n / 3 ^ r < 3 := by rw [Nat.div_lt_iff_lt_mul (by positivity)]; rw [pow_succ] at h; omega
    rw [Nat.mod_eq_of_lt this, mul_comm]
    exact Nat.div_add_mod n (3 ^ r)

theorem position_lt : ∀ l : List ℕ, (∀ d ∈ l, d < 3) → position l < 3 ^ l.length := by
  intro l; induction l with
  | nil => intro _; simp [position]
  | cons d l ih =>
    intro h
    have h1 := ih (fun e he => h e (by simp [he]))
    have h2 := h d (by simp)
    simp only [position, List.length_cons, pow_succ]
    nlinarith

theorem digits3_position : ∀ l : List ℕ, (∀ d ∈ l, d < 3) → digits3 l.length (position l) = l := by
  intro l; induction l with
  | nil => intro _; rfl
  | cons d l ih =>
    intro h
    have h1 := ih (fun e he => h e (by simp [he]))
    have h2 := h d (by simp)
    have h3 := position_lt l (fun e he => h e (by simp [he]))
    simp only [List.length_cons, digits3, position]
    rw [← digits3_mod l.length, show (d * 3 ^ l.length + position l) % 3 ^ l.length = position l by
      rw [mul_comm, Nat.mul_add_mod, Nat.mod_eq_of_lt h3], h1]
    congr 1
    rw [mul_comm, Nat.mul_add_div (by positivity), Nat.div_eq_of_lt h3]
    omega

/-- The letter of an axis, read. -/
def axisIndex (c : Char) : ℕ := if c = 'x' then 0 else if c = 'y' then 1 else 2

theorem axisIndex_axisName {i : ℕ} (h : i < 3) : axisIndex (axisName i) = i := by
  have : i = 0 ∨ i = 1 ∨ i = 2 := by omega
  rcases this with rfl | rfl | rfl <;> decide

/-- The number of a symbol. -/
def symPosition (pre : Key) (s : Sym) : ℕ := position ((s.name.drop pre.length).map axisIndex)

theorem symPosition_tensorSym (pre : Key) {r n : ℕ} (h : n < 3 ^ r) : symPosition pre (tensorSym pre r n) = n := by
  unfold symPosition tensorSym
  rw [List.drop_left, List.map_map]
  rw [List.map_congr_left (g := id) (f := axisIndex ∘ axisName) (fun d hd => axisIndex_axisName (digits3_lt r n d hd)),
    List.map_id,
    position_digits3 r n h]

theorem val_elementTerms (w : ℕ → ℂ) (z : Z3) (e : List ℤ) :
    LF.val w (elementTerms z e) = z.val * LF.val w (elementTerms (1, 0) e) := by
  induction e with
  | nil => simp [elementTerms, LF.val]
  | cons c e ih =>
    have : ∀ y, elementTerms y (c :: e) = (c.natAbs - 1, if c < 0 then (-y.1, -y.2) else y) :: elementTerms y e :=
      fun _ => rfl
    rw [this, this, LF.val_cons, LF.val_cons, ih]
    by_cases hc : c < 0
    · simp only [hc, if_true]
      have : Z3.val (-z.1, -z.2) = - z.val := Z3.val_neg z
      rw [this]
      have : Z3.val (-1, -0) = -1 := by simp [Z3.val]
      simp only [this]; ring
    · simp only [hc, if_false]
      have : Z3.val (1, 0) = 1 := by simp [Z3.val]
      rw [this]; ring

theorem eval_neg_sym (S : Sympy) (σ : Sym → ℂ) (e : Expr) : (S.norm (.mul [.num (-1), e])).eval σ = -e.eval σ := by
  rw [S.eval_norm]; simp [Expr.eval, Expr.evalProd]

theorem eval_elementExpr (S : Sympy) (σ : Sym → ℂ) (pre : Key) (r : ℕ) (e : List ℤ) :
    (elementExpr S pre r e).eval σ = LF.val (fun n => σ (tensorSym pre r n)) (elementTerms (1, 0) e) := by
  have hterm : ∀ c : ℤ, (signedSym pre r c).eval σ = σ (tensorSym pre r (c.natAbs - 1)) := fun c => by
    simp [signedSym, Expr.eval]
  have v1 : Z3.val (1, 0) = 1 := by simp [Z3.val]
  have v2 : Z3.val (-1, 0) = -1 := by simp [Z3.val]
  have hsub : ∀ a b : Expr, (S.sub a b).eval σ = a.eval σ - b.eval σ := fun a b => by
    unfold Sympy.sub; rw [S.eval_norm]; simp [Expr.eval, Expr.evalSum, Expr.evalProd]; ring
  have hadd : ∀ a b : Expr, (S.add a b).eval σ = a.eval σ + b.eval σ := fun a b => by
    unfold Sympy.add; rw [S.eval_norm]; simp [Expr.eval, Expr.evalSum]
  have hcons : ∀ (c : ℤ) (e : List ℤ), LF.val (fun n => σ (tensorSym pre r n)) (elementTerms (1, 0) (c :: e)) =
      (if c < 0 then -(signedSym pre r c).eval σ else (signedSym pre r c).eval σ) +
        LF.val (fun n => σ (tensorSym pre r n)) (elementTerms (1, 0) e) := by
    intro c e
    have : elementTerms (1, 0) (c :: e) = (c.natAbs - 1, if c < 0 then (-1, -0) else (1, 0)) :: elementTerms (1, 0) e :=
      rfl
    rw [this, LF.val_cons, hterm]
    by_cases hc : c < 0
    · simp only [hc, if_true, neg_zero, v2]; ring
    · simp only [hc, if_false, v1]; ring
  cases e with
  | nil => simp [elementExpr, elementTerms, LF.val, Expr.eval]
  | cons c e =>
    rw [hcons]
    simp only [elementExpr]
    have h0 : (if c < 0 then S.norm (.mul [.num (-1), signedSym pre r c]) else signedSym pre r c).eval σ =
        if c < 0 then -(signedSym pre r c).eval σ else (signedSym pre r c).eval σ := by
      split
      · exact eval_neg_sym S σ _
      · rfl
    rw [← h0]
    generalize (if c < 0 then S.norm (.mul [.num (-1), signedSym pre r c]) else signedSym pre r c) = a
    induction e generalizing a with
    | nil => simp [elementTerms, LF.val]
    | cons d e ih =>
      rw [List.foldl_cons, ih, hcons]
      split
      · rw [hsub]; ring
      · rw [hadd]; ring

theorem valueOf_tensorArray (S : Sympy) (pre : Key) (r : ℕ) (flat : List (List ℤ)) (σ : Sym → ℂ) (i : Fin r → Fin 3) :
    valueOf r (tensorArray S pre r flat) σ i = LF.val (fun n => σ (tensorSym pre r n))
      (elementTerms (1, 0) (flat.getD (position (List.ofFn (fun k => (i k).val))) [])) := by
  rw [← eval_elementExpr S]
  unfold valueOf tensorArray
  dsimp only
  congr 1
  generalize position (List.ofFn (fun k => (i k).val)) = n
  rw [List.getD_eq_getElem?_getD, List.getD_eq_getElem?_getD, List.getElem?_map]
  cases flat[n]? <;> rfl

theorem val_equation (r : ℕ) (g : Gen) (i : Fin r → Fin 3) (w : ℕ → ℂ) :
    LF.val w (equation r g (position (List.ofFn (fun k => (i k).val)))) =
      2 ^ r * (w (position (List.ofFn (fun k => (i k).val))) -
        ∑ j : Fin r → Fin 3, (∏ k, (g.op (i k) (j k) : ℂ)) * w (position (List.ofFn (fun k => (j k).val)))) := by
  unfold equation
  rw [LF.val_cons, LF.val_scale]
  have hd := digits3_position (List.ofFn (fun k => (i k).val)) (by
    intro d hd; obtain ⟨k, rfl⟩ := List.mem_ofFn.1 hd; exact (i k).isLt)
  rw [List.length_ofFn] at hd
  rw [hd, rowTerms_val]
  have : Z3.val (2 ^ r, 0) = 2 ^ r := by simp [Z3.val]
  rw [this]
  have : Z3.val (-1, 0) = -1 := by simp [Z3.val]
  rw [this]; ring

/-- The index tuple at a position. -/
def tupleAt (r n : ℕ) : Fin r → Fin 3 := fun k => Fin.ofNat 3 ((digits3 r n).getD k.val 0)

theorem ofFn_tupleAt (r n : ℕ) : List.ofFn (fun k => (tupleAt r n k).val) = digits3 r n := by
  refine List.ext_getElem (by simp [digits3_length]) (fun k h1 h2 => ?_)
  rw [List.getElem_ofFn]
  unfold tupleAt
  simp only [List.getD_eq_getElem?_getD, List.getElem?_eq_getElem h2, Option.getD_some, Fin.ofNat]
  exact Nat.mod_eq_of_lt (digits3_lt r n _ (List.getElem_mem h2))

theorem tupleAt_position {r : ℕ} (i : Fin r → Fin 3) : tupleAt r (position (List.ofFn (fun k => (i k).val))) = i := by
  have h := ofFn_tupleAt r (position (List.ofFn (fun k => (i k).val)))
  have hd := digits3_position (List.ofFn (fun k => (i k).val)) (by
    intro d hd; obtain ⟨k, rfl⟩ := List.mem_ofFn.1 hd; exact (i k).isLt)
  rw [List.length_ofFn] at hd
  rw [hd] at h
  have h2 := List.ofFn_injective h
  funext k
  exact Fin.ext (congrFun h2 k)

theorem position_tuple_lt {r : ℕ} (i : Fin r → Fin 3) : position (List.ofFn (fun k => (i k).val)) < 3 ^ r := by
  have := position_lt (List.ofFn (fun k => (i k).val)) (by
    intro d hd; obtain ⟨k, rfl⟩ := List.mem_ofFn.1 hd; exact (i k).isLt)
  rwa [List.length_ofFn] at this

theorem val_congr {w w' : ℕ → ℂ} {l : LF} (h : ∀ t ∈ l, w t.1 = w' t.1) : LF.val w l = LF.val w' l := by
  unfold LF.val
  rw [List.map_congr_left (fun t ht => by rw [h t ht])]

/-- What an accepted table means, with the parameters named. -/
theorem checkTable_spec {r : ℕ} {gens : List Gen} {flat : List (List ℤ)} {certs : List Cert}
    (h : checkTable r gens flat certs = true) (S : Sympy) (pre : Key) (T : Tens r) :
    ((∀ σ, ∀ g ∈ gens, act g.op (valueOf r (tensorArray S pre r flat) σ) = valueOf r (tensorArray S pre r flat) σ) ∧
    ((∀ g ∈ gens, act g.op T = T) →
      T = valueOf r (tensorArray S pre r flat) (fun s => T (tupleAt r (symPosition pre s))))) := by
  unfold checkTable at h
  rw [Bool.and_eq_true, Bool.and_eq_true] at h
  obtain ⟨⟨hr, hi⟩, hc⟩ := h
  constructor
  · intro σ g hg
    funext i
    have h1 := List.all_eq_true.1 (List.all_eq_true.1 hi g hg) _ (List.mem_range.2 (position_tuple_lt i))
    unfold checkInv at h1
    have h2 := LF.val_of_isZero (w := fun n => σ (tensorSym pre r n)) h1
    rw [val_flatMap] at h2
    rw [List.map_congr_left (fun t _ => val_elementTerms _ t.2 _)] at h2
    have h3 : LF.val (fun n => LF.val (fun n => σ (tensorSym pre r n)) (elementTerms (1, 0) (flat.getD n [])))
        (equation r g (position (List.ofFn (fun k => (i k).val)))) = 0 := h2
    rw [val_equation] at h3
    have h4 := (mul_eq_zero.1 h3).resolve_left (pow_ne_zero _ (by norm_num))
    rw [valueOf_tensorArray]
    rw [sub_eq_zero.1 h4]
    unfold act
    simp only [valueOf_tensorArray]
  · intro hT
    have key : ∀ I, I < 3 ^ r → T (tupleAt r I) =
        LF.val (fun n => T (tupleAt r n)) (elementTerms (1, 0) (flat.getD I [])) := by
      intro I hI
      have h1 := List.all_eq_true.1 hc I (List.mem_range.2 hI)
      cases hcI : certs[I]? with
      | none => rw [hcI] at h1; simp at h1
      | some c =>
        rw [hcI] at h1
        simp only [checkCert, Bool.and_eq_true] at h1
        have h2 := LF.val_of_isZero (w := fun n => T (tupleAt r n)) h1.2
        rw [List.cons_append, LF.val_cons, LF.val_append, LF.val_scale, val_elementTerms, val_flatMap] at h2
        have h3 : (c.2.map (fun t => LF.val (fun n => T (tupleAt r n)) (match gens[t.1]? with
            | some g => if Nat.blt t.2.1 (3 ^ r) then LF.scale (t.2.2.1, t.2.2.2) (equation r g t.2.1) else []
            | none => []))).sum = 0 := by
          refine List.sum_eq_zero (fun x hx => ?_)
          obtain ⟨t, _, rfl⟩ := List.mem_map.1 hx
          cases hg : gens[t.1]? with
          | none => rfl
          | some g =>
            dsimp only
            split
            · rename_i hlt
              rw [LF.val_scale]
              have hlt : t.2.1 < 3 ^ r := by simpa using hlt
              have h4 := val_equation r g (tupleAt r t.2.1) (fun n => T (tupleAt r n))
              rw [ofFn_tupleAt, position_digits3 r _ hlt] at h4
              rw [h4]
              have h5 := congrFun (hT g (List.mem_of_getElem? hg)) (tupleAt r t.2.1)
              unfold act at h5
              simp only [tupleAt_position]
              rw [h5]; ring
            · rfl
        rw [h3] at h2
        have v0 : Z3.val ((c.1 : ℤ), 0) = c.1 := by simp [Z3.val]
        have v1 : Z3.val (-(c.1 : ℤ), 0) = -(c.1 : ℂ) := by simp [Z3.val]
        simp only [v0, v1] at h2
        have hne : (c.1 : ℂ) ≠ 0 := by
          have := h1.1
          intro h0
          have h0 : c.1 = 0 := by exact_mod_cast h0
          rw [h0] at this; simp at this
        refine mul_left_cancel₀ hne ?_
        linear_combination h2
    funext i
    rw [valueOf_tensorArray]
    have h1 := key _ (position_tuple_lt i)
    rw [tupleAt_position] at h1
    rw [h1]
    refine val_congr (fun t ht => ?_)
    obtain ⟨c, hcm, rfl⟩ := List.mem_map.1 ht
    unfold checkRange at hr
    rw [Bool.and_eq_true] at hr
    have hmem : flat.getD (position (List.ofFn (fun k => (i k).val))) [] ∈ flat := by
      have hl : flat.length = 3 ^ r := Nat.eq_of_beq_eq_true hr.1
      have := position_tuple_lt i
      rw [← hl] at this
      rw [List.getD_eq_getElem?_getD, List.getElem?_eq_getElem this]
      exact List.getElem_mem this
    have h2 := List.all_eq_true.1 (List.all_eq_true.1 hr.2 _ hmem) c hcm
    rw [Bool.and_eq_true] at h2
    have h3 := Nat.le_of_ble_eq_true h2.1
    have h4 := Nat.le_of_ble_eq_true h2.2
    dsimp only
    rw [symPosition_tensorSym pre (by omega)]

end TensorDef
end Shgpy
