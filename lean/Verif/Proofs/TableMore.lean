import Verif.Proofs.TableMeaning
import Verif.Proofs.Expr
import Mathlib.LinearAlgebra.Matrix.Kronecker
import Mathlib.Data.Fin.Tuple.Basic

/-!
# Explicit index sums, isotropic tensors, products and contractions of invariant tensors
-/

namespace Shgpy
open Spec.PG

set_option linter.unusedSectionVars false
set_option linter.unusedSimpArgs false

namespace TensorDef

theorem sum_vecCons (n : ℕ) (f : (Fin (n + 1) → Fin 3) → ℂ) :
    ∑ j, f j = ∑ a, ∑ j : Fin n → Fin 3, f (Matrix.vecCons a j) := by
  rw [← (Fin.consEquiv (fun _ : Fin (n + 1) => Fin 3)).sum_comp, Fintype.sum_prod_type]
  rfl

theorem sum_nil (f : (Fin 0 → Fin 3) → ℂ) : ∑ j, f j = f ![] := by
  rw [Fintype.sum_unique]; congr 1

theorem act3 (A : SymOp) (T : Tens 3) (i j k : Fin 3) :
    act A T ![i, j, k] = ∑ a, ∑ b, ∑ c, (A i a : ℂ) * A j b * A k c * T ![a, b, c] := by
  unfold act
  simp only [sum_vecCons, sum_nil, Fin.prod_univ_succ, Matrix.cons_val_zero, Matrix.cons_val_succ, Fin.prod_univ_zero,
    mul_one, mul_assoc]

theorem act4 (A : SymOp) (T : Tens 4) (i j k l : Fin 3) :
    act A T ![i, j, k, l] =
      ∑ a, ∑ b, ∑ c, ∑ d, (A i a : ℂ) * A j b * A k c * A l d * T ![a, b, c, d] := by
  unfold act
  simp only [sum_vecCons, sum_nil, Fin.prod_univ_succ, Matrix.cons_val_zero, Matrix.cons_val_succ, Fin.prod_univ_zero,
    mul_one, mul_assoc]

theorem eq_vec3 (i : Fin 3 → Fin 3) : i = ![i 0, i 1, i 2] := by
  funext k; fin_cases k <;> rfl
theorem eq_vec4 (i : Fin 4 → Fin 3) : i = ![i 0, i 1, i 2, i 3] := by
  funext k; fin_cases k <;> rfl

/-- A vector times a tensor. -/
def vecTimes {r : ℕ} (v : Fin 3 → ℂ) (T : Tens r) : Tens (r + 1) := fun i => v (i 0) * T (fun k => i k.succ)

theorem act_vecTimes {r : ℕ} (A : SymOp) (v : Fin 3 → ℂ) (T : Tens r) (i : Fin (r + 1) → Fin 3) :
    act A (vecTimes v T) i = (∑ a, (A (i 0) a : ℂ) * v a) * act A T (fun k => i k.succ) := by
  unfold act vecTimes
  rw [sum_vecCons, Finset.sum_mul]
  refine Finset.sum_congr rfl (fun a _ => ?_)
  rw [Finset.mul_sum]
  refine Finset.sum_congr rfl (fun j _ => ?_)
  rw [Fin.prod_univ_succ]
  simp only [Matrix.cons_val_zero, Matrix.cons_val_succ]
  ring

open Matrix in
/-- The contraction of two rank 3 tensors over the last index of the first and the first index of the second. -/
def contract33 (E T : Tens 3) : Tens 4 := fun i => ∑ m, E ![i 0, i 1, m] * T ![m, i 2, i 3]

theorem act_contract33 (A : SymOp) (hA : A * A.transpose = 1) (E T : Tens 3) (hE : act A E = E) (hT : act A T = T) :
    act A (contract33 E T) = contract33 E T := by
  have hA' : A.transpose * A = 1 := mul_eq_one_comm.1 hA
  have hd : ∀ n p : Fin 3, ∑ m, (A m n : ℂ) * A m p = if n = p then 1 else 0 := by
    intro n p
    have := congrFun (congrFun hA' n) p
    rw [Matrix.mul_apply, Matrix.one_apply] at this
    simp only [Matrix.transpose_apply] at this
    have h2 := congrArg (fun x : ℝ => (x : ℂ)) this
    push_cast at h2
    rw [h2]; split_ifs <;> simp
  funext i
  rw [eq_vec4 i, act4]
  generalize i 0 = p; generalize i 1 = q; generalize i 2 = r; generalize i 3 = s
  have e1 : ∀ m, E ![p, q, m] = ∑ n, (A m n : ℂ) * ∑ a, ∑ b, (A p a : ℂ) * A q b * E ![a, b, n] := by
    intro m
    conv_lhs => rw [← hE, act3]
    simp only [Finset.mul_sum]
    rw [Finset.sum_comm_cycle]
    refine Finset.sum_congr rfl (fun n _ => Finset.sum_congr rfl (fun a _ => Finset.sum_congr rfl (fun b _ => ?_)))
    ring
  have e2 : ∀ m, T ![m, r, s] = ∑ n, (A m n : ℂ) * ∑ c, ∑ d, (A r c : ℂ) * A s d * T ![n, c, d] := by
    intro m
    conv_lhs => rw [← hT, act3]
    simp only [Finset.mul_sum]
    refine Finset.sum_congr rfl (fun n _ => Finset.sum_congr rfl (fun a _ => Finset.sum_congr rfl (fun b _ => ?_)))
    ring
  have e3 : contract33 E T ![p, q, r, s] = ∑ n, (∑ a, ∑ b, (A p a : ℂ) * A q b * E ![a, b, n]) *
      ∑ c, ∑ d, (A r c : ℂ) * A s d * T ![n, c, d] := by
    show ∑ m, E ![p, q, m] * T ![m, r, s] = _
    generalize hX : (fun n => ∑ a, ∑ b, (A p a : ℂ) * A q b * E ![a, b, n]) = X
    generalize hY : (fun n => ∑ c, ∑ d, (A r c : ℂ) * A s d * T ![n, c, d]) = Y
    have hX' : ∀ n, (∑ a, ∑ b, (A p a : ℂ) * A q b * E ![a, b, n]) = X n := fun n => congrFun hX n
    have hY' : ∀ n, (∑ c, ∑ d, (A r c : ℂ) * A s d * T ![n, c, d]) = Y n := fun n => congrFun hY n
    simp only [e1, e2, hX', hY']
    have : ∀ m, (∑ n, (A m n : ℂ) * X n) * (∑ n, (A m n : ℂ) * Y n) =
        ∑ n, ∑ o, (X n * Y o) * ((A m n : ℂ) * A m o) := by
      intro m
      rw [Finset.sum_mul_sum]
      refine Finset.sum_congr rfl (fun n _ => Finset.sum_congr rfl (fun o _ => ?_))
      ring
    simp only [this]
    rw [Finset.sum_comm]
    refine Finset.sum_congr rfl (fun n _ => ?_)
    rw [Finset.sum_comm]
    simp only [← Finset.mul_sum, hd]
    simp
  rw [e3]
  have e4 : ∀ a b c d, contract33 E T ![a, b, c, d] = ∑ n, E ![a, b, n] * T ![n, c, d] := fun _ _ _ _ => rfl
  simp only [e4, Finset.mul_sum, Finset.sum_mul]
  have hswap : ∀ F : Fin 3 → Fin 3 → Fin 3 → Fin 3 → Fin 3 → ℂ,
      ∑ a, ∑ b, ∑ c, ∑ d, ∑ n, F a b c d n = ∑ n, ∑ a, ∑ b, ∑ c, ∑ d, F a b c d n := by
    intro F
    simp only [Fin.sum_univ_three]; ring
  rw [hswap]
  refine Finset.sum_congr rfl (fun n _ => ?_)
  have hswap2 : ∀ F : Fin 3 → Fin 3 → Fin 3 → Fin 3 → ℂ,
      ∑ a, ∑ b, ∑ c, ∑ d, F a b c d = ∑ c, ∑ d, ∑ a, ∑ b, F a b c d := by
    intro F
    simp only [Fin.sum_univ_three]; ring
  rw [hswap2]
  refine Finset.sum_congr rfl (fun c _ => Finset.sum_congr rfl (fun d _ => Finset.sum_congr rfl (fun a _ =>
    Finset.sum_congr rfl (fun b _ => ?_))))
  ring

theorem iso_table : ∀ a b c d : Fin 3, quadrupole_Isotropic.getD (position [a.val, b.val, c.val, d.val]) [] =
    (if a = d ∧ b = c then [yxxy] else []) ++ ((if a = c ∧ b = d then [yxyx] else []) ++
      (if a = b ∧ c = d then [yyxx] else [])) := by decide +kernel

theorem iso_value (S : Sympy) (σ : Sym → ℂ) : ∃ α β γ : ℂ, ∀ a b c d : Fin 3,
    valueOf 4 (tensorArray S [] 4 quadrupole_Isotropic) σ ![a, b, c, d] =
      γ * (if a = d then 1 else 0) * (if b = c then 1 else 0) + β * (if a = c then 1 else 0) * (if b = d then 1 else 0) +
        α * (if a = b then 1 else 0) * (if c = d then 1 else 0) := by
  refine ⟨LF.val (fun n => σ (tensorSym [] 4 n)) (elementTerms (1, 0) [yyxx]),
    LF.val (fun n => σ (tensorSym [] 4 n)) (elementTerms (1, 0) [yxyx]),
    LF.val (fun n => σ (tensorSym [] 4 n)) (elementTerms (1, 0) [yxxy]), fun a b c d => ?_⟩
  rw [valueOf_tensorArray]
  have h : List.ofFn (fun k => ((![a, b, c, d] : Fin 4 → Fin 3) k).val) = [a.val, b.val, c.val, d.val] := rfl
  rw [h, iso_table]
  have happ : ∀ l m : List ℤ, elementTerms (1, 0) (l ++ m) = elementTerms (1, 0) l ++ elementTerms (1, 0) m :=
    fun l m => List.map_append
  have hite : ∀ (P Q : Prop) [Decidable P] [Decidable Q] (x : ℤ), LF.val (fun n => σ (tensorSym [] 4 n))
      (elementTerms (1, 0) (if P ∧ Q then [x] else [])) =
      LF.val (fun n => σ (tensorSym [] 4 n)) (elementTerms (1, 0) [x]) * (if P then 1 else 0) * (if Q then 1 else 0) := by
    intro P Q _ _ x
    by_cases hP : P <;> by_cases hQ : Q <;> simp [hP, hQ, elementTerms, LF.val]
  rw [happ, happ, LF.val_append, LF.val_append, hite, hite, hite]
  ring

theorem iso_act (A : SymOp) (hA : A * A.transpose = 1) (T : Tens 4) (α β γ : ℂ)
    (hT : ∀ a b c d : Fin 3, T ![a, b, c, d] =
      γ * (if a = d then 1 else 0) * (if b = c then 1 else 0) + β * (if a = c then 1 else 0) * (if b = d then 1 else 0) +
        α * (if a = b then 1 else 0) * (if c = d then 1 else 0)) : act A T = T := by
  have hd : ∀ n p : Fin 3, ∑ m, (A n m : ℂ) * A p m = if n = p then 1 else 0 := by
    intro n p
    have := congrFun (congrFun hA n) p
    rw [Matrix.mul_apply, Matrix.one_apply] at this
    simp only [Matrix.transpose_apply] at this
    have h2 := congrArg (fun x : ℝ => (x : ℂ)) this
    push_cast at h2
    rw [h2]; split_ifs <;> simp
  funext i
  rw [eq_vec4 i, act4]
  generalize i 0 = p; generalize i 1 = q; generalize i 2 = r; generalize i 3 = s
  rw [hT p q r s, ← hd p s, ← hd q r, ← hd p r, ← hd q s, ← hd p q, ← hd r s]
  simp only [hT, Fin.sum_univ_three]
  simp
  ring

/-! ## Lookups -/

theorem get_mapVals_ok {α β : Type} {f : α → β} {tab : Dict Key α} {k : Key} {b : β}
    (h : Dict.get (Dict.mapVals f tab) k = .ok b) : ∃ a, Dict.get tab k = .ok a ∧ b = f a ∧ (k, a) ∈ tab := by
  have h1 := Dict.get?_mapVals f tab k
  unfold Dict.get at h ⊢
  rw [h1] at h
  cases h0 : Dict.get? tab k with
  | none => rw [h0] at h; cases h
  | some v =>
    rw [h0] at h; cases h
    exact ⟨v, rfl, rfl, by
      clear h1
      induction tab with
      | nil => cases h0
      | cons p t ih =>
        obtain ⟨k', v'⟩ := p
        unfold Dict.get? at h0
        split at h0
        · next e => cases h0; subst e; exact List.mem_cons_self
        · exact List.mem_cons_of_mem _ (ih h0)⟩

theorem get_mapVals {α β : Type} (f : α → β) {tab : Dict Key α} {k : Key} {a : α} (h : Dict.get tab k = .ok a) :
    Dict.get (Dict.mapVals f tab) k = .ok (f a) := by
  have h1 := Dict.get?_mapVals f tab k
  unfold Dict.get at h ⊢
  rw [h1]
  cases h0 : Dict.get? tab k with
  | none => rw [h0] at h; cases h
  | some v => rw [h0] at h; cases h; rfl

/-! ## Integer valued choices of the parameters -/

/-- The value of an element for integer parameters. -/
def intVal (w : ℕ → ℤ) (e : List ℤ) : ℤ := (e.map (fun c => if c < 0 then -w (c.natAbs - 1) else w (c.natAbs - 1))).sum

theorem val_intVal (w : ℕ → ℤ) (e : List ℤ) :
    LF.val (fun n => ((w n : ℤ) : ℂ)) (elementTerms (1, 0) e) = ((intVal w e : ℤ) : ℂ) := by
  unfold intVal
  induction e with
  | nil => simp [elementTerms, LF.val]
  | cons c e ih =>
    have : elementTerms (1, 0) (c :: e) = (c.natAbs - 1, if c < 0 then (-1, -0) else (1, 0)) :: elementTerms (1, 0) e := rfl
    rw [this, LF.val_cons, ih, List.map_cons, List.sum_cons]
    push_cast
    congr 1
    split <;> simp [Z3.val]

/-- Parameters of the given integer values. -/
noncomputable def intParams (pre : Key) (w : ℕ → ℤ) : Sym → ℂ := fun s => ((w (symPosition pre s) : ℤ) : ℂ)

theorem valueOf_intParams (S : Sympy) (pre : Key) (r : ℕ) (flat : List (List ℤ)) (hr : checkRange r flat = true)
    (w : ℕ → ℤ) (i : Fin r → Fin 3) : valueOf r (tensorArray S pre r flat) (intParams pre w) i =
      ((intVal w (flat.getD (position (List.ofFn (fun k => (i k).val))) []) : ℤ) : ℂ) := by
  rw [valueOf_tensorArray, ← val_intVal]
  refine val_congr (fun t ht => ?_)
  obtain ⟨c, hc, rfl⟩ := List.mem_map.1 ht
  have hb : c.natAbs - 1 < 3 ^ r := by
    unfold checkRange at hr
    rw [Bool.and_eq_true] at hr
    rw [List.getD_eq_getElem?_getD] at hc
    cases hx : flat[position (List.ofFn (fun k => (i k).val))]? with
    | none => rw [hx] at hc; simp at hc
    | some e =>
      rw [hx] at hc
      have h2 := List.all_eq_true.1 (List.all_eq_true.1 hr.2 e (List.mem_of_getElem? hx)) c hc
      rw [Bool.and_eq_true] at h2
      have := Nat.le_of_ble_eq_true h2.1
      have := Nat.le_of_ble_eq_true h2.2
      omega
  unfold intParams
  rw [symPosition_tensorSym pre hb]

/-! ## Free symbols -/

theorem free_elementExpr (S : Sympy) (pre : Key) (r : ℕ) (e : List ℤ) {s : Sym} (h : s ∈ (elementExpr S pre r e).free) :
    ∃ c ∈ e, s = tensorSym pre r (c.natAbs - 1) := by
  have hsym : ∀ c : ℤ, s ∈ (signedSym pre r c).free → s = tensorSym pre r (c.natAbs - 1) := by
    intro c hc
    simpa [signedSym, Expr.free] using hc
  have hneg : ∀ e : Expr, s ∈ (S.norm (.mul [.num (-1), e])).free → s ∈ e.free := by
    intro e h
    have := S.free_norm _ _ h
    simpa [Expr.free, Expr.mem_freeL, Expr.freeL] using this
  have hadd : ∀ a b : Expr, s ∈ (S.add a b).free → s ∈ a.free ∨ s ∈ b.free := fun a b => Sympy.free_add S
  have hsub : ∀ a b : Expr, s ∈ (S.sub a b).free → s ∈ a.free ∨ s ∈ b.free := by
    intro a b h
    rcases hadd _ _ h with h | h
    · exact Or.inl h
    · exact Or.inr (by
        simpa [Expr.free, Expr.mem_freeL, Expr.freeL] using h)
  cases e with
  | nil => simp [elementExpr, Expr.free] at h
  | cons c l =>
    simp only [elementExpr] at h
    have hf : ∀ (l : List ℤ) (a : Expr), s ∈ (l.foldl (fun a d => if d < 0 then S.sub a (signedSym pre r d) else
        S.add a (signedSym pre r d)) a).free → s ∈ a.free ∨ ∃ c ∈ l, s = tensorSym pre r (c.natAbs - 1) := by
      intro l
      induction l with
      | nil => intro a h; exact Or.inl h
      | cons d l ih =>
        intro a h
        rw [List.foldl_cons] at h
        rcases ih _ h with h | ⟨c, hc, e⟩
        · have : s ∈ a.free ∨ s ∈ (signedSym pre r d).free := by
            split at h
            · exact hsub _ _ h
            · exact hadd _ _ h
          rcases this with h | h
          · exact Or.inl h
          · exact Or.inr ⟨d, List.mem_cons_self, hsym d h⟩
        · exact Or.inr ⟨c, List.mem_cons_of_mem _ hc, e⟩
    rcases hf l _ h with h | ⟨d, hd, e⟩
    · refine ⟨c, List.mem_cons_self, hsym c ?_⟩
      split at h
      · exact hneg _ h
      · exact h
    · exact ⟨d, List.mem_cons_of_mem _ hd, e⟩

/-- Every parameter is found at its own position. -/
def checkNames (r : ℕ) (flat : List (List ℤ)) : Bool :=
  flat.all (fun e => e.all (fun c => Nat.ble 1 c.natAbs && Nat.ble c.natAbs (3 ^ r) &&
    decide (flat.getD (c.natAbs - 1) [] = [(c.natAbs : ℤ)])))

theorem names_dipole : ∀ kv ∈ dipoleTable, checkNames 3 kv.2 = true := by decide +kernel
theorem names_surface : ∀ kv ∈ surfaceTable, checkNames 3 kv.2 = true := by decide +kernel
theorem names_quadrupole : ∀ kv ∈ quadrupoleTable, checkNames 4 kv.2 = true := by decide +kernel

theorem get_tensorArray (S : Sympy) (pre : Key) (r : ℕ) (flat : List (List ℤ)) (idx : List ℕ) :
    (tensorArray S pre r flat).get idx = elementExpr S pre r (flat.getD (position idx) []) := by
  unfold tensorArray
  dsimp only
  rw [List.getD_eq_getElem?_getD, List.getD_eq_getElem?_getD, List.getElem?_map]
  cases flat[position idx]? <;> rfl

theorem checkNames_spec {r : ℕ} {flat : List (List ℤ)} (h : checkNames r flat = true) (S : Sympy) (pre : Key)
    (i : Fin r → Fin 3) {s : Sym}
    (hs : s ∈ ((tensorArray S pre r flat).get (List.ofFn (fun k => (i k).val))).free) :
    ∃ j : Fin r → Fin 3, s = ⟨pre ++ List.ofFn (fun k => axisName (j k).val), 0⟩ ∧
      (tensorArray S pre r flat).get (List.ofFn (fun k => (j k).val)) = .sym s := by
  rw [get_tensorArray] at hs
  obtain ⟨c, hc, rfl⟩ := free_elementExpr S pre r _ hs
  rw [List.getD_eq_getElem?_getD] at hc
  cases hx : flat[position (List.ofFn (fun k => (i k).val))]? with
  | none => rw [hx] at hc; simp at hc
  | some e =>
    rw [hx] at hc
    unfold checkNames at h
    have h2 := List.all_eq_true.1 (List.all_eq_true.1 h e (List.mem_of_getElem? hx)) c hc
    simp only [Bool.and_eq_true, decide_eq_true_eq] at h2
    obtain ⟨⟨h3, h4⟩, h5⟩ := h2
    have h3 := Nat.le_of_ble_eq_true h3
    have h4 := Nat.le_of_ble_eq_true h4
    refine ⟨tupleAt r (c.natAbs - 1), ?_, ?_⟩
    · unfold tensorSym
      congr 2
      rw [← ofFn_tupleAt, List.map_ofFn]
      rfl
    · rw [get_tensorArray, ofFn_tupleAt, position_digits3 _ _ (by omega), h5]
      simp only [elementExpr, List.foldl_nil]
      rw [if_neg (by omega)]
      simp only [signedSym, Int.natAbs_natCast]

end TensorDef
end Shgpy
