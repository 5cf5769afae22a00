import Verif.Model.Formgen
import Verif.Spec.Intensity
import Verif.Proofs.Transform
import Verif.Proofs.Expr
import Verif.Proofs.FormConvert
import Mathlib.Analysis.SpecialFunctions.Trigonometric.Basic

/-!
# Lemmas: evaluation of the tensors built by `formgen`
-/

namespace Shgpy
open Spec
open scoped ComplexConjugate

set_option linter.unusedSectionVars false
set_option linter.unusedSimpArgs false

theorem conjL_eq (l : List Expr) : Expr.conjL l = l.map Expr.conj := by
  induction l with
  | nil => rfl
  | cons a l ih => simp [Expr.conjL, ih]

theorem eval_conj (r : Sym → ℝ) (e : Expr) : e.conj.eval (realVal r) = conj (e.eval (realVal r)) := by
  induction e using Expr.ind with
  | num q => simp [Expr.conj, Expr.eval]
  | hI => simp [Expr.conj, Expr.eval, Expr.evalProd]
  | sym s => simp [Expr.conj, Expr.eval, realVal]
  | add l ih =>
    simp only [Expr.conj, Expr.eval, Expr.evalSum_eq, conjL_eq, List.map_map, map_list_sum]
    congr 1
    exact List.map_congr_left (fun e he => ih e he)
  | mul l ih =>
    simp only [Expr.conj, Expr.eval, Expr.evalProd_eq, conjL_eq, List.map_map, map_list_prod]
    congr 1
    exact List.map_congr_left (fun e he => ih e he)
  | pow b n ih => simp [Expr.conj, Expr.eval, ih]
  | cos e ih => simp [Expr.conj, Expr.eval, ih, Complex.cos_conj]
  | sin e ih => simp [Expr.conj, Expr.eval, ih, Complex.sin_conj]

section
variable (S : Sympy) (σ : Valuation)

theorem eval_neg (e : Expr) : (S.neg e).eval σ = -e.eval σ := by
  simp [Sympy.neg, S.eval_norm, Expr.eval, Expr.evalProd]

theorem eval_sub (a b : Expr) : (S.sub a b).eval σ = a.eval σ - b.eval σ := by
  simp [Sympy.sub, S.eval_norm, Expr.eval, Expr.evalProd, Expr.evalSum]
  ring

/-- The value of an array. -/
noncomputable def evalNd (t : Nd Expr) : Nd ℂ := t.map (fun e => e.eval σ)

@[simp] theorem evalNd_shape (t : Nd Expr) : (evalNd σ t).shape = t.shape := rfl
@[simp] theorem evalNd_get (t : Nd Expr) (idx : List ℕ) : (evalNd σ t).get idx = (t.get idx).eval σ := rfl
@[simp] theorem evalNd_rank (t : Nd Expr) : (evalNd σ t).rank = t.rank := rfl

theorem eval_foldl_sum (l : List ℕ) (f : ℕ → Expr) (a : Expr) :
    (l.foldl (fun acc i => S.add acc (f i)) a).eval σ = l.foldl (fun acc i => acc + (f i).eval σ) (a.eval σ) := by
  induction l generalizing a with
  | nil => rfl
  | cons x l ih => rw [List.foldl_cons, List.foldl_cons, ih, S.eval_add]

theorem eval_opsSum (n : ℕ) (f : ℕ → Expr) :
    ((exprOps S).sum n f).eval σ = (ringOps ℂ).sum n (fun i => (f i).eval σ) := by
  unfold Ops.sum exprOps ringOps
  simp only
  rw [eval_foldl_sum]
  simp [Expr.eval]

theorem tensordot0_eval (a b : Nd Expr) :
    evalNd σ (Nd.tensordot0 (exprOps S) a b) = Nd.tensordot0 (ringOps ℂ) (evalNd σ a) (evalNd σ b) := by
  unfold Nd.tensordot0 evalNd Nd.map
  simp only [Nd.mk.injEq, true_and]
  funext idx
  exact S.eval_mul σ _ _

theorem tensorProduct_eval (ts : List (Nd Expr)) :
    (tensorProduct (exprOps S) ts).map (evalNd σ) = tensorProduct (ringOps ℂ) (ts.map (evalNd σ)) := by
  induction ts with
  | nil => rfl
  | cons a ts ih =>
    match ts with
    | [] => rfl
    | [b] =>
      show Except.ok (evalNd σ _) = Except.ok _
      rw [tensordot0_eval]
    | b :: c :: ts =>
      show Except.map _ ((tensorProduct (exprOps S) (b :: c :: ts)).bind _) =
        (tensorProduct (ringOps ℂ) ((b :: c :: ts).map (evalNd σ))).bind _
      rw [← ih]
      cases tensorProduct (exprOps S) (b :: c :: ts) with
      | error e => rfl
      | ok r =>
        show Except.ok (evalNd σ (Nd.tensordot0 _ _ _)) = Except.ok _
        rw [tensordot0_eval]

theorem trace_eval (t : Nd Expr) (p q : ℕ) :
    (Nd.trace (exprOps S) t p q).map (evalNd σ) = Nd.trace (ringOps ℂ) (evalNd σ t) p q := by
  unfold Nd.trace
  by_cases hc : p < t.rank ∧ q < t.rank ∧ p ≠ q
  · rw [if_pos hc, if_pos (show p < (evalNd σ t).rank ∧ q < (evalNd σ t).rank ∧ p ≠ q from hc)]
    show Except.ok _ = Except.ok _
    congr 1
    unfold evalNd Nd.map
    simp only [Nd.mk.injEq, true_and]
    funext idx
    exact eval_opsSum S σ _ _
  · rw [if_neg hc, if_neg (show ¬ (p < (evalNd σ t).rank ∧ q < (evalNd σ t).rank ∧ p ≠ q) from hc)]
    rfl

theorem contractLoop_eval (pairs : List (List ℤ)) : ∀ (t : Nd Expr) (labels : List ℤ),
    (contractLoop (exprOps S) pairs t labels).map (evalNd σ) =
      contractLoop (ringOps ℂ) pairs (evalNd σ t) labels := by
  induction pairs with
  | nil => intro t labels; rfl
  | cons pair rest ih =>
    intro t labels
    unfold contractLoop
    cases h1 : pair.mapM (listIndex labels) with
    | error e => rfl
    | ok new =>
      rw [ok_bind, ok_bind]
      cases h2 : pyGet new 0 with
      | error e => rfl
      | ok p =>
        rw [ok_bind, ok_bind]
        cases h3 : pyGet new 1 with
        | error e => rfl
        | ok q =>
          rw [ok_bind, ok_bind, ← trace_eval]
          cases h4 : Nd.trace (exprOps S) t p q with
          | error e => rfl
          | ok t' =>
            show Except.map _ (Except.ok t' >>= _) = (Except.ok (evalNd σ t') >>= _)
            rw [ok_bind, ok_bind]
            cases h5 : pair.foldlM listRemove labels with
            | error e => rfl
            | ok labels' =>
              rw [ok_bind, ok_bind]
              exact ih t' labels'

theorem contractProduct_eval (ts : List (Nd Expr)) (pairs : List (List ℤ)) :
    (contractProduct (exprOps S) ts pairs).map (evalNd σ) =
      contractProduct (ringOps ℂ) (ts.map (evalNd σ)) pairs := by
  unfold contractProduct
  rw [← tensorProduct_eval S]
  cases tensorProduct (exprOps S) ts with
  | error e => rfl
  | ok p =>
    show Except.map _ (Except.ok p >>= _) = (Except.ok (evalNd σ p) >>= _)
    rw [ok_bind, ok_bind]
    exact contractLoop_eval S σ pairs p _

end

/-- If the contraction of the values succeeds for one valuation, that of the expressions does, and its values are the
contractions of the values. -/
theorem contractProduct_ok (S : Sympy) (ts : List (Nd Expr)) (pairs : List (List ℤ)) {P : Valuation → Nd ℂ → Prop}
    (h : ∀ σ, ∃ y, contractProduct (ringOps ℂ) (ts.map (evalNd σ)) pairs = .ok y ∧ P σ y) :
    ∃ res, contractProduct (exprOps S) ts pairs = .ok res ∧ ∀ σ, P σ (evalNd σ res) := by
  cases hr : contractProduct (exprOps S) ts pairs with
  | error e =>
    obtain ⟨y, hy, -⟩ := h (fun _ => 0)
    rw [← contractProduct_eval S, hr] at hy
    cases hy
  | ok res =>
    refine ⟨res, rfl, fun σ => ?_⟩
    obtain ⟨y, hy, hP⟩ := h σ
    rw [← contractProduct_eval S, hr] at hy
    cases hy
    exact hP

section
variable {R : Type} [CommSemiring R]

theorem ringSum3 (f : ℕ → R) : (ringOps R).sum 3 f = ∑ i : Fin 3, f i := by
  rw [Fin.sum_univ_three]
  simp [Ops.sum, ringOps, List.range_succ]

theorem sum_tuples3 (l : List ℕ) (F : List ℕ → R) :
    ((Nd.tuples (3 :: l)).map F).sum = ∑ i : Fin 3, ((Nd.tuples l).map (fun v => F (i.val :: v))).sum := by
  rw [sum_tuples_cons, Finset.sum_range]

theorem contract_concrete (P : Nd R) (pairs : List (ℕ × ℕ)) (sh : List ℕ) (hP : P.shape = sh)
    (hd1 : (pairs.flatMap (fun pq => [pq.1, pq.2])).Nodup) (hd2 : ∀ pq ∈ pairs, pq.1 < sh.length ∧ pq.2 < sh.length)
    (axes : List ℕ) (ha : freeAxes sh.length pairs = axes) (hs : axes.map (fun a => sh.getD a 0) = [3])
    (hb : pairs.map (fun pq => min (sh.getD pq.1 0) (sh.getD pq.2 0)) = List.replicate pairs.length 3) :
    ∃ y, tensorContract (ringOps R) P (pairs.map (fun pq => [(pq.1 : ℤ), (pq.2 : ℤ)])) = .ok y ∧ y.shape = [3] ∧
      ∀ i, y.get [i] = ((Nd.tuples (List.replicate pairs.length 3)).map
        (fun v => P.get ((List.range sh.length).map (axisValue pairs v (fun _ => i))))).sum := by
  subst hP
  obtain ⟨y, h1, h2, h3⟩ := tensorContract_ok P pairs ⟨hd1, hd2⟩
  rw [show freeAxes P.rank pairs = axes from ha] at h2 h3
  refine ⟨y, h1, h2.trans hs, fun i => ?_⟩
  have h4 := h3 (fun _ => i)
  have hl : axes.length = 1 := by simpa using congrArg List.length hs
  obtain ⟨a, rfl⟩ := List.length_eq_one_iff.1 hl
  rw [show [a].map (fun _ => i) = [i] from rfl] at h4
  rw [h4, contracted, hb]
  rfl

theorem contractProduct_of {ts : List (Nd R)} {P y : Nd R} {pairs : List (List ℤ)}
    {pairs' : List (ℕ × ℕ)} (h : tensorProduct (ringOps R) ts = .ok P)
    (h' : tensorContract (ringOps R) P (pairs'.map (fun pq => [(pq.1 : ℤ), (pq.2 : ℤ)])) = .ok y)
    (hp : pairs = pairs'.map (fun pq => [(pq.1 : ℤ), (pq.2 : ℤ)])) :
    contractProduct (ringOps R) ts pairs = .ok y := by
  unfold contractProduct
  rw [h, ok_bind, hp, h']

theorem contract_quad {rt F : Nd R} (h : rt.shape = [3, 3, 3]) (hF : F.shape = [3]) :
    ∃ y, contractProduct (ringOps R) [rt, F, F] [[1, 3], [2, 4]] = .ok y ∧ y.shape = [3] ∧
      ∀ i, y.get [i] = ∑ j : Fin 3, ∑ k : Fin 3, rt.get [i, j.val, k.val] * F.get [j.val] * F.get [k.val] := by
  obtain ⟨s, g⟩ := rt
  obtain ⟨s', f⟩ := F
  simp only at h hF
  subst h hF
  obtain ⟨y, h1, h2, h3⟩ := contract_concrete
    (Nd.tensordot0 (ringOps R) ⟨[3, 3, 3], g⟩ (Nd.tensordot0 (ringOps R) ⟨[3], f⟩ ⟨[3], f⟩))
    [(1, 3), (2, 4)] [3, 3, 3, 3, 3] rfl (by decide) (by decide) [0] (by decide) (by decide) (by decide)
  refine ⟨y, contractProduct_of rfl h1 rfl, h2, fun i => ?_⟩
  rw [h3]
  simp only [List.length_cons, List.length_nil, List.replicate_succ, List.replicate_zero, sum_tuples3]
  refine Finset.sum_congr rfl (fun j _ => Finset.sum_congr rfl (fun k _ => ?_))
  simp [Nd.tuples, Nd.tensordot0, Nd.rank, List.range_succ, axisValue, List.findIdx_cons, ringOps, mul_assoc]

theorem contract_magnetic {z kin rt F : Nd R} (hz : z.shape = [3, 3, 3]) (hk : kin.shape = [3])
    (h : rt.shape = [3, 3, 3]) (hF : F.shape = [3]) :
    ∃ y, contractProduct (ringOps R) [z, kin, rt, F, F] [[1, 3], [2, 4], [5, 7], [6, 8]] = .ok y ∧ y.shape = [3] ∧
      ∀ i, y.get [i] = ∑ a : Fin 3, ∑ b : Fin 3, ∑ j : Fin 3, ∑ k : Fin 3, z.get [i, a.val, b.val] * kin.get [a.val] *
        (rt.get [b.val, j.val, k.val] * F.get [j.val] * F.get [k.val]) := by
  obtain ⟨s, g⟩ := rt
  obtain ⟨s', f⟩ := F
  obtain ⟨s2, z⟩ := z
  obtain ⟨s3, kn⟩ := kin
  simp only at h hF hz hk
  subst h hF hz hk
  obtain ⟨y, h1, h2, h3⟩ := contract_concrete
    (Nd.tensordot0 (ringOps R) ⟨[3, 3, 3], z⟩ (Nd.tensordot0 (ringOps R) ⟨[3], kn⟩
      (Nd.tensordot0 (ringOps R) ⟨[3, 3, 3], g⟩ (Nd.tensordot0 (ringOps R) ⟨[3], f⟩ ⟨[3], f⟩))))
    [(1, 3), (2, 4), (5, 7), (6, 8)] [3, 3, 3, 3, 3, 3, 3, 3, 3] rfl (by decide) (by decide) [0] (by decide) (by decide) (by decide)
  refine ⟨y, contractProduct_of rfl h1 rfl, h2, fun i => ?_⟩
  rw [h3]
  simp only [List.length_cons, List.length_nil, List.replicate_succ, List.replicate_zero, sum_tuples3]
  refine Finset.sum_congr rfl (fun a _ => Finset.sum_congr rfl (fun b _ => Finset.sum_congr rfl (fun j _ =>
    Finset.sum_congr rfl (fun k _ => ?_))))
  simp [Nd.tuples, Nd.tensordot0, Nd.rank, List.range_succ, axisValue, List.findIdx_cons, ringOps, mul_assoc]

theorem contract_quadGrad {rt kin F : Nd R} (h : rt.shape = [3, 3, 3, 3]) (hk : kin.shape = [3]) (hF : F.shape = [3]) :
    ∃ y, contractProduct (ringOps R) [rt, kin, F, F] [[1, 4], [2, 5], [3, 6]] = .ok y ∧ y.shape = [3] ∧
      ∀ i, y.get [i] = ∑ j : Fin 3, ∑ a : Fin 3, ∑ b : Fin 3,
        rt.get [i, j.val, a.val, b.val] * kin.get [j.val] * F.get [a.val] * F.get [b.val] := by
  obtain ⟨s, g⟩ := rt
  obtain ⟨s', f⟩ := F
  obtain ⟨s3, kn⟩ := kin
  simp only at h hF hk
  subst h hF hk
  obtain ⟨y, h1, h2, h3⟩ := contract_concrete
    (Nd.tensordot0 (ringOps R) ⟨[3, 3, 3, 3], g⟩ (Nd.tensordot0 (ringOps R) ⟨[3], kn⟩
      (Nd.tensordot0 (ringOps R) ⟨[3], f⟩ ⟨[3], f⟩)))
    [(1, 4), (2, 5), (3, 6)] [3, 3, 3, 3, 3, 3, 3] rfl (by decide) (by decide) [0] (by decide) (by decide) (by decide)
  refine ⟨y, contractProduct_of rfl h1 rfl, h2, fun i => ?_⟩
  rw [h3]
  simp only [List.length_cons, List.length_nil, List.replicate_succ, List.replicate_zero, sum_tuples3]
  refine Finset.sum_congr rfl (fun a _ => Finset.sum_congr rfl (fun j _ => Finset.sum_congr rfl (fun k _ => ?_)))
  simp [Nd.tuples, Nd.tensordot0, Nd.rank, List.range_succ, axisValue, List.findIdx_cons, ringOps, mul_assoc]

theorem contract_rot3 {A t : Nd R} (hA : A.shape = [3, 3]) (ht : t.shape = [3, 3, 3]) :
    ∃ y, contractProduct (ringOps R) [A, A, A, t] [[1, 6], [3, 7], [5, 8]] = .ok y ∧ y.shape = [3, 3, 3] ∧
      ∀ i j k, y.get [i, j, k] = ∑ a : Fin 3, ∑ b : Fin 3, ∑ c : Fin 3,
        A.get [i, a.val] * A.get [j, b.val] * A.get [k, c.val] * t.get [a.val, b.val, c.val] := by
  obtain ⟨y, h1, h2, h3⟩ := transform_ok (A := A) (t := t) (r := 3) (e := 3) (d := 3) (by norm_num) hA ht
  have hr : t.rank = 3 := by simp [Nd.rank, ht]
  refine ⟨y, ?_, h2, fun i j k => ?_⟩
  · unfold transform at h1
    rw [hr] at h1
    exact h1
  · rw [h3 _ rfl, transformed, ht, sum_tuples3]
    simp only [sum_tuples3]
    simp [Nd.tuples, coefficient, mul_assoc]

theorem contract_rot4 {A t : Nd R} (hA : A.shape = [3, 3]) (ht : t.shape = [3, 3, 3, 3]) :
    ∃ y, contractProduct (ringOps R) [A, A, A, A, t] [[1, 8], [3, 9], [5, 10], [7, 11]] = .ok y ∧
      y.shape = [3, 3, 3, 3] ∧
      ∀ i j k l, y.get [i, j, k, l] = ∑ a : Fin 3, ∑ b : Fin 3, ∑ c : Fin 3, ∑ d : Fin 3,
        A.get [i, a.val] * A.get [j, b.val] * A.get [k, c.val] * A.get [l, d.val] *
          t.get [a.val, b.val, c.val, d.val] := by
  obtain ⟨y, h1, h2, h3⟩ := transform_ok (A := A) (t := t) (r := 4) (e := 3) (d := 3) (by norm_num) hA ht
  have hr : t.rank = 4 := by simp [Nd.rank, ht]
  refine ⟨y, ?_, h2, fun i j k l => ?_⟩
  · unfold transform at h1
    rw [hr] at h1
    exact h1
  · rw [h3 _ rfl, transformed, ht, sum_tuples3]
    simp only [sum_tuples3]
    simp [Nd.tuples, coefficient, mul_assoc]

end

end Shgpy
