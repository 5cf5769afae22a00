import Verif.Spec.Trig
import Verif.Proofs.Dict
import Mathlib.Analysis.SpecialFunctions.Trigonometric.Basic
import Mathlib.Tactic.LinearCombination

/-!
# The lookup table holds the Fourier coefficients of `cos^a sin^b`
-/

set_option linter.unusedSectionVars false
set_option linter.unusedSimpArgs false

namespace Shgpy
open Spec

namespace Lookup

/-- An entry as a Gaussian rational. -/
def gv : PyObj → Option (ℚ × ℚ)
  | .native re im => some (re, im)
  | .sy (.mul [.num q, .I]) => some (0, q)
  | _ => none

/-- A row as Gaussian rationals. -/
def gvRow : List PyObj → Option (List (ℚ × ℚ))
  | [] => some []
  | o :: r =>
    match gv o, gvRow r with
    | some x, some xs => some (x :: xs)
    | _, _ => none

/-- The row of a code, empty if there is none. -/
def row (a b : ℕ) : List (ℚ × ℚ) := ((Dict.get? table (a, b)).bind gvRow).getD []

/-- Coefficientwise sum of the row shifted up by two places and the row. -/
def plusShift : List (ℚ × ℚ) → List (ℚ × ℚ) := fun r =>
  List.zipWith (fun x y => (x.1 + y.1, x.2 + y.2)) ((0, 0) :: (0, 0) :: r) (r ++ [(0, 0), (0, 0)])

/-- Coefficientwise difference of the row shifted up by two places and the row. -/
def minusShift : List (ℚ × ℚ) → List (ℚ × ℚ) := fun r =>
  List.zipWith (fun x y => (x.1 - y.1, x.2 - y.2)) ((0, 0) :: (0, 0) :: r) (r ++ [(0, 0), (0, 0)])

/-- Twice the row shifted up by one place. -/
def twice : List (ℚ × ℚ) → List (ℚ × ℚ) := fun r =>
  ((0, 0) :: r ++ [(0, 0)]).map (fun x : ℚ × ℚ => (2 * x.1, 2 * x.2))

/-- `2i` times the row shifted up by one place. -/
def twiceI : List (ℚ × ℚ) → List (ℚ × ℚ) := fun r =>
  ((0, 0) :: r ++ [(0, 0)]).map (fun x : ℚ × ℚ => (-2 * x.2, 2 * x.1))

/-- The codes of the table. -/
def codes : List (ℕ × ℕ) := (List.range 9).flatMap (fun a => (List.range (9 - a)).map (fun b => (a, b)))

theorem mem_codes {a b : ℕ} : (a, b) ∈ codes ↔ a + b ≤ 8 := by
  simp only [codes, List.mem_flatMap, List.mem_range, List.mem_map, Prod.mk.injEq]
  constructor
  · rintro ⟨a', h1, b', h2, rfl, rfl⟩; omega
  · intro h; exact ⟨a, by omega, b, by omega, rfl, rfl⟩

theorem table_keys : Dict.keys table = codes := by decide +kernel

theorem rows_ok : ∀ c ∈ table, (gvRow c.2).isSome = true ∧ c.2.length = 33 := by decide +kernel

theorem row_length : ∀ c ∈ codes, (row c.1 c.2).length = 33 := by decide +kernel

theorem row_zero : row 0 0 = List.replicate 16 (0, 0) ++ (1, 0) :: List.replicate 16 (0, 0) := by decide +kernel

theorem row_cos : ∀ c ∈ codes, c.1 + c.2 < 8 → twice (row (c.1 + 1) c.2) = plusShift (row c.1 c.2) := by
  decide +kernel

theorem row_sin : ∀ b ∈ List.range 8, twiceI (row 0 (b + 1)) = minusShift (row 0 b) := by decide +kernel

/-- A Gaussian rational as a complex number. -/
noncomputable def gz (x : ℚ × ℚ) : ℂ := (x.1 : ℂ) + (x.2 : ℂ) * Complex.I

/-- The polynomial with the given coefficients. -/
noncomputable def peval (w : ℂ) : List (ℚ × ℚ) → ℂ
  | [] => 0
  | x :: r => gz x + w * peval w r

theorem peval_append (w : ℂ) (l l' : List (ℚ × ℚ)) : peval w (l ++ l') = peval w l + w ^ l.length * peval w l' := by
  induction l with
  | nil => simp [peval]
  | cons x l ih => simp only [List.cons_append, peval, ih, List.length_cons, pow_succ]; ring

theorem gz_zero : gz (0, 0) = 0 := by simp [gz]

theorem peval_replicate (w : ℂ) (n : ℕ) : peval w (List.replicate n (0, 0)) = 0 := by
  induction n with
  | zero => rfl
  | succ n ih => simp [List.replicate_succ, peval, ih, gz_zero]

theorem peval_zip_add (w : ℂ) : ∀ l l' : List (ℚ × ℚ), l.length = l'.length →
    peval w (List.zipWith (fun x y => (x.1 + y.1, x.2 + y.2)) l l') = peval w l + peval w l'
  | [], [], _ => by simp [peval]
  | [], _ :: _, h => by simp at h
  | _ :: _, [], h => by simp at h
  | x :: l, y :: l', h => by
    simp only [List.zipWith_cons_cons, peval, peval_zip_add w l l' (by simpa using h), gz]
    push_cast
    ring

theorem peval_zip_sub (w : ℂ) : ∀ l l' : List (ℚ × ℚ), l.length = l'.length →
    peval w (List.zipWith (fun x y => (x.1 - y.1, x.2 - y.2)) l l') = peval w l - peval w l'
  | [], [], _ => by simp [peval]
  | [], _ :: _, h => by simp at h
  | _ :: _, [], h => by simp at h
  | x :: l, y :: l', h => by
    simp only [List.zipWith_cons_cons, peval, peval_zip_sub w l l' (by simpa using h), gz]
    push_cast
    ring

theorem peval_map (w k : ℂ) (f : ℚ × ℚ → ℚ × ℚ) (hf : ∀ x, gz (f x) = k * gz x) (l : List (ℚ × ℚ)) :
    peval w (l.map f) = k * peval w l := by
  induction l with
  | nil => simp [peval]
  | cons x l ih => simp only [List.map_cons, peval, ih, hf]; ring

theorem peval_pad (w : ℂ) (r : List (ℚ × ℚ)) : peval w ((0, 0) :: r ++ [(0, 0)]) = w * peval w r := by
  rw [List.cons_append]
  simp only [peval, peval_append, gz_zero]
  ring

theorem peval_plusShift (w : ℂ) (r : List (ℚ × ℚ)) : peval w (plusShift r) = (w ^ 2 + 1) * peval w r := by
  unfold plusShift
  rw [peval_zip_add _ _ _ (by simp)]
  simp only [peval, peval_append, gz_zero]
  ring

theorem peval_minusShift (w : ℂ) (r : List (ℚ × ℚ)) : peval w (minusShift r) = (w ^ 2 - 1) * peval w r := by
  unfold minusShift
  rw [peval_zip_sub _ _ _ (by simp)]
  simp only [peval, peval_append, gz_zero]
  ring

theorem peval_twice (w : ℂ) (r : List (ℚ × ℚ)) : peval w (twice r) = 2 * w * peval w r := by
  unfold twice
  rw [peval_map w 2 _ (fun x => by simp only [gz]; push_cast; ring), peval_pad]
  ring

theorem peval_twiceI (w : ℂ) (r : List (ℚ × ℚ)) : peval w (twiceI r) = 2 * Complex.I * w * peval w r := by
  unfold twiceI
  rw [peval_map w (2 * Complex.I) _ (fun x => by
    simp only [gz]; push_cast
    linear_combination (-2 * (x.2 : ℂ)) * Complex.I_mul_I), peval_pad]
  ring

theorem two_cos (x : ℂ) : (Complex.exp (Complex.I * x)) ^ 2 + 1 = 2 * Complex.exp (Complex.I * x) * Complex.cos x := by
  have h : Complex.exp (Complex.I * x) * Complex.exp (-(Complex.I * x)) = 1 := by rw [← Complex.exp_add]; simp
  rw [Complex.cos]
  have e1 : x * Complex.I = Complex.I * x := mul_comm _ _
  have e2 : -x * Complex.I = -(Complex.I * x) := by ring
  rw [e1, e2]
  linear_combination -h

theorem two_sin (x : ℂ) : (Complex.exp (Complex.I * x)) ^ 2 - 1 =
    2 * Complex.I * Complex.exp (Complex.I * x) * Complex.sin x := by
  have h : Complex.exp (Complex.I * x) * Complex.exp (-(Complex.I * x)) = 1 := by rw [← Complex.exp_add]; simp
  rw [Complex.sin]
  have e1 : x * Complex.I = Complex.I * x := mul_comm _ _
  have e2 : -x * Complex.I = -(Complex.I * x) := by ring
  rw [e1, e2]
  have hI := Complex.I_mul_I
  linear_combination h - (Complex.exp (Complex.I * x) * Complex.exp (-(Complex.I * x)) -
    Complex.exp (Complex.I * x) ^ 2) * hI

theorem peval_row (x : ℂ) : ∀ a b : ℕ, a + b ≤ 8 →
    peval (Complex.exp (Complex.I * x)) (row a b) =
      (Complex.exp (Complex.I * x)) ^ 16 * (Complex.cos x ^ a * Complex.sin x ^ b) := by
  have hne : Complex.exp (Complex.I * x) ≠ 0 := Complex.exp_ne_zero _
  intro a
  induction a with
  | zero =>
    intro b
    induction b with
    | zero =>
      intro _
      rw [row_zero, peval_append]
      simp only [List.length_replicate, peval, peval_replicate, pow_zero, gz]
      push_cast
      ring
    | succ b ih =>
      intro hb
      have h1 := row_sin b (by simp; omega)
      have h2 := congrArg (peval (Complex.exp (Complex.I * x))) h1
      rw [peval_twiceI, peval_minusShift, two_sin, ih (by omega)] at h2
      have h3 : (2 * Complex.I * Complex.exp (Complex.I * x)) ≠ 0 :=
        mul_ne_zero (mul_ne_zero two_ne_zero Complex.I_ne_zero) hne
      apply mul_left_cancel₀ h3
      rw [h2, pow_succ]
      ring
  | succ a ih =>
    intro b hb
    have h1 := row_cos (a, b) (mem_codes.2 (by omega)) (by simp only; omega)
    have h2 := congrArg (peval (Complex.exp (Complex.I * x))) h1
    simp only at h2
    rw [peval_twice, peval_plusShift, two_cos, ih b (by omega)] at h2
    have h3 : (2 * Complex.exp (Complex.I * x)) ≠ 0 := mul_ne_zero two_ne_zero hne
    apply mul_left_cancel₀ h3
    rw [h2, pow_succ]
    ring

theorem gv_value {o : PyObj} {x : ℚ × ℚ} (h : gv o = some x) (σ : Valuation) : objValue σ o = gz x := by
  cases o with
  | native re im => simp only [gv, Option.some.injEq] at h; subst h; rfl
  | sy e =>
    unfold gv at h
    split at h
    · rename_i heq; cases heq
    · rename_i q heq
      cases heq; cases h
      simp [objValue, Expr.eval, Expr.evalProd, gz]
    · cases h

theorem gvRow_getElem {l : List PyObj} {xs : List (ℚ × ℚ)} (h : gvRow l = some xs) (σ : Valuation) :
    l.map (objValue σ) = xs.map gz := by
  induction l generalizing xs with
  | nil => cases h; rfl
  | cons o l ih =>
    simp only [gvRow] at h
    split at h
    · rename_i x ys h1 h2
      cases h
      simp only [List.map_cons, gv_value h1 σ, ih h2]
    · cases h

theorem get_table {a b : ℕ} (h : a + b ≤ 8) : ∃ r, Dict.get? table (a, b) = some r ∧ r.length = 33 ∧
    ∀ σ, r.map (objValue σ) = (row a b).map gz := by
  cases hr : Dict.get? table (a, b) with
  | none =>
    rw [Dict.get?_eq_none, table_keys, mem_codes] at hr
    exact absurd h hr
  | some r =>
    obtain ⟨h1, h2⟩ := rows_ok _ (Dict.mem_of_get? hr)
    refine ⟨r, rfl, h2, fun σ => ?_⟩
    obtain ⟨xs, hxs⟩ := Option.isSome_iff_exists.1 h1
    simp only at hxs
    have : row a b = xs := by simp [row, hr, hxs]
    rw [this]
    exact gvRow_getElem hxs σ

theorem get_table_none {a b : ℕ} (h : ¬ a + b ≤ 8) : Dict.get? table (a, b) = none := by
  rw [Dict.get?_eq_none, table_keys, mem_codes]
  exact h

theorem peval_sum (w : ℂ) (l : List (ℚ × ℚ)) :
    peval w l = ∑ i ∈ Finset.range l.length, (l.map gz).getD i 0 * w ^ i := by
  induction l with
  | nil => simp [peval]
  | cons x l ih =>
    rw [List.length_cons, Finset.sum_range_succ']
    simp only [peval, ih, List.map_cons, List.getD_cons_succ, List.getD_cons_zero, pow_zero, mul_one, Finset.mul_sum]
    rw [add_comm]
    congr 1
    refine Finset.sum_congr rfl (fun i _ => ?_)
    ring

/-- The entry of frequency `n` of the row of a code, as a complex number. -/
noncomputable def entry (a b : ℕ) (n : ℤ) : ℂ :=
  if -16 ≤ n ∧ n ≤ 16 then ((row a b).map gz).getD (n + 16).toNat 0 else 0

theorem sum_table {a b : ℕ} (h : a + b ≤ 8) (x : ℂ) :
    ∑ i ∈ Finset.range 33, ((row a b).map gz).getD i 0 * Complex.exp (Complex.I * (((i : ℤ) - 16 : ℤ) * x)) =
      Complex.cos x ^ a * Complex.sin x ^ b := by
  have h1 := peval_row x a b h
  rw [peval_sum, row_length _ (mem_codes.2 h)] at h1
  have hne : Complex.exp (Complex.I * x) ≠ 0 := Complex.exp_ne_zero _
  apply mul_left_cancel₀ (pow_ne_zero 16 hne)
  rw [← h1, Finset.mul_sum]
  refine Finset.sum_congr rfl (fun i _ => ?_)
  rw [← Complex.exp_nat_mul, ← Complex.exp_nat_mul, mul_left_comm, ← Complex.exp_add]
  congr 2
  push_cast
  ring

end Lookup
end Shgpy
