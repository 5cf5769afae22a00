import Verif.Proofs.CText

/-!
# A printer that meets the assumptions: every expression in parentheses
-/

namespace Shgpy
open Spec

/-- `12.0`. -/
def floatText (n : ℕ) : List Char := natStr n ++ ['.', '0']

mutual
/-- An expression in C. -/
def printExpr : Expr → List Char
  | .num q => '(' :: (if q < 0 then ['-'] else []) ++ floatText q.num.natAbs ++ '/' :: floatText q.den ++ [')']
  | .I => ['(', 'I', ')']
  | .sym s => ['x', 's', '['] ++ natStr (s.tag - 2) ++ [']']
  | .add l => ['(', '0', '.', '0'] ++ printSum l ++ [')']
  | .mul l => ['(', '1', '.', '0'] ++ printProd l ++ [')']
  | .pow b n => ['p', 'o', 'w', '('] ++ printExpr b ++ [',', ' '] ++ floatText n ++ [')']
  | .cos e => ['c', 'o', 's', '('] ++ printExpr e ++ [')']
  | .sin e => ['s', 'i', 'n', '('] ++ printExpr e ++ [')']
/-- The terms of a sum. -/
def printSum : List Expr → List Char
  | [] => []
  | e :: l => '+' :: printExpr e ++ printSum l
/-- The factors of a product. -/
def printProd : List Expr → List Char
  | [] => []
  | e :: l => '*' :: printExpr e ++ printProd l
end

/-- A printer. -/
def plainPrinter : Printer := ⟨fun _ => chars "/* Code generated with SymPy */\n#include \"" ++ chars "x.h" ++ chars "\"\n#include <math.h>\n",
  printExpr⟩

mutual
/-- The tokens of a printed expression. -/
def exprTokens : Expr → List Token
  | .num q => .mark '(' :: (if q < 0 then [.mark '-'] else []) ++
      [.word (floatText q.num.natAbs), .mark '/', .word (floatText q.den), .mark ')']
  | .I => [.mark '(', .word ['I'], .mark ')']
  | .sym s => [.word ['x', 's'], .mark '[', .word (natStr (s.tag - 2)), .mark ']']
  | .add l => [.mark '(', .word ['0', '.', '0']] ++ sumTokens l ++ [.mark ')']
  | .mul l => [.mark '(', .word ['1', '.', '0']] ++ prodTokens l ++ [.mark ')']
  | .pow b n => [.word ['p', 'o', 'w'], .mark '('] ++ exprTokens b ++ [.mark ',', .word (floatText n), .mark ')']
  | .cos e => [.word ['c', 'o', 's'], .mark '('] ++ exprTokens e ++ [.mark ')']
  | .sin e => [.word ['s', 'i', 'n'], .mark '('] ++ exprTokens e ++ [.mark ')']
/-- The tokens of the terms. -/
def sumTokens : List Expr → List Token
  | [] => []
  | e :: l => .mark '+' :: exprTokens e ++ sumTokens l
/-- The tokens of the factors. -/
def prodTokens : List Expr → List Token
  | [] => []
  | e :: l => .mark '*' :: exprTokens e ++ prodTokens l
end

/-! ## Reading -/

theorem natStr_word (n : ℕ) : ∀ c ∈ natStr n, isWord c = true := fun c hc =>
  (by decide : ∀ c ∈ ['0', '1', '2', '3', '4', '5', '6', '7', '8', '9'], isWord c = true) c (natStr_digits c hc)

theorem natStr_ne (n : ℕ) : natStr n ≠ [] := by
  unfold natStr
  split
  · simp
  · rename_i h
    simp [Nat.digits_ne_nil_iff_ne_zero.2 h]

theorem floatText_word (n : ℕ) : ∀ c ∈ floatText n, isWord c = true := by
  intro c hc
  rcases List.mem_append.1 hc with hc | hc
  · exact natStr_word n c hc
  · exact (by decide : ∀ c ∈ ['.', '0'], isWord c = true) c hc

theorem floatText_ne (n : ℕ) : floatText n ≠ [] := by simp [floatText]

/-- A word and the mark after it. -/
theorem read_word_mark {w : List Char} (hw : ∀ c ∈ w, isWord c = true) (h0 : w ≠ []) {d : Char} (hd : isWord d = false)
    (hs : d.isWhitespace = false) (h1 : d ≠ '/') (h2 : d ≠ '#') (out : List Token) (t : List Char) :
    Reader.read ⟨.code, [], out⟩ (w ++ d :: t) = Reader.read ⟨.code, [], out ++ [.word w, .mark d]⟩ t := by
  rw [read_append, read_word hw, List.nil_append, read_cons]
  congr 1
  simp [Reader.step, Reader.code, hd, hs, h1, h2, Reader.flush, h0]

theorem read_mark {d : Char} (hd : isWord d = false) (hs : d.isWhitespace = false) (h1 : d ≠ '/') (h2 : d ≠ '#') (out : List Token)
    (t : List Char) : Reader.read ⟨.code, [], out⟩ (d :: t) = Reader.read ⟨.code, [], out ++ [.mark d]⟩ t := by
  rw [read_cons]
  congr 1
  simp [Reader.step, Reader.code, hd, hs, h1, h2, Reader.flush]

/-- A word, a slash and a character of a word. -/
theorem read_word_slash {w : List Char} (hw : ∀ c ∈ w, isWord c = true) (h0 : w ≠ []) {v : List Char} (hv : ∀ c ∈ v, isWord c = true)
    (h0' : v ≠ []) (out : List Token) (t : List Char) :
    Reader.read ⟨.code, [], out⟩ (w ++ '/' :: v ++ t) = Reader.read ⟨.code, [], out ++ [.word w, .mark '/']⟩ (v ++ t) := by
  obtain ⟨c, v, rfl⟩ := List.exists_cons_of_ne_nil h0'
  have hc := hv c List.mem_cons_self
  have hstar : c ≠ '*' := by rintro rfl; exact absurd hc (by decide)
  rw [List.append_assoc, List.cons_append, read_append, read_word hw, List.nil_append, read_cons]
  have : Reader.step ⟨.code, w, out⟩ '/' = ⟨.slash, [], out ++ [.word w]⟩ := by
    simp [Reader.step, Reader.code, isWord, Reader.flush, h0]
  rw [this, List.cons_append, read_cons, read_cons]
  congr 1
  simp [Reader.step, Reader.code, hc, hstar]

theorem read_print (e : Expr) : ∀ (out : List Token) (t : List Char),
    Reader.read ⟨.code, [], out⟩ (printExpr e ++ t) = Reader.read ⟨.code, [], out ++ exprTokens e⟩ t := by
  induction e using Expr.ind with
  | num q =>
    intro out t
    have hq : ∀ out : List Token, Reader.read ⟨.code, [], out⟩ (floatText q.num.natAbs ++ '/' :: floatText q.den ++ ([')'] ++ t)) =
        Reader.read ⟨.code, [], out ++ [.word (floatText q.num.natAbs), .mark '/', .word (floatText q.den), .mark ')']⟩ t := by
      intro out
      rw [read_word_slash (floatText_word _) (floatText_ne _) (floatText_word _) (floatText_ne _), List.singleton_append,
        read_word_mark (floatText_word _) (floatText_ne _) (by decide) (by decide) (by decide) (by decide)]
      simp
    by_cases h : q < 0
    · simp only [printExpr, h, if_true, List.append_assoc, List.cons_append, List.nil_append]
      rw [read_mark (by decide) (by decide) (by decide) (by decide), read_mark (by decide) (by decide) (by decide) (by decide)]
      have := hq (out ++ [.mark '('] ++ [.mark '-'])
      simp only [List.append_assoc, List.cons_append, List.nil_append] at this ⊢
      rw [this]
      simp [exprTokens, h]
    · simp only [printExpr, h, if_false, List.append_assoc, List.cons_append, List.nil_append]
      rw [read_mark (by decide) (by decide) (by decide) (by decide)]
      have := hq (out ++ [.mark '('])
      simp only [List.append_assoc, List.cons_append, List.nil_append] at this ⊢
      rw [this]
      simp [exprTokens, h]
  | hI => intro out t; simp [printExpr, exprTokens, Reader.read, Reader.step, Reader.code, Reader.flush, isWord]
  | sym s =>
    intro out t
    simp only [printExpr, List.append_assoc]
    rw [show ['x', 's', '['] ++ (natStr (s.tag - 2) ++ ([']'] ++ t)) = ['x', 's'] ++ '[' :: (natStr (s.tag - 2) ++ ']' :: t) by simp,
      read_word_mark (by decide) (by decide) (by decide) (by decide) (by decide) (by decide),
      read_word_mark (natStr_word _) (natStr_ne _) (by decide) (by decide) (by decide) (by decide)]
    simp [exprTokens]
  | add l ih =>
    intro out t
    have hl : ∀ (out : List Token) (t : List Char), Reader.read ⟨.code, [], out⟩ (printSum l ++ t) =
        Reader.read ⟨.code, [], out ++ sumTokens l⟩ t := by
      induction l with
      | nil => intro out t; simp [printSum, sumTokens]
      | cons e l ih' =>
        intro out t
        simp only [printSum, List.cons_append, List.append_assoc]
        rw [read_mark (by decide) (by decide) (by decide) (by decide), ih e List.mem_cons_self,
          ih' (fun e he => ih e (List.mem_cons_of_mem _ he))]
        simp [sumTokens]
    simp only [printExpr, List.append_assoc]
    obtain ⟨d, u, hu⟩ : ∃ d u, printSum l ++ ([')'] ++ t) = d :: u ∧ (d = '+' ∨ d = ')') := by
      cases l with
      | nil => exact ⟨')', t, rfl, .inr rfl⟩
      | cons e l => exact ⟨'+', _, rfl, .inl rfl⟩
    have h1 : Reader.read ⟨.code, [], out⟩ (['(', '0', '.', '0'] ++ (printSum l ++ ([')'] ++ t))) =
        Reader.read ⟨.code, [], out ++ [.mark '(', .word ['0', '.', '0']]⟩ (printSum l ++ ([')'] ++ t)) := by
      rw [hu.1]
      simp only [Reader.read, List.cons_append, List.nil_append, List.foldl_cons]
      congr 1
      rcases hu.2 with rfl | rfl <;> simp [Reader.step, Reader.code, Reader.flush, isWord]
    rw [h1, hl, List.singleton_append, read_mark (by decide) (by decide) (by decide) (by decide)]
    simp [exprTokens]
  | mul l ih =>
    intro out t
    have hl : ∀ (out : List Token) (t : List Char), Reader.read ⟨.code, [], out⟩ (printProd l ++ t) =
        Reader.read ⟨.code, [], out ++ prodTokens l⟩ t := by
      induction l with
      | nil => intro out t; simp [printProd, prodTokens]
      | cons e l ih' =>
        intro out t
        simp only [printProd, List.cons_append, List.append_assoc]
        rw [read_mark (by decide) (by decide) (by decide) (by decide), ih e List.mem_cons_self,
          ih' (fun e he => ih e (List.mem_cons_of_mem _ he))]
        simp [prodTokens]
    simp only [printExpr, List.append_assoc]
    obtain ⟨d, u, hu⟩ : ∃ d u, printProd l ++ ([')'] ++ t) = d :: u ∧ (d = '*' ∨ d = ')') := by
      cases l with
      | nil => exact ⟨')', t, rfl, .inr rfl⟩
      | cons e l => exact ⟨'*', _, rfl, .inl rfl⟩
    have h1 : Reader.read ⟨.code, [], out⟩ (['(', '1', '.', '0'] ++ (printProd l ++ ([')'] ++ t))) =
        Reader.read ⟨.code, [], out ++ [.mark '(', .word ['1', '.', '0']]⟩ (printProd l ++ ([')'] ++ t)) := by
      rw [hu.1]
      simp only [Reader.read, List.cons_append, List.nil_append, List.foldl_cons]
      congr 1
      rcases hu.2 with rfl | rfl <;> simp [Reader.step, Reader.code, Reader.flush, isWord]
    rw [h1, hl, List.singleton_append, read_mark (by decide) (by decide) (by decide) (by decide)]
    simp [exprTokens]
  | pow b n ih =>
    intro out t
    simp only [printExpr, List.append_assoc]
    rw [show ['p', 'o', 'w', '('] ++ (printExpr b ++ ([',', ' '] ++ (floatText n ++ ([')'] ++ t)))) =
        ['p', 'o', 'w'] ++ '(' :: (printExpr b ++ ([',', ' '] ++ (floatText n ++ ')' :: t))) by simp,
      read_word_mark (by decide) (by decide) (by decide) (by decide) (by decide) (by decide), ih]
    have : ∀ (out : List Token) (t : List Char), Reader.read ⟨.code, [], out⟩ ([',', ' '] ++ t) =
        Reader.read ⟨.code, [], out ++ [.mark ',']⟩ t := by
      intro out t
      simp [Reader.read, Reader.step, Reader.code, Reader.flush, isWord]
    rw [this, read_word_mark (floatText_word _) (floatText_ne _) (by decide) (by decide) (by decide) (by decide)]
    simp [exprTokens]
  | cos e ih =>
    intro out t
    simp only [printExpr, List.append_assoc]
    rw [show ['c', 'o', 's', '('] ++ (printExpr e ++ ([')'] ++ t)) = ['c', 'o', 's'] ++ '(' :: (printExpr e ++ (')' :: t)) by simp,
      read_word_mark (by decide) (by decide) (by decide) (by decide) (by decide) (by decide), ih,
      read_mark (by decide) (by decide) (by decide) (by decide)]
    simp [exprTokens]
  | sin e ih =>
    intro out t
    simp only [printExpr, List.append_assoc]
    rw [show ['s', 'i', 'n', '('] ++ (printExpr e ++ ([')'] ++ t)) = ['s', 'i', 'n'] ++ '(' :: (printExpr e ++ (')' :: t)) by simp,
      read_word_mark (by decide) (by decide) (by decide) (by decide) (by decide) (by decide), ih,
      read_mark (by decide) (by decide) (by decide) (by decide)]
    simp [exprTokens]

theorem tokens_print (e : Expr) : tokens (printExpr e) = exprTokens e := by
  have := read_print e [] []
  rw [List.append_nil] at this
  simp only [tokens]
  rw [this]
  simp [Reader.read, Reader.flush]

/-! ## Values -/

theorem digitsValue_natStr (n : ℕ) : digitsValue (natStr n) = some n := by
  unfold natStr
  split
  · rename_i h
    subst h
    decide
  · have hd : ∀ l : List ℕ, (∀ d ∈ l, d < 10) → (l.map Nat.digitChar).mapM digitValue = some l := by
      intro l
      induction l with
      | nil => intro _; rfl
      | cons d l ih =>
        intro h
        have h1 : digitValue (Nat.digitChar d) = some d :=
          (by decide : ∀ d < 10, digitValue (Nat.digitChar d) = some d) d (h d List.mem_cons_self)
        rw [List.map_cons, List.mapM_cons, h1, ih (fun d hd => h d (List.mem_cons_of_mem _ hd))]
        rfl
    rw [digitsValue, hd _ (fun d h => Nat.digits_lt_base (by norm_num) (List.mem_reverse.1 h))]
    simp [Nat.ofDigits_digits]

theorem numberValue_float (n : ℕ) : numberValue (floatText n) = some (n : ℚ) := by
  have h1 : (floatText n).takeWhile (· ≠ '.') = natStr n := by
    rw [floatText, List.takeWhile_append_of_pos]
    · simp
    · intro c hc
      have := natStr_digits c hc
      have hdec : ∀ c ∈ ['0', '1', '2', '3', '4', '5', '6', '7', '8', '9'], c ≠ '.' := by decide
      simpa using hdec c this
  have h2 : (floatText n).dropWhile (· ≠ '.') = ['.', '0'] := by
    have := List.takeWhile_append_dropWhile (p := (· ≠ '.')) (l := floatText n)
    rw [h1] at this
    exact List.append_cancel_left this
  unfold numberValue
  simp only [h1, h2, natStr_ne, if_false, digitsValue_natStr, Option.bind_some]
  have : digitsValue (List.drop 1 ['.', '0']) = some 0 := by decide
  rw [this]
  simp

section
variable {lib : Library} {x : List ℝ}

/-- A number in front of a mark. -/
theorem cFactor_number {w : List Char} {q : ℚ} (hw : numberValue w = some q) (hI : w ≠ chars "I") (k : ℕ) {c : Char} (t : List Token)
    (h1 : c ≠ '[') (h2 : c ≠ '(') : cFactor lib x (k + 1) (.word w :: .mark c :: t) = some ((q : ℂ), .mark c :: t) := by
  simp [cFactor, hw, hI, h1, h2]

theorem floatText_ne_I (n : ℕ) : floatText n ≠ chars "I" := by
  intro h
  have := congrArg List.getLast? h
  simp [floatText, chars] at this

theorem cEvalSum_cons (e : Expr) (l : List Expr) : cEvalSum x (e :: l) = cEval x e + cEvalSum x l := by rw [cEvalSum]

/-- After a factor comes something that does not continue the product. -/
theorem cProductRest_stop (k : ℕ) (z : ℂ) {c : Char} (t : List Token) (h1 : c ≠ '*') (h2 : c ≠ '/') :
    cProductRest lib x (k + 1) z (.mark c :: t) = some (z, .mark c :: t) := by
  simp [cProductRest, h1, h2]

theorem cSumRest_stop (k : ℕ) (z : ℂ) {c : Char} (t : List Token) (h1 : c ≠ '+') (h2 : c ≠ '-') :
    cSumRest lib x (k + 1) z (.mark c :: t) = some (z, .mark c :: t) := by
  simp [cSumRest, h1, h2]

/-- One factor in front of a mark that ends sums. -/
theorem cSum_single {k : ℕ} {ts : List Token} {z : ℂ} {c : Char} {t : List Token} (h : cFactor lib x (k + 1) ts = some (z, .mark c :: t))
    (h1 : c ≠ '+') (h2 : c ≠ '-') (h3 : c ≠ '*') (h4 : c ≠ '/') : cSum lib x (k + 3) ts = some (z, .mark c :: t) := by
  rw [cSum, cProduct, h]
  simp only
  rw [cProductRest_stop k z t h3 h4]
  simp only
  rw [cSumRest_stop (k + 1) z t h1 h2]

theorem cFactor_print (hlib : ∀ p ∈ lib, chars "expr" <+: p.1) (e : Expr) : (∀ s ∈ e.free, ∃ i, i < x.length ∧ s = xsElem i) →
    ∀ (k : ℕ) (rest : List Token), 4 * (exprTokens e).length ≤ k → cFactor lib x k (exprTokens e ++ rest) = some (cEval x e, rest) := by
  have hfind : ∀ w : Key, w.head? ≠ some 'e' → lib.find w = none := by
    intro w hw
    refine find_none (fun p hp he => hw ?_)
    obtain ⟨u, hu⟩ := hlib p hp
    rw [← he, ← hu]
    rfl
  induction e using Expr.ind with
  | num q =>
    intro _ k rest hk
    have hden : ((q.den : ℚ) : ℂ) ≠ 0 := by exact_mod_cast q.den_nz
    by_cases h : q < 0
    · simp only [exprTokens, h, if_true] at hk ⊢
      obtain ⟨k, rfl⟩ : ∃ j, k = j + 9 := ⟨k - 9, by simp at hk; omega⟩
      simp only [List.cons_append, List.nil_append]
      have hneg : cFactor lib x (k + 6) (.mark '-' :: .word (floatText q.num.natAbs) :: .mark '/' :: .word (floatText q.den) ::
          .mark ')' :: rest) = some (-((q.num.natAbs : ℚ) : ℂ), .mark '/' :: .word (floatText q.den) :: .mark ')' :: rest) := by
        rw [cFactor, cFactor_number (numberValue_float _) (floatText_ne_I _) _ _ (by decide) (by decide)]
        rfl
      rw [cFactor, cSum, cProduct, hneg]
      simp only
      rw [cProductRest, cFactor_number (numberValue_float _) (floatText_ne_I _) _ _ (by decide) (by decide)]
      simp only
      rw [cProductRest_stop _ _ _ (by decide) (by decide)]
      simp only
      rw [cSumRest_stop _ _ _ (by decide) (by decide)]
      simp only [cEval, Option.some.injEq, Prod.mk.injEq, and_true]
      have hq : (q : ℂ) = ((q.num : ℚ) : ℂ) / ((q.den : ℚ) : ℂ) := by
        rw [← Rat.cast_div]
        exact_mod_cast (Rat.num_div_den q).symm
      rw [hq]
      congr 1
      have hn : ((q.num.natAbs : ℕ) : ℤ) = -q.num := by
        have := Rat.num_neg.2 h
        omega
      have : ((q.num.natAbs : ℚ) : ℂ) = -((q.num : ℚ) : ℂ) := by
        have h2 : ((q.num.natAbs : ℕ) : ℚ) = -(q.num : ℚ) := by
          rw [← Int.cast_natCast, hn, Int.cast_neg]
        rw [h2]
        push_cast
        ring
      rw [this, neg_neg]
    · simp only [exprTokens, h, if_false] at hk ⊢
      obtain ⟨k, rfl⟩ : ∃ j, k = j + 9 := ⟨k - 9, by simp at hk; omega⟩
      simp only [List.cons_append, List.nil_append]
      rw [cFactor, cSum, cProduct, cFactor_number (numberValue_float _) (floatText_ne_I _) _ _ (by decide) (by decide)]
      simp only
      rw [cProductRest, cFactor_number (numberValue_float _) (floatText_ne_I _) _ _ (by decide) (by decide)]
      simp only
      rw [cProductRest_stop _ _ _ (by decide) (by decide)]
      simp only
      rw [cSumRest_stop _ _ _ (by decide) (by decide)]
      simp only [cEval, Option.some.injEq, Prod.mk.injEq, and_true]
      have hq : (q : ℂ) = ((q.num : ℚ) : ℂ) / ((q.den : ℚ) : ℂ) := by
        rw [← Rat.cast_div]
        exact_mod_cast (Rat.num_div_den q).symm
      rw [hq]
      congr 1
      have hn : ((q.num.natAbs : ℕ) : ℤ) = q.num := by
        have := Rat.num_nonneg.2 (not_lt.1 h)
        omega
      have h2 : ((q.num.natAbs : ℕ) : ℚ) = (q.num : ℚ) := by rw [← Int.cast_natCast, hn]
      rw [h2]
  | hI =>
    intro _ k rest hk
    simp only [exprTokens, List.length_cons, List.length_nil] at hk
    obtain ⟨k, rfl⟩ : ∃ j, k = j + 9 := ⟨k - 9, by omega⟩
    simp only [exprTokens, List.cons_append, List.nil_append]
    have h1 : cFactor lib x (k + 6) (.word ['I'] :: .mark ')' :: rest) = some (Complex.I, .mark ')' :: rest) := by
      simp [cFactor, chars]
    rw [cFactor, cSum_single (k := k + 5) h1 (by decide) (by decide) (by decide) (by decide)]
    rfl
  | sym s =>
    intro hf k rest hk
    simp only [exprTokens, List.length_cons, List.length_nil] at hk
    obtain ⟨k, rfl⟩ : ∃ j, k = j + 1 := ⟨k - 1, by omega⟩
    obtain ⟨i, hi, rfl⟩ := hf s (by simp [Expr.free])
    have htag : (xsElem i).tag - 2 = i := by simp [xsElem]
    simp only [exprTokens, List.cons_append, List.nil_append, htag]
    have hx : x[i]? = some x[i] := List.getElem?_eq_getElem hi
    simp only [cFactor, digitsValue_natStr]
    have : (['x', 's'] : List Char) = chars "xs" := rfl
    rw [if_pos this]
    simp only [Option.bind_some, hx, cEval]
    rw [xsVal_elem, List.getD_eq_getElem?_getD, hx]
    rfl
  | add l ih =>
    intro hf k rest hk
    have hl : ∀ (k : ℕ) (z : ℂ), 4 * (sumTokens l).length + 4 ≤ k → cSumRest lib x k z (sumTokens l ++ .mark ')' :: rest) =
        some (z + cEvalSum x l, .mark ')' :: rest) := by
      clear hk
      induction l with
      | nil =>
        intro k z hk
        obtain ⟨k, rfl⟩ : ∃ j, k = j + 1 := ⟨k - 1, by omega⟩
        simp only [sumTokens, List.nil_append, cEvalSum, add_zero]
        exact cSumRest_stop _ _ _ (by decide) (by decide)
      | cons e l ih' =>
        intro k z hk
        simp only [sumTokens, List.length_cons, List.length_append, List.cons_append, List.append_assoc] at hk ⊢
        obtain ⟨k, rfl⟩ : ∃ j, k = j + 3 := ⟨k - 3, by omega⟩
        have hfac := ih e List.mem_cons_self (fun s hs => hf s (by
          simp only [Expr.free, Expr.mem_freeL] at hs ⊢
          exact ⟨e, List.mem_cons_self, hs⟩)) (k + 1) (sumTokens l ++ .mark ')' :: rest) (by omega)
        have hstop : cProductRest lib x (k + 1) (cEval x e) (sumTokens l ++ .mark ')' :: rest) =
            some (cEval x e, sumTokens l ++ .mark ')' :: rest) := by
          cases l with
          | nil => exact cProductRest_stop _ _ _ (by decide) (by decide)
          | cons e' l => exact cProductRest_stop _ _ _ (by decide) (by decide)
        rw [cSumRest, cProduct, hfac]
        simp only
        rw [hstop]
        simp only
        rw [ih' (fun e he => ih e (List.mem_cons_of_mem _ he)) (fun s hs => hf s (by
          simp only [Expr.free, Expr.mem_freeL] at hs ⊢
          obtain ⟨e, he, hs⟩ := hs
          exact ⟨e, List.mem_cons_of_mem _ he, hs⟩)) _ _ (by omega), cEvalSum, add_assoc]
    simp only [exprTokens, List.length_cons, List.length_append, List.length_nil, List.cons_append, List.nil_append, List.append_assoc]
      at hk ⊢
    obtain ⟨k, rfl⟩ : ∃ j, k = j + 9 := ⟨k - 9, by omega⟩
    have hzero : cFactor lib x (k + 6) (.word ['0', '.', '0'] :: (sumTokens l ++ .mark ')' :: rest)) =
        some (((0 : ℚ) : ℂ), sumTokens l ++ .mark ')' :: rest) := by
      have hn : numberValue ['0', '.', '0'] = some 0 := by
        have := numberValue_float 0
        simpa [floatText, natStr] using this
      cases l with
      | nil => exact cFactor_number hn (by decide) _ _ (by decide) (by decide)
      | cons e l => exact cFactor_number hn (by decide) _ _ (by decide) (by decide)
    have hstop : cProductRest lib x (k + 6) ((0 : ℚ) : ℂ) (sumTokens l ++ .mark ')' :: rest) =
        some (((0 : ℚ) : ℂ), sumTokens l ++ .mark ')' :: rest) := by
      cases l with
      | nil => exact cProductRest_stop _ _ _ (by decide) (by decide)
      | cons e l => exact cProductRest_stop _ _ _ (by decide) (by decide)
    rw [cFactor, cSum, cProduct, hzero]
    simp only
    rw [hstop]
    simp only
    rw [hl _ _ (by omega)]
    simp [cEval]
  | mul l ih =>
    intro hf k rest hk
    have hl : ∀ (k : ℕ) (z : ℂ), 4 * (prodTokens l).length + 4 ≤ k → cProductRest lib x k z (prodTokens l ++ .mark ')' :: rest) =
        some (z * cEvalProd x l, .mark ')' :: rest) := by
      clear hk
      induction l with
      | nil =>
        intro k z hk
        obtain ⟨k, rfl⟩ : ∃ j, k = j + 1 := ⟨k - 1, by omega⟩
        simp only [prodTokens, List.nil_append, cEvalProd, mul_one]
        exact cProductRest_stop _ _ _ (by decide) (by decide)
      | cons e l ih' =>
        intro k z hk
        simp only [prodTokens, List.length_cons, List.length_append, List.cons_append, List.append_assoc] at hk ⊢
        obtain ⟨k, rfl⟩ : ∃ j, k = j + 3 := ⟨k - 3, by omega⟩
        have hfac := ih e List.mem_cons_self (fun s hs => hf s (by
          simp only [Expr.free, Expr.mem_freeL] at hs ⊢
          exact ⟨e, List.mem_cons_self, hs⟩)) (k + 2) (prodTokens l ++ .mark ')' :: rest) (by omega)
        rw [cProductRest, hfac]
        simp only
        rw [ih' (fun e he => ih e (List.mem_cons_of_mem _ he)) (fun s hs => hf s (by
          simp only [Expr.free, Expr.mem_freeL] at hs ⊢
          obtain ⟨e, he, hs⟩ := hs
          exact ⟨e, List.mem_cons_of_mem _ he, hs⟩)) _ _ (by omega), cEvalProd, mul_assoc]
    simp only [exprTokens, List.length_cons, List.length_append, List.length_nil, List.cons_append, List.nil_append, List.append_assoc]
      at hk ⊢
    obtain ⟨k, rfl⟩ : ∃ j, k = j + 9 := ⟨k - 9, by omega⟩
    have hone : cFactor lib x (k + 6) (.word ['1', '.', '0'] :: (prodTokens l ++ .mark ')' :: rest)) =
        some (((1 : ℚ) : ℂ), prodTokens l ++ .mark ')' :: rest) := by
      have hn : numberValue ['1', '.', '0'] = some 1 := by
        have := numberValue_float 1
        rw [show floatText 1 = ['1', '.', '0'] by simp [floatText, natStr]] at this
        simpa using this
      cases l with
      | nil => exact cFactor_number hn (by decide) _ _ (by decide) (by decide)
      | cons e l => exact cFactor_number hn (by decide) _ _ (by decide) (by decide)
    rw [cFactor, cSum, cProduct, hone]
    simp only
    rw [hl _ _ (by omega)]
    simp only
    rw [cSumRest_stop _ _ _ (by decide) (by decide)]
    simp [cEval]
  | pow b n ih =>
    intro hf k rest hk
    simp only [exprTokens, List.length_cons, List.length_append, List.length_nil, List.cons_append, List.nil_append, List.append_assoc]
      at hk ⊢
    obtain ⟨k, rfl⟩ : ∃ j, k = j + 9 := ⟨k - 9, by omega⟩
    have hb := cSum_single (k := k + 5) (ih hf (k + 6) (.mark ',' :: .word (floatText n) :: .mark ')' :: rest) (by omega))
      (by decide) (by decide) (by decide) (by decide)
    have hn := cSum_single (lib := lib) (x := x) (k := k + 5) (cFactor_number (lib := lib) (x := x) (numberValue_float n) (floatText_ne_I n)
      (k + 5) rest (c := ')') (by decide) (by decide)) (by decide) (by decide) (by decide) (by decide)
    simp only [cFactor, hfind ['p', 'o', 'w'] (by decide), hb, hn]
    have : (['p', 'o', 'w'] : List Char) = chars "pow" := rfl
    simp only [this, if_true, cEval]
    have h2 : (((n : ℚ) : ℂ)).re = ((n : ℕ) : ℝ) := by simp
    rw [h2, Real.rpow_natCast]
  | cos e ih =>
    intro hf k rest hk
    simp only [exprTokens, List.length_cons, List.length_append, List.length_nil, List.cons_append, List.nil_append, List.append_assoc]
      at hk ⊢
    obtain ⟨k, rfl⟩ : ∃ j, k = j + 9 := ⟨k - 9, by omega⟩
    have hb := cSum_single (k := k + 5) (ih hf (k + 6) (.mark ')' :: rest) (by omega)) (by decide) (by decide) (by decide) (by decide)
    simp only [cFactor, hfind ['c', 'o', 's'] (by decide), hb]
    simp [builtin, chars, cEval]
  | sin e ih =>
    intro hf k rest hk
    simp only [exprTokens, List.length_cons, List.length_append, List.length_nil, List.cons_append, List.nil_append, List.append_assoc]
      at hk ⊢
    obtain ⟨k, rfl⟩ : ∃ j, k = j + 9 := ⟨k - 9, by omega⟩
    have hb := cSum_single (k := k + 5) (ih hf (k + 6) (.mark ')' :: rest) (by omega)) (by decide) (by decide) (by decide) (by decide)
    simp only [cFactor, hfind ['s', 'i', 'n'] (by decide), hb]
    simp [builtin, chars, cEval]

end

/-! ## The assumptions -/

/-- The tokens of a printed expression: no semicolon, and no word with the letter `j`. -/
def PlainToken (t : Token) : Prop := t ≠ .mark ';' ∧ ∀ w, t = .word w → 'j' ∉ w

theorem plainToken_mark {c : Char} (h : c ≠ ';') : PlainToken (.mark c) := ⟨by simpa using h, by simp⟩

theorem plainToken_word {w : List Char} (h : 'j' ∉ w) : PlainToken (.word w) := ⟨by simp, by rintro _ ⟨⟩; exact h⟩

theorem natStr_plain (n : ℕ) : 'j' ∉ natStr n := fun h => absurd (natStr_digits _ h) (by decide)

theorem floatText_plain (n : ℕ) : 'j' ∉ floatText n := by
  intro h
  rcases List.mem_append.1 h with h | h
  · exact natStr_plain n h
  · exact absurd h (by decide)

theorem exprTokens_plain (e : Expr) : ∀ t ∈ exprTokens e, PlainToken t := by
  induction e using Expr.ind with
  | num q =>
    intro t ht
    simp only [exprTokens, List.mem_append, List.mem_cons, List.not_mem_nil, or_false] at ht
    rcases ht with (rfl | ht) | rfl | rfl | rfl | rfl
    · exact plainToken_mark (by decide)
    · split at ht
      · rw [List.mem_singleton.1 ht]
        exact plainToken_mark (by decide)
      · cases ht
    · exact plainToken_word (floatText_plain _)
    · exact plainToken_mark (by decide)
    · exact plainToken_word (floatText_plain _)
    · exact plainToken_mark (by decide)
  | hI =>
    intro t ht
    simp only [exprTokens, List.mem_cons, List.not_mem_nil, or_false] at ht
    rcases ht with rfl | rfl | rfl
    · exact plainToken_mark (by decide)
    · exact plainToken_word (by decide)
    · exact plainToken_mark (by decide)
  | sym s =>
    intro t ht
    simp only [exprTokens, List.mem_cons, List.not_mem_nil, or_false] at ht
    rcases ht with rfl | rfl | rfl | rfl
    · exact plainToken_word (by decide)
    · exact plainToken_mark (by decide)
    · exact plainToken_word (natStr_plain _)
    · exact plainToken_mark (by decide)
  | add l ih =>
    have hl : ∀ t ∈ sumTokens l, PlainToken t := by
      induction l with
      | nil => intro t ht; cases ht
      | cons e l ih' =>
        intro t ht
        simp only [sumTokens, List.cons_append, List.mem_cons, List.mem_append] at ht
        rcases ht with rfl | ht | ht
        · exact plainToken_mark (by decide)
        · exact ih e List.mem_cons_self t ht
        · exact ih' (fun e he => ih e (List.mem_cons_of_mem _ he)) t ht
    intro t ht
    simp only [exprTokens, List.mem_append, List.mem_cons, List.not_mem_nil, or_false] at ht
    rcases ht with ((rfl | rfl) | ht) | rfl
    · exact plainToken_mark (by decide)
    · exact plainToken_word (by decide)
    · exact hl t ht
    · exact plainToken_mark (by decide)
  | mul l ih =>
    have hl : ∀ t ∈ prodTokens l, PlainToken t := by
      induction l with
      | nil => intro t ht; cases ht
      | cons e l ih' =>
        intro t ht
        simp only [prodTokens, List.cons_append, List.mem_cons, List.mem_append] at ht
        rcases ht with rfl | ht | ht
        · exact plainToken_mark (by decide)
        · exact ih e List.mem_cons_self t ht
        · exact ih' (fun e he => ih e (List.mem_cons_of_mem _ he)) t ht
    intro t ht
    simp only [exprTokens, List.mem_append, List.mem_cons, List.not_mem_nil, or_false] at ht
    rcases ht with ((rfl | rfl) | ht) | rfl
    · exact plainToken_mark (by decide)
    · exact plainToken_word (by decide)
    · exact hl t ht
    · exact plainToken_mark (by decide)
  | pow b n ih =>
    intro t ht
    simp only [exprTokens, List.mem_append, List.mem_cons, List.not_mem_nil, or_false] at ht
    rcases ht with ((rfl | rfl) | ht) | rfl | rfl | rfl
    · exact plainToken_word (by decide)
    · exact plainToken_mark (by decide)
    · exact ih t ht
    · exact plainToken_mark (by decide)
    · exact plainToken_word (floatText_plain _)
    · exact plainToken_mark (by decide)
  | cos e ih =>
    intro t ht
    simp only [exprTokens, List.mem_append, List.mem_cons, List.not_mem_nil, or_false] at ht
    rcases ht with ((rfl | rfl) | ht) | rfl
    · exact plainToken_word (by decide)
    · exact plainToken_mark (by decide)
    · exact ih t ht
    · exact plainToken_mark (by decide)
  | sin e ih =>
    intro t ht
    simp only [exprTokens, List.mem_append, List.mem_cons, List.not_mem_nil, or_false] at ht
    rcases ht with ((rfl | rfl) | ht) | rfl
    · exact plainToken_word (by decide)
    · exact plainToken_mark (by decide)
    · exact ih t ht
    · exact plainToken_mark (by decide)

theorem cValue_print {lib : Library} {x : List ℝ} (hlib : ∀ p ∈ lib, chars "expr" <+: p.1) {e : Expr}
    (hf : ∀ s ∈ e.free, ∃ i, i < x.length ∧ s = xsElem i) : cValue lib x (exprTokens e) = some (cEval x e) := by
  have h := cFactor_print hlib e hf (4 * (exprTokens e).length + 2) [] (by omega)
  rw [List.append_nil] at h
  unfold cValue
  rw [cSum, cProduct, h]
  simp only [cProductRest, cSumRest]

theorem plainPrinter_prints : Prints plainPrinter where
  banner _ := by simp [plainPrinter, chars, Reader.read, Reader.step, Reader.code, Reader.flush, isWord]
  ends e := by
    have := read_print e [] []
    rw [List.append_nil] at this
    rw [show plainPrinter.text = printExpr from rfl, this]
    rfl
  single e h := by
    rw [show plainPrinter.text = printExpr from rfl, tokens_print] at h
    exact (exprTokens_plain e _ h).1 rfl
  names e w h hc := by
    rw [show plainPrinter.text = printExpr from rfl, tokens_print] at h
    exact absurd (hc.subset (by decide : 'j' ∈ chars "conjugate")) ((exprTokens_plain e _ h).2 w rfl)
  value e lib x hlib hf := by
    rw [show plainPrinter.text = printExpr from rfl, tokens_print]
    have : (exprTokens e).map renameToken = exprTokens e := by
      conv_rhs => rw [← List.map_id (exprTokens e)]
      refine List.map_congr_left (fun t ht => ?_)
      cases t with
      | mark c => rfl
      | word w =>
        have hw : w ≠ chars "conjugate" := by
          rintro rfl
          exact (exprTokens_plain e _ ht).2 _ rfl (by decide)
        simp [renameToken, hw]
    rw [this]
    exact cValue_print hlib hf

end Shgpy
