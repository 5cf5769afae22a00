import Verif.Spec.CText
import Verif.Proofs.FitModel

/-!
# Lemmas about the text of the C code
-/

namespace Shgpy
open Spec

/-! ## Reading -/

theorem read_append (s : Reader) (a b : List Char) : s.read (a ++ b) = (s.read a).read b := List.foldl_append

theorem read_cons (s : Reader) (c : Char) (t : List Char) : s.read (c :: t) = (s.step c).read t := rfl

theorem step_out (m : Mode) (w : List Char) (o₁ o₂ : List Token) (c : Char) :
    Reader.step ⟨m, w, o₁ ++ o₂⟩ c =
      ⟨(Reader.step ⟨m, w, o₂⟩ c).mode, (Reader.step ⟨m, w, o₂⟩ c).word, o₁ ++ (Reader.step ⟨m, w, o₂⟩ c).out⟩ := by
  cases m <;> simp only [Reader.step, Reader.code, Reader.flush] <;> split_ifs <;> simp_all

theorem read_out (t : List Char) : ∀ (m : Mode) (w : List Char) (o₁ o₂ : List Token), Reader.read ⟨m, w, o₁ ++ o₂⟩ t =
    ⟨(Reader.read ⟨m, w, o₂⟩ t).mode, (Reader.read ⟨m, w, o₂⟩ t).word, o₁ ++ (Reader.read ⟨m, w, o₂⟩ t).out⟩ := by
  induction t with
  | nil => intro m w o₁ o₂; rfl
  | cons c t ih =>
    intro m w o₁ o₂
    rw [read_cons, step_out, ih, read_cons]

theorem flush_out (m : Mode) (w : List Char) (o₁ o₂ : List Token) :
    (Reader.flush ⟨m, w, o₁ ++ o₂⟩).out = o₁ ++ (Reader.flush ⟨m, w, o₂⟩).out := by
  simp only [Reader.flush]
  split_ifs <;> simp

theorem read_word {name : List Char} (h : ∀ c ∈ name, isWord c = true) : ∀ (w : List Char) (out : List Token),
    Reader.read ⟨.code, w, out⟩ name = ⟨.code, w ++ name, out⟩ := by
  induction name with
  | nil => intro w out; simp [Reader.read]
  | cons c t ih =>
    intro w out
    rw [read_cons]
    have : Reader.step ⟨.code, w, out⟩ c = ⟨.code, w ++ [c], out⟩ := by
      simp [Reader.step, Reader.code, h c List.mem_cons_self]
    rw [this, ih (fun c hc => h c (List.mem_cons_of_mem _ hc))]
    simp

theorem mem_flush {s : Reader} {k : Token} (h : k ∈ s.out) : k ∈ s.flush.out := by
  simp only [Reader.flush]
  split_ifs
  · exact h
  · exact List.mem_append_left _ h

theorem mem_step {s : Reader} {k : Token} (h : k ∈ s.out) (c : Char) : k ∈ (s.step c).out := by
  obtain ⟨m, w, o⟩ := s
  cases m <;> simp only [Reader.step, Reader.code] <;> split_ifs <;>
    first
      | exact h
      | exact mem_flush h
      | exact List.mem_append_left _ (mem_flush h)
      | exact mem_flush (s := ⟨_, _, _⟩) (List.mem_append_left _ h)
      | exact List.mem_append_left _ (mem_flush (s := ⟨_, _, _⟩) (List.mem_append_left _ h))
      | exact List.mem_append_left _ h

theorem mem_read {t : List Char} : ∀ {s : Reader} {k : Token}, k ∈ s.out → k ∈ (s.read t).flush.out := by
  induction t with
  | nil => intro s k h; exact mem_flush h
  | cons c t ih => intro s k h; exact ih (mem_step h c)

/-- A word that has been begun becomes a token. -/
theorem word_grows (t : List Char) : ∀ (w : List Char) (out : List Token), w ≠ [] →
    ∃ u, .word (w ++ u) ∈ (Reader.read ⟨.code, w, out⟩ t).flush.out := by
  induction t with
  | nil =>
    intro w out hw
    exact ⟨[], by simp [Reader.read, Reader.flush, hw]⟩
  | cons c t ih =>
    intro w out hw
    by_cases hc : isWord c = true
    · obtain ⟨u, hu⟩ := ih (w ++ [c]) out (by simp)
      refine ⟨c :: u, ?_⟩
      rw [read_cons]
      simp only [Reader.step, Reader.code, hc, if_true]
      simpa using hu
    · refine ⟨[], ?_⟩
      rw [read_cons, List.append_nil]
      apply mem_read
      rw [Bool.not_eq_true] at hc
      simp only [Reader.step, Reader.code, hc, Reader.flush, hw, if_false, Bool.false_eq_true]
      split_ifs <;> simp

/-! ## Replacing the name of the conjugate -/

/-- The name that sympy writes. -/
abbrev cConjugate : List Char := chars "conjugate"
/-- The name in C. -/
abbrev cConj : List Char := chars "conj"

theorem replace_skip (old new : List Char) : ∀ (a t : List Char), replaceFrom old new a.length (a ++ t) = replaceFrom old new 0 t := by
  intro a t
  induction a with
  | nil => rfl
  | cons c a ih => simpa [replaceFrom] using ih

theorem replace_found (t : List Char) : replaceFrom cConjugate cConj 0 (cConjugate ++ t) = cConj ++ replaceFrom cConjugate cConj 0 t := by
  have h : cConjugate ++ t = 'c' :: (chars "onjugate" ++ t) := rfl
  rw [h, replaceFrom]
  have hp : cConjugate.isPrefixOf ('c' :: (chars "onjugate" ++ t)) = true := by
    rw [← h, List.isPrefixOf_iff_prefix]
    exact List.prefix_append _ _
  rw [if_pos hp]
  exact congrArg (cConj ++ ·) (replace_skip _ _ (chars "onjugate") t)

theorem replace_other {c : Char} {t : List Char} (h : ¬ cConjugate <+: c :: t) :
    replaceFrom cConjugate cConj 0 (c :: t) = c :: replaceFrom cConjugate cConj 0 t := by
  rw [replaceFrom, if_neg (by rwa [List.isPrefixOf_iff_prefix])]

/-- The words that contain the name are the name. -/
def NamesConjugate (l : List Token) : Prop := ∀ w, .word w ∈ l → cConjugate <:+: w → w = cConjugate

/-- The tokens so far, with the name in C. -/
def Spec.Reader.renamed (s : Reader) : Reader := ⟨s.mode, s.word, s.out.map renameToken⟩

theorem rename_word {w : List Char} (h : w ≠ cConjugate) : renameToken (.word w) = .word w := by
  simp [renameToken, h]

theorem flush_renamed {s : Reader} (h : s.word ≠ cConjugate) : s.renamed.flush = s.flush.renamed := by
  obtain ⟨m, w, o⟩ := s
  simp only at h
  by_cases hw : w = []
  · simp [Reader.renamed, Reader.flush, hw]
  · simp [Reader.renamed, Reader.flush, hw, rename_word h]

theorem step_renamed {s : Reader} (h : s.word ≠ cConjugate) (c : Char) : s.renamed.step c = (s.step c).renamed := by
  have hf := flush_renamed h
  obtain ⟨m, w, o⟩ := s
  cases m
  · simp only [Reader.step, Reader.renamed] at hf ⊢
    simp only [Reader.code]
    have : (Reader.flush ⟨.code, w, o.map renameToken⟩).out = (Reader.flush ⟨.code, w, o⟩).out.map renameToken := by rw [hf]
    split_ifs <;> simp [this, renameToken]
  · simp only [Reader.step, Reader.renamed, Reader.code, Reader.flush]
    split_ifs <;> simp_all [renameToken]
  · simp only [Reader.step, Reader.renamed]
    split_ifs <;> rfl
  · simp only [Reader.step, Reader.renamed]
    split_ifs <;> rfl
  · simp only [Reader.step, Reader.renamed]
    split_ifs <;> rfl

theorem tokens_replace_aux (n : ℕ) : ∀ (t : List Char), t.length ≤ n → ∀ s : Reader, (s.mode ≠ .code → s.word = []) →
    (s.word = [] ∨ ¬ cConjugate <+: s.word ++ t) → NamesConjugate (s.read t).flush.out →
    (s.renamed.read (replaceFrom cConjugate cConj 0 t)).flush.out = (s.read t).flush.out.map renameToken := by
  induction n with
  | zero =>
    intro t ht s h1 h2 h3
    obtain rfl := List.length_eq_zero_iff.1 (Nat.le_zero.1 ht)
    have hw : s.word ≠ cConjugate := by
      rcases h2 with h2 | h2
      · rw [h2]; decide
      · intro e
        rw [e] at h2
        exact h2 (List.prefix_append _ _)
    show s.renamed.flush.out = _
    rw [flush_renamed hw]
    rfl
  | succ n ih =>
    intro t ht s h1 h2 h3
    by_cases hp : cConjugate <+: t
    · obtain ⟨rest, rfl⟩ := hp
      rw [replace_found]
      have hlen : rest.length + 9 ≤ n + 1 := by
        have : cConjugate.length = 9 := rfl
        rw [List.length_append, this] at ht
        omega
      have hword : s.word = [] := by
        by_contra hne
        have hm : s.mode = .code := by
          by_contra hm
          exact hne (h1 hm)
        obtain ⟨m, w, o⟩ := s
        simp only at hm hne
        subst hm
        rw [read_append, read_word (by decide)] at h3
        obtain ⟨u, hu⟩ := word_grows rest (w ++ cConjugate) o (by simp [hne])
        have := h3 _ hu ⟨w, u, rfl⟩
        have hl := congrArg List.length this
        simp only [List.length_append] at hl
        have : 0 < w.length := List.length_pos_iff.2 hne
        omega
      -- after the name, in the code
      have hcode : ∀ o : List Token, NamesConjugate (Reader.read ⟨.code, cConjugate, o⟩ rest).flush.out →
          (Reader.read ⟨.code, cConj, o.map renameToken⟩ (replaceFrom cConjugate cConj 0 rest)).flush.out =
            (Reader.read ⟨.code, cConjugate, o⟩ rest).flush.out.map renameToken := by
        intro o h3
        have hren : renameToken (.word cConjugate) = .word cConj := by decide
        have hstep : ∀ (w : List Char) (o : List Token) (d : Char), w ≠ [] → isWord d = false →
            Reader.step ⟨.code, w, o⟩ d = Reader.step ⟨.code, [], o ++ [.word w]⟩ d := by
          intro w o d hw hd
          simp [Reader.step, Reader.code, hd, Reader.flush, hw]
        cases rest with
        | nil =>
          show (Reader.flush ⟨.code, cConj, o.map renameToken⟩).out = (Reader.flush ⟨.code, cConjugate, o⟩).out.map renameToken
          rw [show Reader.flush ⟨.code, cConj, o.map renameToken⟩ = ⟨.code, [], o.map renameToken ++ [.word cConj]⟩ from rfl,
            show Reader.flush ⟨.code, cConjugate, o⟩ = ⟨.code, [], o ++ [.word cConjugate]⟩ from rfl, List.map_append,
            List.map_singleton, hren]
        | cons d rest =>
          by_cases hd : isWord d = true
          · exfalso
            rw [read_cons] at h3
            simp only [Reader.step, Reader.code, hd, if_true] at h3
            obtain ⟨u, hu⟩ := word_grows rest (cConjugate ++ [d]) o (by simp)
            have := h3 _ hu ⟨[], d :: u, by simp⟩
            have hl := congrArg List.length this
            simp only [List.length_append, List.length_singleton] at hl
            omega
          · rw [Bool.not_eq_true] at hd
            have hnp : ¬ cConjugate <+: d :: rest := by
              rintro ⟨u, hu⟩
              have : 'c' = d := by
                have := congrArg List.head? hu
                simpa [chars] using this
              subst this
              exact absurd hd (by decide)
            have hih := ih (d :: rest) (by simp only [List.length_cons] at hlen ⊢; omega) ⟨.code, [], o ++ [.word cConjugate]⟩
              (fun _ => rfl) (.inl rfl)
            rw [read_cons, ← hstep cConjugate o d (by decide) hd, ← read_cons] at hih
            rw [← hih h3, replace_other hnp, read_cons, read_cons, hstep cConj _ d (by decide) hd]
            congr 3
            simp [Reader.renamed, hren]
      obtain ⟨m, w, o⟩ := s
      simp only at hword
      subst hword
      simp only [Reader.renamed]
      rw [read_append] at h3
      rw [read_append, read_append]
      cases m with
      | code =>
        have e1 : ∀ o : List Token, Reader.read ⟨.code, [], o⟩ cConjugate = ⟨.code, cConjugate, o⟩ := fun _ => rfl
        have e2 : ∀ o : List Token, Reader.read ⟨.code, [], o⟩ cConj = ⟨.code, cConj, o⟩ := fun _ => rfl
        rw [e1] at h3 ⊢
        rw [e2]
        exact hcode o h3
      | slash =>
        have e1 : ∀ o : List Token, Reader.read ⟨.slash, [], o⟩ cConjugate = ⟨.code, cConjugate, o ++ [.mark '/']⟩ := fun _ => rfl
        have e2 : ∀ o : List Token, Reader.read ⟨.slash, [], o⟩ cConj = ⟨.code, cConj, o ++ [.mark '/']⟩ := fun _ => rfl
        rw [e1] at h3 ⊢
        rw [e2, ← hcode _ h3]
        simp [renameToken]
      | comment =>
        have e1 : ∀ o : List Token, Reader.read ⟨.comment, [], o⟩ cConjugate = ⟨.comment, [], o⟩ := fun _ => rfl
        have e2 : ∀ o : List Token, Reader.read ⟨.comment, [], o⟩ cConj = ⟨.comment, [], o⟩ := fun _ => rfl
        rw [e1] at h3 ⊢
        rw [e2]
        exact ih rest (by omega) ⟨.comment, [], o⟩ (fun _ => rfl) (.inl rfl) h3
      | star =>
        have e1 : ∀ o : List Token, Reader.read ⟨.star, [], o⟩ cConjugate = ⟨.comment, [], o⟩ := fun _ => rfl
        have e2 : ∀ o : List Token, Reader.read ⟨.star, [], o⟩ cConj = ⟨.comment, [], o⟩ := fun _ => rfl
        rw [e1] at h3 ⊢
        rw [e2]
        exact ih rest (by omega) ⟨.comment, [], o⟩ (fun _ => rfl) (.inl rfl) h3
      | line =>
        have e1 : ∀ o : List Token, Reader.read ⟨.line, [], o⟩ cConjugate = ⟨.line, [], o⟩ := fun _ => rfl
        have e2 : ∀ o : List Token, Reader.read ⟨.line, [], o⟩ cConj = ⟨.line, [], o⟩ := fun _ => rfl
        rw [e1] at h3 ⊢
        rw [e2]
        exact ih rest (by omega) ⟨.line, [], o⟩ (fun _ => rfl) (.inl rfl) h3
    · have hw : s.word ≠ cConjugate := by
        rcases h2 with h2 | h2
        · rw [h2]; decide
        · intro e
          rw [e] at h2
          exact h2 (List.prefix_append _ _)
      cases t with
      | nil =>
        show s.renamed.flush.out = _
        rw [flush_renamed hw]
        rfl
      | cons c t =>
        rw [replace_other hp, read_cons, read_cons, step_renamed hw]
        rw [read_cons] at h3
        refine ih t (by simpa using ht) (s.step c) ?_ ?_ h3
        · obtain ⟨m, w, o⟩ := s
          cases m <;> simp only [Reader.step, Reader.code] at h1 ⊢ <;> split_ifs <;> simp_all
        · obtain ⟨m, w, o⟩ := s
          by_cases hcode : m = .code
          · subst hcode
            by_cases hc : isWord c = true
            · right
              simp only [Reader.step, Reader.code, hc, if_true, List.append_assoc, List.singleton_append]
              rcases h2 with h2 | h2
              · simp only at h2
                rw [h2]
                exact hp
              · exact h2
            · left
              simp only [Reader.step, Reader.code]
              split_ifs <;> rfl
          · have hw0 : w = [] := h1 hcode
            subst hw0
            cases m
            · contradiction
            · by_cases hc : isWord c = true
              · right
                have : c ≠ '*' := by rintro rfl; exact absurd hc (by decide)
                simp only [Reader.step, Reader.code, hc, if_true, this, if_false, List.nil_append, List.singleton_append]
                exact hp
              · left
                simp only [Reader.step, Reader.code]
                split_ifs <;> rfl
            all_goals
              left
              simp only [Reader.step]
              split_ifs <;> rfl

/-- Replacing the name in the text replaces it in the tokens. -/
theorem tokens_replace {t : List Char} (h : NamesConjugate (tokens t)) :
    tokens (replaceText cConjugate cConj t) = (tokens t).map renameToken :=
  tokens_replace_aux t.length t le_rfl ⟨.code, [], []⟩ (fun h => absurd rfl h) (.inl rfl) h

theorem replace_newline (t : List Char) : ∀ k ≤ t.length,
    replaceFrom cConjugate cConj k (t ++ ['\n']) = replaceFrom cConjugate cConj k t ++ ['\n'] := by
  induction t with
  | nil =>
    intro k hk
    obtain rfl := Nat.le_zero.1 hk
    rfl
  | cons c t ih =>
    intro k hk
    cases k with
    | succ k =>
      simp only [List.cons_append, replaceFrom]
      exact ih k (by simpa using hk)
    | zero =>
      have hiff : cConjugate <+: c :: (t ++ ['\n']) ↔ cConjugate <+: c :: t := by
        constructor
        · intro h
          rw [← List.cons_append, List.prefix_concat_iff] at h
          rcases h with h | h
          · have : '\n' ∈ cConjugate := by rw [h]; simp
            exact absurd this (by decide)
          · exact h
        · rintro ⟨u, hu⟩
          exact ⟨u ++ ['\n'], by rw [← List.append_assoc, hu]; rfl⟩
      by_cases h : cConjugate <+: c :: t
      · simp only [List.cons_append, replaceFrom]
        rw [if_pos (List.isPrefixOf_iff_prefix.2 (hiff.2 h)), if_pos (List.isPrefixOf_iff_prefix.2 h), ih _ ?_, List.append_assoc]
        have := h.length_le
        simpa using this
      · simp only [List.cons_append, replaceFrom]
        rw [if_neg (by rw [List.isPrefixOf_iff_prefix, hiff]; exact h), if_neg (by rw [List.isPrefixOf_iff_prefix]; exact h),
          ih 0 (Nat.zero_le _)]
        rfl

/-! ## The tokens of the functions -/

theorem read_body {t : List Char} (h : (Reader.read ⟨.code, [], []⟩ t).mode = .code) (out : List Token) (u : List Char) :
    Reader.read ⟨.code, [], out⟩ (t ++ ';' :: u) = Reader.read ⟨.code, [], out ++ tokens t ++ [.mark ';']⟩ u := by
  have h1 := read_out t .code [] out []
  rw [List.append_nil] at h1
  rw [read_append, h1, read_cons, h]
  congr 1
  show Reader.code _ ';' = _
  have hw : isWord ';' = false := by decide
  have hs : Char.isWhitespace ';' = false := by decide
  simp only [Reader.code, hw, hs, Bool.false_eq_true, if_false, show (';' : Char) ≠ '/' by decide, show (';' : Char) ≠ '#' by decide]
  rw [flush_out]
  simp only [tokens]
  have hr : ∀ r : Reader, r.mode = .code → Reader.flush ⟨.code, r.word, r.out⟩ = r.flush := by
    rintro ⟨m, w, o⟩ h
    simp only at h
    subst h
    rfl
  rw [hr _ h]

section
variable {name : List Char}

theorem read_double (out : List Token) : Reader.read ⟨.code, [], out⟩ (chars "double ") = ⟨.code, [], out ++ [.word (chars "double")]⟩ := rfl

theorem read_params (h : name ≠ []) (out : List Token) : Reader.read ⟨.code, name, out⟩ (chars "(double *xs) {\n\n   double ") =
    ⟨.code, [], out ++ [.word name, .mark '(', .word (chars "double"), .mark '*', .word (chars "xs"), .mark ')', .mark '{',
      .word (chars "double")]⟩ := by
  simp [chars, Reader.read, Reader.step, Reader.code, Reader.flush, isWord, h]

theorem read_no_params (h : name ≠ []) (out : List Token) : Reader.read ⟨.code, name, out⟩ (chars "() {\n\n   double ") =
    ⟨.code, [], out ++ [.word name, .mark '(', .mark ')', .mark '{', .word (chars "double")]⟩ := by
  simp [chars, Reader.read, Reader.step, Reader.code, Reader.flush, isWord, h]

theorem read_declared (out : List Token) : Reader.read ⟨.code, name, out⟩ (chars "_result;\n   ") =
    ⟨.code, [], out ++ [.word (name ++ chars "_result"), .mark ';']⟩ := by
  simp [chars, Reader.read, Reader.step, Reader.code, Reader.flush, isWord]

theorem read_assigned (out : List Token) : Reader.read ⟨.code, name, out⟩ (chars "_result = ") =
    ⟨.code, [], out ++ [.word (name ++ chars "_result"), .mark '=']⟩ := by
  simp [chars, Reader.read, Reader.step, Reader.code, Reader.flush, isWord]

theorem read_return (out : List Token) : Reader.read ⟨.code, [], out⟩ (chars "\n   return ") =
    ⟨.code, [], out ++ [.word (chars "return")]⟩ := rfl

theorem read_returned (out : List Token) : Reader.read ⟨.code, name, out⟩ (chars "_result;\n\n}\n") =
    ⟨.code, [], out ++ [.word (name ++ chars "_result"), .mark ';', .mark '}']⟩ := by
  simp [chars, Reader.read, Reader.step, Reader.code, Reader.flush, isWord]

theorem read_routine {P : Printer} (hP : Prints P) (hn : ∀ c ∈ name, isWord c = true) (h0 : name ≠ []) (param : Bool) (e : Expr)
    (out : List Token) : Reader.read ⟨.code, [], out⟩ (routineText P name param e) =
      ⟨.code, [], out ++ functionTokens name param (tokens (P.text e))⟩ := by
  have hs : chars ";\n   return " = ';' :: chars "\n   return " := rfl
  cases param
  · simp only [routineText, Bool.false_eq_true, if_false, List.append_assoc, functionTokens]
    rw [read_append, read_double, read_append, read_word hn, read_append, List.nil_append, read_no_params h0, read_append, read_word hn,
      read_append, List.nil_append, read_declared, read_append, read_word hn, read_append, List.nil_append, read_assigned, hs,
      List.cons_append, read_body (hP.ends e), read_append, read_return, read_append, read_word hn, List.nil_append, read_returned]
    simp
  · simp only [routineText, if_true, List.append_assoc, functionTokens]
    rw [read_append, read_double, read_append, read_word hn, read_append, List.nil_append, read_params h0, read_append, read_word hn,
      read_append, List.nil_append, read_declared, read_append, read_word hn, read_append, List.nil_append, read_assigned, hs,
      List.cons_append, read_body (hP.ends e), read_append, read_return, read_append, read_word hn, List.nil_append, read_returned]
    simp

end

theorem exprName_word (i : ℕ) : ∀ c ∈ exprName i, isWord c = true := by
  intro c hc
  rcases List.mem_append.1 hc with hc | hc
  · exact (by decide : ∀ c ∈ chars "expr", isWord c = true) c hc
  · exact (by decide : ∀ c ∈ ['0', '1', '2', '3', '4', '5', '6', '7', '8', '9'], isWord c = true) c (natStr_digits c hc)

theorem exprName_ne (i : ℕ) : exprName i ≠ [] := by
  intro h
  have := congrArg List.length h
  simp [exprName, chars] at this

theorem exprName_no_j (i : ℕ) : 'j' ∉ exprName i := by
  intro hc
  rcases List.mem_append.1 hc with hc | hc
  · revert hc
    decide
  · have := natStr_digits _ hc
    revert this
    decide

theorem exprName_inj {i j : ℕ} (h : exprName i = exprName j) : i = j := natStr_inj (List.append_cancel_left h)

/-- The tokens of a call. -/
def callTokens (name : Key) : List Token := [.word name, .mark '(', .word (chars "xs"), .mark ')']

/-- The tokens of a sum of calls. -/
def callsTokens : List Key → List Token
  | [] => []
  | a :: r => callTokens a ++ r.flatMap (fun b => .mark '+' :: callTokens b)

theorem read_call (i : ℕ) (out : List Token) : Reader.read ⟨.code, [], out⟩ (exprName i ++ chars "(xs)") =
    ⟨.code, [], out ++ callTokens (exprName i)⟩ := by
  rw [read_append, read_word (exprName_word i), List.nil_append]
  generalize h : exprName i = name
  have h0 : name ≠ [] := h ▸ exprName_ne i
  simp [chars, Reader.read, Reader.step, Reader.code, Reader.flush, isWord, h0, callTokens]

theorem read_calls (l : List ℕ) : ∀ out : List Token, Reader.read ⟨.code, [], out⟩ (joinPlus (l.map (fun i => exprName i ++ chars "(xs)"))) =
    ⟨.code, [], out ++ callsTokens (l.map exprName)⟩ := by
  induction l with
  | nil => intro out; simp [joinPlus, callsTokens, Reader.read]
  | cons i l ih =>
    intro out
    cases l with
    | nil => simpa [joinPlus, callsTokens] using read_call i out
    | cons j l =>
      simp only [List.map_cons] at ih ⊢
      rw [joinPlus, read_append, read_call, read_cons]
      have : Reader.step ⟨.code, [], out ++ callTokens (exprName i)⟩ '+' = ⟨.code, [], out ++ callTokens (exprName i) ++ [.mark '+']⟩ := rfl
      rw [this, ih]
      simp [callsTokens]

theorem read_autofunc_head (out : List Token) :
    Reader.read ⟨.code, [], out⟩ (chars "\ndouble autofunc(double *xs){\n\n    double autofunc_result;\n    autofunc_result = ") =
      ⟨.code, [], out ++ [.word (chars "double"), .word (chars "autofunc"), .mark '(', .word (chars "double"), .mark '*', .word (chars "xs"),
        .mark ')', .mark '{', .word (chars "double"), .word (chars "autofunc_result"), .mark ';', .word (chars "autofunc_result"),
        .mark '=']⟩ := by
  simp [chars, Reader.read, Reader.step, Reader.code, Reader.flush, isWord]

theorem read_autofunc_tail (out : List Token) :
    Reader.read ⟨.code, [], out⟩ (chars ";\n    return autofunc_result;\n\n}\n") =
      ⟨.code, [], out ++ [.mark ';', .word (chars "return"), .word (chars "autofunc_result"), .mark ';', .mark '}']⟩ := by
  simp [chars, Reader.read, Reader.step, Reader.code, Reader.flush, isWord]

/-- The tokens of the functions `expr<i>`, `expr<i+1>`, ... -/
def chunkTokens (P : Printer) : ℕ → List Expr → List Token
  | _, [] => []
  | i, e :: l => functionTokens (exprName i) true (tokens (P.text e)) ++ chunkTokens P (i + 1) l

theorem read_chunks {P : Printer} (hP : Prints P) (l : List Expr) : ∀ (i : ℕ) (out : List Token),
    Reader.read ⟨.code, [], out⟩ ((l.zipIdx i).map (fun p => routineText P (exprName p.2) true p.1)).flatten =
      ⟨.code, [], out ++ chunkTokens P i l⟩ := by
  induction l with
  | nil => intro i out; simp [chunkTokens, Reader.read]
  | cons e l ih =>
    intro i out
    rw [List.zipIdx_cons, List.map_cons, List.flatten_cons, read_append, read_routine hP (exprName_word i) (exprName_ne i), ih]
    simp [chunkTokens]

theorem read_include (out : List Token) : Reader.read ⟨.code, [], out⟩ (chars "#include <complex.h>\n") = ⟨.code, [], out⟩ := by
  simp [chars, Reader.read, Reader.step, Reader.code, Reader.flush, isWord]

theorem tokens_of_read {t : List Char} {out : List Token} (h : Reader.read ⟨.code, [], []⟩ t = ⟨.code, [], out⟩) :
    tokens (t ++ ['\n']) = out := by
  simp only [tokens]
  rw [read_append, h]
  rfl

/-! ## The tokens of the files -/

theorem names_function {name : Key} {param : Bool} {body : List Token} (hn : 'j' ∉ name) (hb : NamesConjugate body) :
    NamesConjugate (functionTokens name param body) := by
  intro w hw hinf
  have hj : 'j' ∈ w := hinf.subset (by decide)
  have hr : 'j' ∉ name ++ chars "_result" := by
    rw [List.mem_append]
    rintro (h | h)
    · exact hn h
    · revert h; decide
  simp only [functionTokens, List.mem_append, List.mem_cons, Token.word.injEq, reduceCtorEq, List.not_mem_nil, or_false, false_or] at hw
  rcases hw with (((h | h) | h) | h) | h
  · rcases h with rfl | rfl
    · exact absurd hj (by decide)
    · exact absurd hj hn
  · cases param
    · simp at h
    · simp only [if_true, List.mem_cons, Token.word.injEq, reduceCtorEq, List.not_mem_nil, or_false, false_or] at h
      rcases h with rfl | rfl <;> exact absurd hj (by decide)
  · rcases h with rfl | rfl | rfl
    · exact absurd hj (by decide)
    · exact absurd hj hr
    · exact absurd hj hr
  · exact hb w h hinf
  · rcases h with rfl | rfl
    · exact absurd hj (by decide)
    · exact absurd hj hr

theorem names_append {a b : List Token} (ha : NamesConjugate a) (hb : NamesConjugate b) : NamesConjugate (a ++ b) := by
  intro w hw hi
  rcases List.mem_append.1 hw with h | h
  · exact ha w h hi
  · exact hb w h hi

theorem names_calls (l : List ℕ) : NamesConjugate (callsTokens (l.map exprName)) := by
  have hcall : ∀ i, NamesConjugate (callTokens (exprName i)) := by
    intro i w hw hinf
    have hj : 'j' ∈ w := hinf.subset (by decide)
    simp only [callTokens, List.mem_cons, Token.word.injEq, reduceCtorEq, List.not_mem_nil, or_false, false_or] at hw
    rcases hw with rfl | rfl
    · exact absurd hj (exprName_no_j i)
    · exact absurd hj (by decide)
  cases l with
  | nil => intro w hw; simp [callsTokens] at hw
  | cons i l =>
    refine names_append (hcall i) ?_
    intro w hw hinf
    obtain ⟨b, hb, hw⟩ := List.mem_flatMap.1 hw
    obtain ⟨j, _, rfl⟩ := List.mem_map.1 hb
    rw [List.mem_cons] at hw
    rcases hw with hw | hw
    · simp at hw
    · exact hcall j w hw hinf

theorem rename_function {name : Key} {param : Bool} {body : List Token} (hn : 'j' ∉ name) :
    (functionTokens name param body).map renameToken = functionTokens name param (body.map renameToken) := by
  have h1 : name ≠ cConjugate := by rintro rfl; exact hn (by decide)
  have h2 : name ++ chars "_result" ≠ cConjugate := by
    intro h
    have : 'j' ∈ name ++ chars "_result" := by rw [h]; decide
    rw [List.mem_append] at this
    rcases this with h | h
    · exact hn h
    · revert h; decide
  have e1 : renameToken (.word (chars "double")) = .word (chars "double") := by decide
  have e2 : renameToken (.word (chars "xs")) = .word (chars "xs") := by decide
  have e3 : renameToken (.word (chars "return")) = .word (chars "return") := by decide
  have e4 : ∀ c, renameToken (.mark c) = .mark c := fun _ => rfl
  cases param <;>
    simp only [functionTokens, List.map_append, List.map_cons, List.map_nil, e1, e2, e3, e4, rename_word h1, rename_word h2, if_true,
      Bool.false_eq_true, if_false]

theorem rename_calls (l : List ℕ) : (callsTokens (l.map exprName)).map renameToken = callsTokens (l.map exprName) := by
  rw [List.map_congr_left (g := id) (fun k hk => ?_), List.map_id]
  cases k with
  | mark c => rfl
  | word w =>
    refine rename_word ?_
    rintro rfl
    have hmem : ∀ i, Token.word cConjugate ∉ callTokens (exprName i) := by
      intro i h
      simp only [callTokens, List.mem_cons, Token.word.injEq, reduceCtorEq, List.not_mem_nil, or_false, false_or] at h
      rcases h with h | h
      · exact exprName_no_j i (h ▸ by decide)
      · revert h; decide
    cases l with
    | nil => simp [callsTokens] at hk
    | cons i l =>
      simp only [List.map_cons, callsTokens, List.mem_append, List.mem_flatMap, List.mem_map, List.mem_cons] at hk
      rcases hk with h | ⟨_, ⟨j, _, rfl⟩, h | h⟩
      · exact hmem i h
      · simp at h
      · exact hmem j h

theorem names_chunks {P : Printer} (hP : Prints P) (l : List Expr) : ∀ i, NamesConjugate (chunkTokens P i l) := by
  induction l with
  | nil => intro i w hw; simp [chunkTokens] at hw
  | cons e l ih => exact fun i => names_append (names_function (exprName_no_j i) (hP.names e)) (ih (i + 1))

/-- The same tokens, with the name in C. -/
def chunkTokens' (P : Printer) : ℕ → List Expr → List Token
  | _, [] => []
  | i, e :: l => functionTokens (exprName i) true ((tokens (P.text e)).map renameToken) ++ chunkTokens' P (i + 1) l

theorem rename_chunks (P : Printer) (l : List Expr) : ∀ i, (chunkTokens P i l).map renameToken = chunkTokens' P i l := by
  induction l with
  | nil => intro i; rfl
  | cons e l ih =>
    intro i
    rw [chunkTokens, List.map_append, rename_function (exprName_no_j i), ih]
    rfl

theorem tokens_replaced {t : List Char} {out : List Token} (h : Reader.read ⟨.code, [], []⟩ t = ⟨.code, [], out⟩)
    (hn : NamesConjugate out) : tokens (replaceText cConjugate cConj t ++ ['\n']) = out.map renameToken := by
  have h1 := tokens_of_read h
  rw [show replaceText cConjugate cConj t ++ ['\n'] = replaceText cConjugate cConj (t ++ ['\n']) from
    (replace_newline t 0 (Nat.zero_le _)).symm, tokens_replace (by rw [h1]; exact hn), h1]

theorem chunked_tokens {P : Printer} (hP : Prints P) (pre : Key) (l : List Expr) :
    tokens (chunkedFile P pre l) = chunkTokens' P 0 l ++ functionTokens (chars "autofunc") true
      (callsTokens ((List.range l.length).map exprName)) := by
  have h : Reader.read ⟨.code, [], []⟩ (chars "#include <complex.h>\n" ++ (P.banner pre ++ chunkRoutines P l) ++
      (chars "\ndouble autofunc(double *xs){\n\n    double autofunc_result;\n    autofunc_result = " ++
        joinPlus ((List.range l.length).map (fun i => exprName i ++ chars "(xs)")) ++
        chars ";\n    return autofunc_result;\n\n}\n")) = ⟨.code, [], chunkTokens P 0 l ++ functionTokens (chars "autofunc") true
      (callsTokens ((List.range l.length).map exprName))⟩ := by
    simp only [List.append_assoc]
    rw [read_append, read_include, read_append, hP.banner, read_append]
    rw [show chunkRoutines P l = ((l.zipIdx 0).map (fun p => routineText P (exprName p.2) true p.1)).flatten from rfl, read_chunks hP,
      read_append, read_autofunc_head, read_append, read_calls, read_autofunc_tail]
    simp only [functionTokens, if_true]
    congr 1
    simp
    rfl
  have hn : NamesConjugate (chunkTokens P 0 l ++ functionTokens (chars "autofunc") true (callsTokens ((List.range l.length).map exprName))) :=
    names_append (names_chunks hP l 0) (names_function (by decide) (names_calls _))
  have := tokens_replaced h hn
  rw [List.map_append, rename_chunks, rename_function (by decide), rename_calls] at this
  exact this

theorem autowrap_tokens {P : Printer} (hP : Prints P) (pre : Key) (e : Expr) :
    tokens (autowrapFile P pre e) = functionTokens (chars "autofunc") (!e.free.isEmpty) ((tokens (P.text e)).map renameToken) := by
  have h : Reader.read ⟨.code, [], []⟩ (chars "#include <complex.h>\n" ++
      (P.banner pre ++ routineText P (chars "autofunc") (!e.free.isEmpty) e)) =
        ⟨.code, [], functionTokens (chars "autofunc") (!e.free.isEmpty) (tokens (P.text e))⟩ := by
    rw [read_append, read_include, read_append, hP.banner, read_routine hP (by decide) (by decide), List.nil_append]
  have := tokens_replaced h (names_function (by decide) (hP.names e))
  rw [rename_function (by decide)] at this
  exact this

/-! ## The values of the functions -/

section
variable {lib : Library} {x : List ℝ}

theorem cFactor_call {name : Key} {f : List ℝ → ℝ} (h : lib.find name = some f) (k : ℕ) (t : List Token) :
    cFactor lib x (k + 1) (callTokens name ++ t) = some ((f x : ℂ), t) := by
  simp [callTokens, cFactor, h]

theorem cProduct_call {name : Key} {f : List ℝ → ℝ} (h : lib.find name = some f) (k : ℕ) {t : List Token}
    (ht : t = [] ∨ ∃ u, t = .mark '+' :: u) : cProduct lib x (k + 2) (callTokens name ++ t) = some ((f x : ℂ), t) := by
  rw [cProduct, cFactor_call h]
  rcases ht with rfl | ⟨u, rfl⟩ <;> simp [cProductRest]

theorem cSumRest_calls {L : List (Key × (List ℝ → ℝ))} (h : ∀ p ∈ L, lib.find p.1 = some p.2) : ∀ (k : ℕ) (z : ℂ), L.length + 3 ≤ k →
    cSumRest lib x k z ((L.map Prod.fst).flatMap (fun b => .mark '+' :: callTokens b)) =
      some (z + (((L.map (fun p => p.2 x)).sum : ℝ) : ℂ), []) := by
  induction L with
  | nil =>
    intro k z hk
    obtain ⟨k, rfl⟩ : ∃ j, k = j + 1 := ⟨k - 1, by simp at hk; omega⟩
    simp [cSumRest]
  | cons p L ih =>
    intro k z hk
    obtain ⟨k, rfl⟩ : ∃ j, k = j + 3 := ⟨k - 3, by simp at hk; omega⟩
    simp only [List.map_cons, List.flatMap_cons, List.cons_append]
    rw [cSumRest, cProduct_call (h p List.mem_cons_self)]
    · simp only
      rw [ih (fun q hq => h q (List.mem_cons_of_mem _ hq)) _ _ (by simp at hk ⊢; omega)]
      simp [add_assoc]
    · cases L with
      | nil => exact .inl rfl
      | cons q L => exact .inr ⟨_, rfl⟩

theorem cValue_calls {L : List (Key × (List ℝ → ℝ))} (hL : L ≠ []) (h : ∀ p ∈ L, lib.find p.1 = some p.2) :
    cValue lib x (callsTokens (L.map Prod.fst)) = some (((L.map (fun p => p.2 x)).sum : ℝ) : ℂ) := by
  cases L with
  | nil => exact absurd rfl hL
  | cons p L =>
    have hlen : L.length ≤ ((L.map Prod.fst).flatMap (fun b => Token.mark '+' :: callTokens b)).length := by
      clear h hL
      induction L with
      | nil => simp
      | cons q L ih =>
        simp only [List.map_cons, List.flatMap_cons, List.length_append, List.length_cons]
        omega
    simp only [cValue, List.map_cons, callsTokens]
    obtain ⟨k, hk⟩ : ∃ k, 4 * (callTokens p.1 ++ (L.map Prod.fst).flatMap (fun b => Token.mark '+' :: callTokens b)).length + 4 = k + 3 ∧
        L.length + 3 ≤ k + 2 := ⟨_, rfl, by rw [List.length_append]; omega⟩
    rw [hk.1, cSum, cProduct_call (h p List.mem_cons_self)]
    · simp only
      rw [cSumRest_calls (fun q hq => h q (List.mem_cons_of_mem _ hq)) _ _ hk.2]
      simp
    · cases L with
      | nil => exact .inl rfl
      | cons q L => exact .inr ⟨_, rfl⟩

theorem cValue_nil : cValue lib x [] = none := by
  simp [cValue, cSum, cProduct, cFactor]

end

theorem find_none {lib : Library} {name : Key} (h : ∀ p ∈ lib, p.1 ≠ name) : lib.find name = none := by
  simp only [Library.find, Option.map_eq_none_iff, List.find?_eq_none, decide_eq_true_eq]
  exact h

theorem find_self {lib : Library} (h : (lib.map Prod.fst).Nodup) {p : Key × (List ℝ → ℝ)} (hp : p ∈ lib) : lib.find p.1 = some p.2 := by
  induction lib with
  | nil => simp at hp
  | cons q lib ih =>
    rw [List.map_cons, List.nodup_cons] at h
    rw [List.mem_cons] at hp
    by_cases e : q.1 = p.1
    · rcases hp with rfl | hp
      · simp [Library.find]
      · exact absurd (List.mem_map.2 ⟨p, hp, e.symm⟩) h.1
    · rcases hp with rfl | hp
      · exact absurd rfl e
      · simpa [Library.find, e] using ih h.2 hp

theorem find_append_last {lib : Library} {name : Key} {f : List ℝ → ℝ} (h : ∀ p ∈ lib, p.1 ≠ name) :
    (lib ++ [(name, f)] : Library).find name = some f := by
  have : List.find? (fun p : Key × (List ℝ → ℝ) => decide (p.1 = name)) lib = none := by
    simp only [List.find?_eq_none, decide_eq_true_eq]
    exact h
  simp [Library.find, List.find?_append, this]

/-! ## The functions of the files -/

theorem mark_renamed {l : List Token} {c : Char} (h : .mark c ∉ l) : .mark c ∉ l.map renameToken := by
  intro hm
  obtain ⟨k, hk, he⟩ := List.mem_map.1 hm
  cases k with
  | mark d =>
    simp only [renameToken, Token.mark.injEq] at he
    exact h (he ▸ hk)
  | word w => simp [renameToken] at he

theorem split_at_mark {k : Token} {a a' b b' : List Token} (ha : k ∉ a) (ha' : k ∉ a') (h : a ++ k :: b = a' ++ k :: b') :
    a = a' ∧ b = b' := by
  induction a generalizing a' with
  | nil =>
    cases a' with
    | nil => simpa using h
    | cons c a' =>
      simp only [List.nil_append, List.cons_append, List.cons.injEq] at h
      exact absurd (h.1 ▸ List.mem_cons_self) ha'
  | cons c a ih =>
    cases a' with
    | nil =>
      simp only [List.nil_append, List.cons_append, List.cons.injEq] at h
      exact absurd (h.1 ▸ List.mem_cons_self) ha
    | cons c' a' =>
      simp only [List.cons_append, List.cons.injEq] at h
      obtain ⟨rfl, h⟩ := h
      obtain ⟨rfl, rfl⟩ := ih (fun hm => ha (List.mem_cons_of_mem _ hm)) (fun hm => ha' (List.mem_cons_of_mem _ hm)) h
      exact ⟨rfl, rfl⟩

theorem function_inj {name name' : Key} {param param' : Bool} {body body' t t' : List Token} (hb : .mark ';' ∉ body)
    (hb' : .mark ';' ∉ body') (h : functionTokens name param body ++ t = functionTokens name' param' body' ++ t') :
    name = name' ∧ param = param' ∧ body = body' ∧ t = t' := by
  cases param <;> cases param' <;>
    simp only [functionTokens, if_true, Bool.false_eq_true, if_false, List.append_assoc, List.cons_append, List.nil_append,
      List.cons.injEq, Token.word.injEq, true_and, reduceCtorEq, false_and, and_false] at h
  · obtain ⟨rfl, h⟩ := h
    obtain ⟨rfl, k⟩ := split_at_mark hb hb' h.2.2
    simp only [List.cons.injEq, true_and] at k
    exact ⟨rfl, rfl, rfl, k⟩
  · obtain ⟨rfl, h⟩ := h
    obtain ⟨rfl, k⟩ := split_at_mark hb hb' h.2.2
    simp only [List.cons.injEq, true_and] at k
    exact ⟨rfl, rfl, rfl, k⟩

theorem defines_cons_iff {n : ℕ} {lib lib' : Library} {name : Key} {param : Bool} {body t : List Token} (hb : .mark ';' ∉ body) :
    Defines n lib (functionTokens name param body ++ t) lib' ↔ lib.find name = none ∧ (∀ x, x.length = n → (cValue lib x body).isSome) ∧
      Defines n (lib ++ [(name, bodyFunction n lib body)]) t lib' := by
  constructor
  · intro h
    generalize e : functionTokens name param body ++ t = ts at h
    cases h with
    | nil => simp [functionTokens] at e
    | cons h1 h2 h3 h4 =>
      obtain ⟨rfl, rfl, rfl, rfl⟩ := function_inj hb h1 e
      exact ⟨h2, h3, h4⟩
  · rintro ⟨h1, h2, h3⟩
    exact .cons hb h1 h2 h3

theorem defines_nil_iff {n : ℕ} {lib lib' : Library} : Defines n lib [] lib' ↔ lib' = lib := by
  constructor
  · intro h
    generalize e : ([] : List Token) = ts at h
    cases h with
    | nil => rfl
    | cons h1 h2 h3 h4 => simp [functionTokens] at e
  · rintro rfl
    exact .nil

/-- A file defines its functions in one way. -/
theorem defines_unique {n : ℕ} {lib : Library} {t : List Token} {l₁ l₂ : Library} (h₁ : Defines n lib t l₁) (h₂ : Defines n lib t l₂) :
    l₁ = l₂ := by
  induction h₁ with
  | nil => exact (defines_nil_iff.1 h₂).symm
  | cons hb _ _ _ ih => exact ih ((defines_cons_iff hb).1 h₂).2.2

theorem defines_chunks {P : Printer} (hP : Prints P) {n : ℕ} {l : List Expr} :
    (∀ e ∈ l, ∀ s ∈ e.free, ∃ i, i < n ∧ s = xsElem i) → ∀ (i : ℕ) (lib : Library), (∀ p ∈ lib, ∃ j, j < i ∧ p.1 = exprName j) →
      ∃ L : Library, L.map Prod.fst = (List.range' i l.length).map exprName ∧
        (∀ x, x.length = n → L.map (fun p => p.2 x) = l.map (fun e => (cEval x e).re)) ∧
        ∀ rest lib', Defines n lib (chunkTokens' P i l ++ rest) lib' ↔ Defines n (lib ++ L) rest lib' := by
  induction l with
  | nil => exact fun _ i lib _ => ⟨[], rfl, fun _ _ => rfl, fun rest lib' => by simp [chunkTokens']⟩
  | cons e l ih =>
    intro hfree i lib hlib
    have hpre : ∀ p ∈ lib, chars "expr" <+: p.1 := by
      intro p hp
      obtain ⟨j, _, h⟩ := hlib p hp
      rw [h]
      exact List.prefix_append _ _
    have hval : ∀ x, x.length = n → cValue lib x ((tokens (P.text e)).map renameToken) = some (cEval x e) :=
      fun x hx => hP.value e lib x hpre (fun s hs => by rw [hx]; exact hfree e List.mem_cons_self s hs)
    obtain ⟨L, h1, h2, h3⟩ := ih (fun e he => hfree e (List.mem_cons_of_mem _ he)) (i + 1)
      (lib ++ [(exprName i, bodyFunction n lib ((tokens (P.text e)).map renameToken))]) (fun p hp => by
        rcases List.mem_append.1 hp with hp | hp
        · obtain ⟨j, hj, h⟩ := hlib p hp
          exact ⟨j, by omega, h⟩
        · rw [List.mem_singleton] at hp
          exact ⟨i, by omega, by rw [hp]⟩)
    refine ⟨(exprName i, bodyFunction n lib ((tokens (P.text e)).map renameToken)) :: L, ?_, fun x hx => ?_, fun rest lib' => ?_⟩
    · rw [List.map_cons, h1, List.length_cons, List.range'_succ, List.map_cons]
    · rw [List.map_cons, List.map_cons, h2 x hx]
      simp [bodyFunction, hx, hval x hx]
    · rw [chunkTokens', List.append_assoc, defines_cons_iff (mark_renamed (hP.single e)), h3]
      constructor
      · rintro ⟨_, _, h⟩
        simpa using h
      · intro h
        refine ⟨find_none ?_, fun x hx => by rw [hval x hx]; rfl, by simpa using h⟩
        intro p hp he
        obtain ⟨j, hj, h⟩ := hlib p hp
        rw [h] at he
        exact absurd (exprName_inj he) (by omega)

theorem exprName_ne_autofunc (i : ℕ) : exprName i ≠ chars "autofunc" := by
  intro h
  have := congrArg List.head? h
  simp [exprName, chars] at this

/-- The functions of the file of a chunked cost function. -/
theorem computes_chunked {P : Printer} (hP : Prints P) {n : ℕ} {l : List Expr}
    (hfree : ∀ e ∈ l, ∀ s ∈ e.free, ∃ i, i < n ∧ s = xsElem i) (pre : Key) (f : List ℝ → ℝ) :
    Computes n (chunkedFile P pre l) f ↔ l ≠ [] ∧ ∀ x, x.length = n → f x = (l.map (fun e => (cEval x e).re)).sum := by
  obtain ⟨L, h1, h2, h3⟩ := defines_chunks hP hfree 0 [] (by simp)
  have hbody : Token.mark ';' ∉ callsTokens ((List.range l.length).map exprName) := by
    have hcall : ∀ a, Token.mark ';' ∉ callTokens a := by simp [callTokens]
    generalize (List.range l.length).map exprName = names
    cases names with
    | nil => simp [callsTokens]
    | cons a r => simp [callsTokens, hcall]
  rw [← List.range_eq_range'] at h1
  have hnd : (L.map Prod.fst).Nodup := by
    rw [h1]
    exact List.nodup_range.map (fun _ _ h => exprName_inj h)
  have hne : ∀ p ∈ L, p.1 ≠ chars "autofunc" := by
    intro p hp
    have : p.1 ∈ L.map Prod.fst := List.mem_map_of_mem hp
    rw [h1] at this
    obtain ⟨i, _, h⟩ := List.mem_map.1 this
    rw [← h]
    exact exprName_ne_autofunc i
  have hdef : ∀ lib', Defines n [] (tokens (chunkedFile P pre l)) lib' ↔ (L : Library).find (chars "autofunc") = none ∧
      (∀ x, x.length = n → (cValue L x (callsTokens (L.map Prod.fst))).isSome) ∧
      lib' = L ++ [(chars "autofunc", bodyFunction n L (callsTokens (L.map Prod.fst)))] := by
    intro lib'
    rw [chunked_tokens hP, h3, List.nil_append]
    have := defines_cons_iff (n := n) (lib := L) (lib' := lib') (name := chars "autofunc") (param := true) (t := []) hbody
    rw [List.append_nil] at this
    rw [this, defines_nil_iff, h1]
  have hlen : l = [] ↔ L = [] := by
    have := congrArg List.length h1
    simp only [List.length_map, List.length_range] at this
    rw [← List.length_eq_zero_iff, ← List.length_eq_zero_iff, this]
  have hcall : L ≠ [] → ∀ x, cValue L x (callsTokens (L.map Prod.fst)) = some (((L.map (fun p => p.2 x)).sum : ℝ) : ℂ) :=
    fun h x => cValue_calls h (fun p hp => find_self hnd hp)
  constructor
  · rintro ⟨lib, g, hd, hg, hgf⟩
    obtain ⟨_, k2, rfl⟩ := (hdef lib).1 hd
    have hl : l ≠ [] := by
      intro h
      have := k2 (List.replicate n 0) (by simp)
      rw [hlen.1 h, List.map_nil] at this
      simp [callsTokens, cValue_nil] at this
    refine ⟨hl, fun x hx => ?_⟩
    rw [find_append_last hne] at hg
    cases hg
    rw [← hgf x hx]
    simp only [bodyFunction, hx, if_true]
    rw [hcall (fun h => hl (hlen.2 h)), h2 x hx]
    simp
  · rintro ⟨hl, hf⟩
    refine ⟨_, _, (hdef _).2 ⟨find_none hne, fun x hx => ?_, rfl⟩, find_append_last hne, fun x hx => ?_⟩
    · rw [hcall (fun h => hl (hlen.2 h))]
      rfl
    · simp only [bodyFunction, hx, if_true]
      rw [hcall (fun h => hl (hlen.2 h)), h2 x hx, hf x hx]
      simp

/-- The function of the file of one expression. -/
theorem computes_autowrap {P : Printer} (hP : Prints P) {n : ℕ} {e : Expr} (hfree : ∀ s ∈ e.free, ∃ i, i < n ∧ s = xsElem i) (pre : Key)
    (f : List ℝ → ℝ) : Computes n (autowrapFile P pre e) f ↔ ∀ x, x.length = n → f x = (cEval x e).re := by
  have hval : ∀ x, x.length = n → cValue [] x ((tokens (P.text e)).map renameToken) = some (cEval x e) :=
    fun x hx => hP.value e [] x (by simp) (fun s hs => by rw [hx]; exact hfree s hs)
  have hdef : ∀ lib', Defines n [] (tokens (autowrapFile P pre e)) lib' ↔
      lib' = [(chars "autofunc", bodyFunction n [] ((tokens (P.text e)).map renameToken))] := by
    intro lib'
    rw [autowrap_tokens hP]
    have := defines_cons_iff (n := n) (lib := []) (lib' := lib') (name := chars "autofunc") (param := !e.free.isEmpty) (t := [])
      (mark_renamed (hP.single e))
    rw [List.append_nil] at this
    rw [this, defines_nil_iff, List.nil_append]
    exact ⟨fun h => h.2.2, fun h => ⟨rfl, fun x hx => by rw [hval x hx]; rfl, h⟩⟩
  have hfind : Library.find [(chars "autofunc", bodyFunction n [] ((tokens (P.text e)).map renameToken))] (chars "autofunc") =
      some (bodyFunction n [] ((tokens (P.text e)).map renameToken)) := by simp [Library.find]
  constructor
  · rintro ⟨lib, g, hd, hg, hgf⟩ x hx
    rw [(hdef lib).1 hd, hfind] at hg
    cases hg
    rw [← hgf x hx]
    simp [bodyFunction, hx, hval x hx]
  · intro hf
    exact ⟨_, _, (hdef _).2 rfl, hfind, fun x hx => by simp [bodyFunction, hx, hval x hx, hf x hx]⟩

end Shgpy
