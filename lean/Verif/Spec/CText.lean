import Verif.Model.CText
import Verif.Spec.Fit
import Mathlib.Analysis.SpecialFunctions.Pow.Real

/-!
# The part of the language C that the generated code uses

Comments and preprocessor lines are dropped, the rest is divided into words and marks.  A file is a list of functions of the form
`double f(double *xs) { double f_result; f_result = ...; return f_result; }`.  In the expression there are numbers, the elements of
`xs`, the imaginary unit, the four operations, calls of functions defined earlier and of `conj`, `cos`, `sin` and `pow`.  The functions
`cos`, `sin` and `pow` of `<math.h>` take real numbers: of a complex number they see the real part.  Arithmetic is exact.
-/

namespace Shgpy.Spec

/-! ## Words and marks -/

inductive Token
  | word (w : List Char)
  | mark (c : Char)
  deriving DecidableEq

/-- Where the reader is: in the code, after a slash, in a comment, after a star in a comment, in a preprocessor line. -/
inductive Mode
  | code
  | slash
  | comment
  | star
  | line
  deriving DecidableEq

/-- The reader, with the word it is reading and the tokens so far. -/
structure Reader where
  mode : Mode
  word : List Char
  out : List Token

/-- The characters of names and numbers. -/
def isWord (c : Char) : Bool := c.isAlphanum || c == '_' || c == '.'

/-- The end of a word. -/
def Reader.flush (s : Reader) : Reader := if s.word = [] then s else ⟨s.mode, [], s.out ++ [.word s.word]⟩

/-- A character of the code. -/
def Reader.code (s : Reader) (c : Char) : Reader :=
  if isWord c then ⟨.code, s.word ++ [c], s.out⟩
  else if c.isWhitespace then ⟨.code, [], s.flush.out⟩
  else if c = '/' then ⟨.slash, [], s.flush.out⟩
  else if c = '#' then ⟨.line, [], s.flush.out⟩
  else ⟨.code, [], s.flush.out ++ [.mark c]⟩

/-- The next character. -/
def Reader.step (s : Reader) (c : Char) : Reader :=
  match s.mode with
  | .code => s.code c
  | .slash => if c = '*' then ⟨.comment, [], s.out⟩ else Reader.code ⟨.code, [], s.out ++ [.mark '/']⟩ c
  | .comment => if c = '*' then ⟨.star, s.word, s.out⟩ else s
  | .star => if c = '/' then ⟨.code, [], s.out⟩ else if c = '*' then s else ⟨.comment, s.word, s.out⟩
  | .line => if c = '\n' then ⟨.code, [], s.out⟩ else s

/-- Reads a text. -/
def Reader.read (s : Reader) (text : List Char) : Reader := text.foldl Reader.step s

/-- The words and marks of a text. -/
def tokens (text : List Char) : List Token := (Reader.read ⟨.code, [], []⟩ text).flush.out

/-! ## Expressions -/

/-- The value of a decimal digit. -/
def digitValue (c : Char) : Option ℕ := if c.isDigit then some (c.toNat - '0'.toNat) else none

/-- The value of a list of digits. -/
def digitsValue (l : List Char) : Option ℕ := (l.mapM digitValue).map (fun ds => Nat.ofDigits 10 ds.reverse)

/-- The value of a number such as `12` or `0.25`. -/
def numberValue (w : List Char) : Option ℚ :=
  let whole := w.takeWhile (· ≠ '.')
  let frac := (w.dropWhile (· ≠ '.')).drop 1
  if whole = [] then none
  else (digitsValue whole).bind fun a => (digitsValue frac).map fun b => a + b / 10 ^ frac.length

/-- The functions defined so far. -/
abbrev Library := List (Key × (List ℝ → ℝ))

/-- The function with a name. -/
def Library.find (lib : Library) (name : Key) : Option (List ℝ → ℝ) := (List.find? (fun p => p.1 = name) lib).map Prod.snd

/-- The functions of one argument that the headers declare. -/
noncomputable def builtin (name : Key) (z : ℂ) : Option ℂ :=
  if name = chars "conj" then some (starRingEnd ℂ z)
  else if name = chars "cos" then some (Real.cos z.re : ℝ)
  else if name = chars "sin" then some (Real.sin z.re : ℝ)
  else none

section
variable (lib : Library) (x : List ℝ)

mutual
/-- A number, `I`, `xs[i]`, a call, something in parentheses or the negative of these; the rest of the tokens. -/
noncomputable def cFactor : ℕ → List Token → Option (ℂ × List Token)
  | 0, _ => none
  | k + 1, .mark '(' :: t =>
      match cSum k t with
      | some (z, .mark ')' :: t) => some (z, t)
      | _ => none
  | k + 1, .mark '-' :: t => (cFactor k t).map (fun p => (-p.1, p.2))
  | _ + 1, .word w :: .mark '[' :: .word i :: .mark ']' :: t =>
      if w = chars "xs" then (digitsValue i).bind fun i => x[i]?.map (fun v => ((v : ℂ), t)) else none
  | k + 1, .word w :: .mark '(' :: t =>
      match lib.find w, t with
      | some f, .word v :: .mark ')' :: t => if v = chars "xs" then some ((f x : ℂ), t) else none
      | some _, _ => none
      | none, t =>
          match cSum k t with
          | some (a, .mark ')' :: t) => (builtin w a).map (fun z => (z, t))
          | some (a, .mark ',' :: t) =>
              match cSum k t with
              | some (b, .mark ')' :: t) => if w = chars "pow" then some (((a.re ^ b.re : ℝ) : ℂ), t) else none
              | _ => none
          | _ => none
  | _ + 1, .word w :: t => if w = chars "I" then some (Complex.I, t) else (numberValue w).map (fun q => ((q : ℂ), t))
  | _ + 1, _ => none
/-- A product. -/
noncomputable def cProduct : ℕ → List Token → Option (ℂ × List Token)
  | 0, _ => none
  | k + 1, t =>
      match cFactor k t with
      | some (z, t) => cProductRest k z t
      | none => none
/-- The rest of a product. -/
noncomputable def cProductRest : ℕ → ℂ → List Token → Option (ℂ × List Token)
  | 0, _, _ => none
  | k + 1, z, .mark '*' :: t =>
      match cFactor k t with
      | some (v, t) => cProductRest k (z * v) t
      | none => none
  | k + 1, z, .mark '/' :: t =>
      match cFactor k t with
      | some (v, t) => cProductRest k (z / v) t
      | none => none
  | _ + 1, z, t => some (z, t)
/-- A sum. -/
noncomputable def cSum : ℕ → List Token → Option (ℂ × List Token)
  | 0, _ => none
  | k + 1, t =>
      match cProduct k t with
      | some (z, t) => cSumRest k z t
      | none => none
/-- The rest of a sum. -/
noncomputable def cSumRest : ℕ → ℂ → List Token → Option (ℂ × List Token)
  | 0, _, _ => none
  | k + 1, z, .mark '+' :: t =>
      match cProduct k t with
      | some (v, t) => cSumRest k (z + v) t
      | none => none
  | k + 1, z, .mark '-' :: t =>
      match cProduct k t with
      | some (v, t) => cSumRest k (z - v) t
      | none => none
  | _ + 1, z, t => some (z, t)
end

/-- The value of an expression.  (The number bounds the depth of the recursion; it is large enough.) -/
noncomputable def cValue (t : List Token) : Option ℂ :=
  match cSum lib x (4 * t.length + 4) t with
  | some (z, []) => some z
  | _ => none

end

/-! ## Functions -/

/-- The tokens of a function. -/
def functionTokens (name : Key) (param : Bool) (body : List Token) : List Token :=
  [.word (chars "double"), .word name, .mark '('] ++ (if param then [.word (chars "double"), .mark '*', .word (chars "xs")] else []) ++
    [.mark ')', .mark '{', .word (chars "double"), .word (name ++ chars "_result"), .mark ';', .word (name ++ chars "_result"), .mark '='] ++
    body ++ [.mark ';', .word (chars "return"), .word (name ++ chars "_result"), .mark ';', .mark '}']

/-- What a function with a body computes when it is called with `n` numbers (anything else is undefined behaviour).  The value of a
function of type `double` is the real part of the value of the expression. -/
noncomputable def bodyFunction (n : ℕ) (lib : Library) (body : List Token) : List ℝ → ℝ :=
  fun x => if x.length = n then ((cValue lib x body).getD 0).re else 0

/-- Reading the tokens, when `lib` has been defined, defines `lib'`, for functions that are called with `n` numbers.  A name can be
defined once, and the body has to be an expression with a value. -/
inductive Defines (n : ℕ) : Library → List Token → Library → Prop
  | nil {lib : Library} : Defines n lib [] lib
  | cons {lib lib' : Library} {name : Key} {param : Bool} {body t : List Token} :
      .mark ';' ∉ body → lib.find name = none → (∀ x, x.length = n → (cValue lib x body).isSome) →
      Defines n (lib ++ [(name, bodyFunction n lib body)]) t lib' → Defines n lib (functionTokens name param body ++ t) lib'

/-- The file can be compiled, and its function `autofunc` computes `f` when it is called with `n` numbers. -/
def Computes (n : ℕ) (text : List Char) (f : List ℝ → ℝ) : Prop :=
  ∃ lib g, Defines n [] (tokens text) lib ∧ lib.find (chars "autofunc") = some g ∧ ∀ x, x.length = n → g x = f x

/-! ## What C computes for an expression of sympy -/

mutual
/-- The value of an expression when powers, cosines and sines see the real part of what they are applied to. -/
noncomputable def cEval (x : List ℝ) : Expr → ℂ
  | .num q => q
  | .I => Complex.I
  | .sym s => xsVal x s
  | .add l => cEvalSum x l
  | .mul l => cEvalProd x l
  | .pow b n => (((cEval x b).re ^ n : ℝ) : ℂ)
  | .cos e => (Real.cos (cEval x e).re : ℝ)
  | .sin e => (Real.sin (cEval x e).re : ℝ)
/-- The sum of the values. -/
noncomputable def cEvalSum (x : List ℝ) : List Expr → ℂ
  | [] => 0
  | e :: l => cEval x e + cEvalSum x l
/-- The product of the values. -/
noncomputable def cEvalProd (x : List ℝ) : List Expr → ℂ
  | [] => 1
  | e :: l => cEval x e * cEvalProd x l
end

mutual
/-- Powers, cosines and sines are taken of real numbers only, whatever real values the symbols have. -/
def RealPowers : Expr → Prop
  | .num _ | .I | .sym _ => True
  | .add l => RealPowersL l
  | .mul l => RealPowersL l
  | .pow b _ => RealPowers b ∧ ∀ r : Sym → ℝ, (b.eval (realVal r)).im = 0
  | .cos e => RealPowers e ∧ ∀ r : Sym → ℝ, (e.eval (realVal r)).im = 0
  | .sin e => RealPowers e ∧ ∀ r : Sym → ℝ, (e.eval (realVal r)).im = 0
/-- The same for all expressions of a list. -/
def RealPowersL : List Expr → Prop
  | [] => True
  | e :: l => RealPowers e ∧ RealPowersL l
end

/-- The name of a function in C. -/
def renameToken : Token → Token
  | .word w => .word (if w = chars "conjugate" then chars "conj" else w)
  | .mark c => .mark c

/-- What is assumed of sympy's printer: in front of the routines there are only comments and preprocessor lines, and an expression is
written as an expression of C with its value, but for the name of the conjugate. -/
structure Prints (P : Printer) : Prop where
  banner : ∀ pre, Reader.read ⟨.code, [], []⟩ (P.banner pre) = ⟨.code, [], []⟩
  ends : ∀ e, (Reader.read ⟨.code, [], []⟩ (P.text e)).mode = .code
  single : ∀ e, .mark ';' ∉ tokens (P.text e)
  names : ∀ e w, .word w ∈ tokens (P.text e) → chars "conjugate" <:+: w → w = chars "conjugate"
  value : ∀ e lib x, (∀ p ∈ lib, chars "expr" <+: p.1) → (∀ s ∈ e.free, ∃ i, i < x.length ∧ s = xsElem i) →
    cValue lib x ((tokens (P.text e)).map renameToken) = some (cEval x e)

/-- Simplification makes no powers, cosines or sines of quantities that are not real. -/
def KeepsRealPowers (S : Sympy) : Prop := ∀ e, RealPowers e → RealPowers (S.norm e)

/-- In the components of the formula there are no powers, cosines or sines of quantities that are not real. -/
def FormulaRealPowers (fform : FFormContainer) : Prop :=
  ∀ k a, fform.getPc k = .ok a → ∀ e, .sy e ∈ a.objs → RealPowers e

/-- In the expressions of the cost, in one piece or in chunks, there are no powers, cosines or sines of quantities that are not real. -/
def CostRealPowers (S : Sympy) (fform : FFormContainer) (fdat : FDataContainer) (arguments : Option (List Sym)) : Bool → Prop
  | false => ∀ e, energyExpr S fform fdat arguments = .ok e → RealPowers e
  | true => ∀ es, energyExprList S fform fdat arguments = .ok es → ∀ e ∈ es, RealPowers e

end Shgpy.Spec
