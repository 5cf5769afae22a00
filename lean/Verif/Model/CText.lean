import Verif.Model.FFormFit

/-!
# The C code that fformfit.py writes (fformfit.py:188-216, 338-365, 394-436)

The text of the routines comes from sympy's `CCodeGen`: a comment, `#include` lines, and for every routine a function with the frame of
`routineText`.  How sympy writes an expression is a parameter (`Printer`).
-/

namespace Shgpy

/-- Python's `str` literals as lists of characters. -/
def chars (s : String) : List Char := s.toList

/-- The loop of `str.replace`: at the first `skip` characters, which belong to an occurrence already found, nothing is done. -/
def replaceFrom (old new : List Char) : ℕ → List Char → List Char
  | _, [] => []
  | skip + 1, _ :: t => replaceFrom old new skip t
  | 0, c :: t =>
      if old.isPrefixOf (c :: t) then new ++ replaceFrom old new (old.length - 1) t else c :: replaceFrom old new 0 t

/-- `text.replace(old, new)`, for `old` that is not empty. -/
def replaceText (old new text : List Char) : List Char := replaceFrom old new 0 text

/-- `'+'.join(l)`. -/
def joinPlus : List (List Char) → List Char
  | [] => []
  | [a] => a
  | a :: b :: r => a ++ '+' :: joinPlus (b :: r)

/-- How sympy writes an expression in C, and what it writes in front of the routines of a file. -/
structure Printer where
  banner : Key → List Char
  text : Expr → List Char

/-- A routine in the output of `codegen.write`: a function with the parameter `xs` (if the expression depends on it or
`argument_sequence` asks for it) that returns the value of the expression. -/
def routineText (P : Printer) (name : Key) (param : Bool) (e : Expr) : List Char :=
  chars "double " ++ name ++ (if param then chars "(double *xs) {\n\n   double " else chars "() {\n\n   double ") ++ name ++
    chars "_result;\n   " ++ name ++ chars "_result = " ++ P.text e ++ chars ";\n   return " ++ name ++ chars "_result;\n\n}\n"

/-- `'expr'+str(i)`. -/
def exprName (i : ℕ) : Key := chars "expr" ++ natStr i

/-- The C code of `_fixed_autowrap`, fformfit.py:338-351, and of one file of `_fixed_autowrap_model`, fformfit.py:188-202. -/
def autowrapText (P : Printer) (pre : Key) (e : Expr) : List Char :=
  replaceText (chars "conjugate") (chars "conj")
    (chars "#include <complex.h>\n" ++ (P.banner pre ++ routineText P (chars "autofunc") (!e.free.isEmpty) e))

/-- The routines of `_make_energy_func_chunked`, fformfit.py:397-401. -/
def chunkRoutines (P : Printer) (l : List Expr) : List Char := (l.zipIdx.map (fun p => routineText P (exprName p.2) true p.1)).flatten

/-- The C code of `_make_energy_func_chunked`, fformfit.py:394-417. -/
def chunkedText (P : Printer) (pre : Key) (l : List Expr) : List Char :=
  replaceText (chars "conjugate") (chars "conj")
    (chars "#include <complex.h>\n" ++ (P.banner pre ++ chunkRoutines P l) ++
      (chars "\ndouble autofunc(double *xs){\n\n    double autofunc_result;\n    autofunc_result = " ++
        joinPlus ((List.range l.length).map (fun i => exprName i ++ chars "(xs)")) ++
        chars ";\n    return autofunc_result;\n\n}\n"))

/-- The text of the file that `_fixed_autowrap` writes: the code and a newline, fformfit.py:360-362. -/
def autowrapFile (P : Printer) (pre : Key) (e : Expr) : List Char := autowrapText P pre e ++ ['\n']

/-- The text of the file that `_make_energy_func_chunked` writes, fformfit.py:431-433. -/
def chunkedFile (P : Printer) (pre : Key) (l : List Expr) : List Char := chunkedText P pre l ++ ['\n']

/-- The C file of `gen_cost_func`, fformfit.py:504-534. -/
noncomputable def costFile (S : Sympy) (P : Printer) (fform : FFormContainer) (fdat : FDataContainer) (arguments : Option (List Sym))
    (chunk : Bool) : Except Err (List Char) := do
  let pre := chars "SHGPY_COST_FUNC"
  if chunk then
    let l ← energyExprList S fform fdat arguments
    return chunkedFile P pre l
  else
    let e ← energyExpr S fform fdat arguments
    return autowrapFile P pre e

/-- The C files of `_make_energy_and_denergy_func_wrapper`, fformfit.py:571-603: the cost, then its derivatives. -/
noncomputable def gradFiles (S : Sympy) (P : Printer) (fform : FFormContainer) (fdat : FDataContainer) (symbols : List Sym) :
    Except Err (List Char × List (List Char)) := do
  let pre := chars "SHGPY_COST_FUNC"
  let e ← energyExpr S fform fdat (some symbols)
  let de ← denergyExpr S symbols.length e
  return (autowrapFile P pre e, de.map (autowrapFile P pre))

/-- The C files of `_fixed_autowrap_model` for one combination, frequency and component, fformfit.py:178-214. -/
def modelFiles (S : Sympy) (P : Printer) (fform : FFormContainer) (symbols : Option (List Sym)) (numPer : ℤ) (key : Key × ℤ × Part) :
    Except Err (List (List Char)) := do
  let e ← modelExpr S fform key.1 key.2.1 key.2.2 symbols
  let chunks ← splitExpr e numPer
  return chunks.zipIdx.map (fun p => autowrapFile P (partName key.1 key.2.1 key.2.2 ++ '_' :: natStr p.2) p.1)

end Shgpy
