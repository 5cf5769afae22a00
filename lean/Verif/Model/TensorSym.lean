import Verif.Model.Tensor
import Verif.Py.Expr

/-!
# Model of the functions of `shgpy/core/utilities.py` on symbolic tensors (lines 8-152 and 350-367)

The elements of a tensor are sympy expressions (native numbers are represented by the corresponding expressions).
-/

namespace Shgpy

/-- `symbol.is_real`: the residue of the assumption number modulo 3 tells whether sympy knows the symbol to be real (`1`),
not real (`2`) or neither (`0`).  The assumption number `0` is that of `sp.symbols('x')`, and `1` that of
`sp.symbols('x', real=True)`. -/
def Sym.isReal (s : Sym) : Option Bool :=
  if s.tag % 3 = 1 then some true else if s.tag % 3 = 2 then some false else none

/-- `sp.symbols(name, real=True)`. -/
def realSym (name : Key) : Sym := ⟨name, 1⟩

/-- `sp.sympify(str(fs))`, the symbol that `expr.subs(str(fs), ...)` looks for: the symbol of that name without
assumptions.  (Names that sympy parses as something else, like `I` or `E`, are not modelled.) -/
def parsedSym (fs : Sym) : Sym := ⟨fs.name, 0⟩

/-- The replacement of utilities.py:87 for a symbol. -/
def complexOf (S : Sympy) (prefixRe prefixIm suffixRe suffixIm : Key) (fs : Sym) : Expr :=
  S.add (.sym (realSym (prefixRe ++ fs.name ++ suffixRe)))
    (S.mul .I (.sym (realSym (prefixIm ++ fs.name ++ suffixIm))))

/-- The loop of `_make_parameters_in_expr_complex` and `_make_parameters_in_expr_real`, utilities.py:83-96; the set of
free symbols is iterated in an order chosen by the interpreter. -/
def replaceParameters (S : Sympy) (new : Sym → Expr) (e : Expr) : Expr :=
  (S.setOrder e.free).foldl (fun e fs =>
    if fs.isReal = none then S.subs [(parsedSym fs, new fs)] e else e) e

/-- `make_tensor_complex`, utilities.py:99-127. -/
def makeTensorComplex (S : Sympy) (prefixRe prefixIm suffixRe suffixIm : Key) (t : Nd Expr) : Nd Expr :=
  t.map (replaceParameters S (complexOf S prefixRe prefixIm suffixRe suffixIm))

/-- `make_tensor_real`, utilities.py:130-152. -/
def makeTensorReal (S : Sympy) (t : Nd Expr) : Nd Expr :=
  t.map (replaceParameters S (fun fs => .sym (realSym fs.name)))

/-- `map_to_real`, utilities.py:364-366. -/
def mapToReal (s : Sym) : Sym := realSym s.name

/-- `_free_symbols_of_array`, utilities.py:350-354, as a list that may repeat symbols. -/
def freeOfArray (t : Nd Expr) : List Sym := t.flatten.flatMap Expr.free

/-- `_assert_real_params`, utilities.py:357-362. -/
def assertRealParams (t : Nd Expr) : Except Err Unit :=
  if ∀ s ∈ freeOfArray t, s.isReal = some true then .ok () else .error .valueError

/-! ## Particularization -/

/-- The two leading loops of `_swap_last_two_indices`, utilities.py:10-18.  `dim = len(tensor[0])` is the length of
axis 1; the leading axes are run up to `dim` and the last two up to 3, an `IndexError` resulting when an axis is shorter,
and the elements beyond keep the value 0 of `np.zeros`.  `len(tensor[0])` fails for ranks 0 and 1. -/
def swapLastTwo (t : Nd Expr) : Except Err (Nd Expr) :=
  if t.rank = 0 then .error .indexError
  else if t.rank < 2 then .error .typeError
  else
    let dim := t.shape.getD 1 0
    let bounds := List.replicate (t.rank - 2) dim ++ [3, 3]
    if (List.zipWith (fun b d => decide (b ≤ d)) bounds t.shape).all id then
      .ok ⟨t.shape, fun idx =>
        if (List.zipWith (fun i b => decide (i < b)) idx bounds).all id then
          t.get (idx.take (t.rank - 2) ++ (idx.drop (t.rank - 2)).reverse)
        else .num 0⟩
    else .error .indexError

/-- `sympy.solve(equations, dict=True, exclude=exclude)`: a list of solutions, each a list of replacements. -/
abbrev Solver := List Expr → List Sym → List (List (Sym × Expr))

/-- `a - b`. -/
def Sympy.sub (S : Sympy) (a b : Expr) : Expr := S.norm (.add [a, .mul [.num (-1), b]])

/-- `sols[0]`. -/
def firstSol (sols : List (List (Sym × Expr))) : Except Err (List (Sym × Expr)) :=
  match sols with
  | [] => .error .indexError
  | s :: _ => .ok s

/-- `_apply_sol_to_tensor`, utilities.py:25-26 and 36-37. -/
def applySol (S : Sympy) (sol : List (Sym × Expr)) (t : Nd Expr) : Nd Expr := t.map (S.subs sol)

/-- The equations of utilities.py:22. -/
def swapEquations (S : Sympy) (t t2 : Nd Expr) : List Expr :=
  (Nd.tuples t.shape).map (fun i => S.sub (t.get i) (t2.get i))

/-- `_particularize_last_two`, utilities.py:8-31. -/
def particularizeLastTwo (S : Sympy) (solve : Solver) (exclude : List Sym) (t : Nd Expr) : Except Err (Nd Expr) := do
  let t2 ← swapLastTwo t
  if t2.flatten = t.flatten then return t
  else do
    let sol ← firstSol (solve (swapEquations S t t2) exclude)
    return applySol S sol t

/-- The equations of utilities.py:43-45: `tensor[i] - tensor[j]` for all index tuples `i` (with entries below
`dim = len(tensor[0])`) and all their rearrangements `j`. -/
def allEquations (S : Sympy) (t : Nd Expr) : List Expr :=
  (Nd.tuples (List.replicate t.rank (t.shape.getD 1 0))).flatMap (fun i =>
    i.permutations.dedup.map (fun j => S.sub (t.get i) (t.get j)))

/-- `_particularize_all`, utilities.py:34-49.  All axes are read up to the length of axis 1: an `IndexError` results when
one is shorter. -/
def particularizeAll (S : Sympy) (solve : Solver) (exclude : List Sym) (t : Nd Expr) : Except Err (Nd Expr) :=
  if t.rank = 0 then .error .indexError
  else if t.rank < 2 then .error .typeError
  else if t.shape.all (fun d => decide (t.shape.getD 1 0 ≤ d)) then do
    let sol ← firstSol (solve (allEquations S t) exclude)
    return applySol S sol t
  else .error .indexError

/-- `particularize`, utilities.py:52-80, for a boolean `permute_all_indices`. -/
def particularize (S : Sympy) (solve : Solver) (exclude : List Sym) (permuteAll : Bool) (t : Nd Expr) :
    Except Err (Nd Expr) :=
  if permuteAll then particularizeAll S solve exclude t else particularizeLastTwo S solve exclude t

end Shgpy
