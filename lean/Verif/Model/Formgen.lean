import Verif.Model.TensorSym
import Verif.Model.FourierTransform

/-!
# Model of `shgpy/formgen.py`

The angle of incidence and the elements of the tensors are sympy expressions (a float is the rational number that it is).
The composition `sp.expand(sp.expand_trig(...))` is a parameter: any sound rewriting.  The deprecation warnings are not
modelled.
-/

namespace Shgpy

mutual
/-- `sp.conjugate(expr)`, pushed through the tree.  All symbols are taken to be real, which the code checks for the symbols
of the tensors and of `phi`. -/
def Expr.conj : Expr → Expr
  | .num q => .num q
  | .I => .mul [.num (-1), .I]
  | .sym s => .sym s
  | .add l => .add (Expr.conjL l)
  | .mul l => .mul (Expr.conjL l)
  | .pow b n => .pow (Expr.conj b) n
  | .cos e => .cos (Expr.conj e)
  | .sin e => .sin (Expr.conj e)
/-- Conjugation of a list of arguments. -/
def Expr.conjL : List Expr → List Expr
  | [] => []
  | e :: r => Expr.conj e :: Expr.conjL r
end

/-- `sp.conjugate(expr)`. -/
def Sympy.conj (S : Sympy) (e : Expr) : Expr := S.norm e.conj

/-- The arithmetic of object arrays of expressions. -/
def exprOps (S : Sympy) : Ops Expr := ⟨.num 0, S.add, S.mul⟩

/-- `np.array([a, b, c], dtype=object)`. -/
def vec3 (a b c : Expr) : Nd Expr := ⟨[3], fun idx => [a, b, c].getD (idx.getD 0 0) (.num 0)⟩

/-- `-e`. -/
def Sympy.neg (S : Sympy) (e : Expr) : Expr := S.norm (.mul [.num (-1), e])

section
variable (S : Sympy)

/-- `kin`, formgen.py:235 (and 182, 437). -/
def kinVec (theta : Expr) : Nd Expr := vec3 (S.sin theta) (.num 0) (S.cos theta)
/-- `kout`, formgen.py:236 (and 123, 183, 373, 438). -/
def koutVec (theta : Expr) : Nd Expr := vec3 (S.sin theta) (.num 0) (S.neg (S.cos theta))
/-- `Fp`, formgen.py:237 (and 124, 184, 374, 439). -/
def fpVec (theta : Expr) : Nd Expr := vec3 (S.neg (S.cos theta)) (.num 0) (S.sin theta)
/-- `Fs`, formgen.py:238 (and 125, 185, 375, 440). -/
def fsVec : Nd Expr := vec3 (.num 0) (.num 1) (.num 0)

/-- `R`, formgen.py:239-245 (and 126-132, 186-192, 376-382, 441-447). -/
def rotR : Nd Expr :=
  ⟨[3, 3], fun idx =>
    ([[S.cos (.sym phi), S.neg (S.sin (.sym phi)), .num 0],
      [S.sin (.sym phi), S.cos (.sym phi), .num 0],
      [.num 0, .num 0, .num 1]].getD (idx.getD 0 0) []).getD (idx.getD 1 0) (.num 0)⟩

/-- `gen_levi_civita`, formgen.py:46-54. -/
def genLeviCivita : Nd Expr :=
  ⟨[3, 3, 3], fun idx =>
    if idx = [0, 1, 2] then .num 1 else if idx = [1, 2, 0] then .num 1 else if idx = [2, 0, 1] then .num 1
    else if idx = [1, 0, 2] then .num (-1) else if idx = [0, 2, 1] then .num (-1)
    else if idx = [2, 1, 0] then .num (-1) else .num 0⟩

/-- `tensor_contract(tensor_product(*tensors), pairs)`. -/
def contractProduct {α : Type} (O : Ops α) (ts : List (Nd α)) (pairs : List (List ℤ)) : Except Err (Nd α) := do
  let p ← tensorProduct O ts
  tensorContract O p pairs

/-- The rotated rank 3 tensor, formgen.py:250-253 and 267-270 (and 133-136, 193-196, 383-386, 448-451). -/
def rotated3 (t : Nd Expr) : Except Err (Nd Expr) :=
  contractProduct (exprOps S) [rotR S, rotR S, rotR S, t] [[1, 6], [3, 7], [5, 8]]

/-- The rotated rank 4 tensor, formgen.py:284-287 (and 197-200, 452-455). -/
def rotated4 (t : Nd Expr) : Except Err (Nd Expr) :=
  contractProduct (exprOps S) [rotR S, rotR S, rotR S, rotR S, t] [[1, 8], [3, 9], [5, 10], [7, 11]]

/-- The electric dipole, formgen.py:255-262 (and 137-144, 201-208, 387-394, 456-463). -/
def dipoleMoment (rt F : Nd Expr) : Except Err (Nd Expr) :=
  contractProduct (exprOps S) [rt, F, F] [[1, 3], [2, 4]]

/-- The magnetic dipole, formgen.py:272-279. -/
def magneticMoment (rt kin F : Nd Expr) : Except Err (Nd Expr) :=
  contractProduct (exprOps S) [genLeviCivita, kin, rt, F, F] [[1, 3], [2, 4], [5, 7], [6, 8]]

/-- The electric quadrupole, formgen.py:289-296 (and 209-216, 464-471). -/
def quadrupoleMoment (rt kin F : Nd Expr) : Except Err (Nd Expr) :=
  contractProduct (exprOps S) [rt, kin, F, F] [[1, 4], [2, 5], [3, 6]]

/-- `a + b` for arrays of the same shape. -/
def ndAdd (a b : Nd Expr) : Nd Expr := ⟨a.shape, fun idx => S.add (a.get idx) (b.get idx)⟩

/-- `c * a` for a number or expression `c`. -/
def ndScale (c : Expr) (a : Nd Expr) : Nd Expr := a.map (S.mul c)

/-- `np.dot(a, b)` for two vectors. -/
def npDot (a b : Nd Expr) : Expr := (exprOps S).sum (a.shape.getD 0 0) (fun i => S.mul (a.get [i]) (b.get [i]))

/-- `v -= np.dot(kout, v)*kout`, formgen.py:300-301 (and 145-146, 217-220, 395-396, 472-475). -/
def projectOut (kout v : Nd Expr) : Nd Expr :=
  ⟨v.shape, fun idx => S.sub (v.get idx) (S.mul (npDot S kout v) (kout.get idx))⟩

/-- The initial `0` of `Sp` and `Ss` (formgen.py:231-232), broadcast to the shape of the array added to it. -/
def zeroVec : Nd Expr := vec3 (.num 0) (.num 0) (.num 0)

variable (ex : Rewriting) (theta : Expr)

/-- formgen.py:248-264, for the pair `(Sp, Ss)`. -/
def addDipole (t : Nd Expr) (acc : Nd Expr × Nd Expr) : Except Err (Nd Expr × Nd Expr) := do
  assertRealParams t
  let rt ← rotated3 S t
  let rt := rt.map ex.run
  let Ps ← dipoleMoment S rt fsVec
  let Pp ← dipoleMoment S rt (fpVec S theta)
  return (ndAdd S acc.1 (Pp.map ex.run), ndAdd S acc.2 (Ps.map ex.run))

/-- formgen.py:265-281. -/
def addMagnetic (t : Nd Expr) (acc : Nd Expr × Nd Expr) : Except Err (Nd Expr × Nd Expr) := do
  assertRealParams t
  let rt ← rotated3 S t
  let rt := rt.map ex.run
  let Ms ← magneticMoment S rt (kinVec S theta) fsVec
  let Mp ← magneticMoment S rt (kinVec S theta) (fpVec S theta)
  return (ndAdd S acc.1 (Mp.map ex.run), ndAdd S acc.2 (Ms.map ex.run))

/-- formgen.py:282-298. -/
def addQuadrupole (t : Nd Expr) (acc : Nd Expr × Nd Expr) : Except Err (Nd Expr × Nd Expr) := do
  assertRealParams t
  let rt ← rotated4 S t
  let rt := rt.map ex.run
  let Qs ← quadrupoleMoment S rt (kinVec S theta) fsVec
  let Qp ← quadrupoleMoment S rt (kinVec S theta) (fpVec S theta)
  return (ndAdd S acc.1 ((ndScale S .I Qp).map ex.run), ndAdd S acc.2 ((ndScale S .I Qs).map ex.run))

/-- `if t is not None: ...`. -/
def ifGiven {α β : Type} (t : Option α) (f : α → β → Except Err β) (acc : β) : Except Err β :=
  match t with
  | none => .ok acc
  | some t => f t acc

/-- `gen_S`, formgen.py:224-303: `(Sp, Ss)`. -/
def genS (eee mee qee : Option (Nd Expr)) : Except Err (Nd Expr × Nd Expr) :=
  if eee.isNone && mee.isNone && qee.isNone then .error .valueError
  else do
    let acc ← ifGiven eee (addDipole S ex theta) (zeroVec, zeroVec)
    let acc ← ifGiven mee (addMagnetic S ex theta) acc
    let acc ← ifGiven qee (addQuadrupole S ex theta) acc
    let Ss := projectOut S (koutVec S theta) acc.2
    let Sp := projectOut S (koutVec S theta) acc.1
    return (Sp.map ex.run, Ss.map ex.run)

/-- `v[i]*sp.conjugate(v[i])`. -/
def modSq (v : Nd Expr) (i : ℕ) : Expr := S.mul (v.get [i]) (S.conj (v.get [i]))

/-- `FormContainer({'PP':PP, 'PS':PS, 'SP':SP, 'SS':SS})`. -/
def fourForms (PP PS SP SS : Expr) : Except Err FormContainer :=
  FormContainer.init S [(.str ['P', 'P'], .sy PP), (.str ['P', 'S'], .sy PS), (.str ['S', 'P'], .sy SP),
    (.str ['S', 'S'], .sy SS)]

/-- `formgen`, formgen.py:306-337. -/
def formgen (eee mee qee : Option (Nd Expr)) : Except Err FormContainer := do
  let r ← genS S ex theta eee mee qee
  let Sp := r.1
  let Ss := r.2
  let PP := S.add (ex.run (modSq S Sp 0)) (ex.run (modSq S Sp 2))
  let PS := ex.run (modSq S Sp 1)
  let SP := S.add (ex.run (modSq S Ss 0)) (ex.run (modSq S Ss 2))
  let SS := ex.run (modSq S Ss 1)
  fourForms S PP PS SP SS

/-- The four formulas of formgen.py:89-92, 397-400 and 478-481, from two fields. -/
def formsOf (Sp Ss : Nd Expr) : Except Err FormContainer :=
  fourForms S (S.add (modSq S Sp 0) (modSq S Sp 2)) (modSq S Sp 1) (S.add (modSq S Ss 0) (modSq S Ss 2)) (modSq S Ss 1)

/-- The dipole fields before intensities are taken, formgen.py:121-146, 193-218, 371-396 and 448-473: `(Pp, Ps)`. -/
def dipoleFields (t1 : Nd Expr) : Except Err (Nd Expr × Nd Expr) := do
  let rt ← rotated3 S t1
  let Ps ← dipoleMoment S rt fsVec
  let Pp ← dipoleMoment S rt (fpVec S theta)
  return (projectOut S (koutVec S theta) Pp, projectOut S (koutVec S theta) Ps)

/-- The quadrupole fields, formgen.py:197-200, 209-216 and 219-220 (and 452-455, 464-471, 474-475): `(Qp, Qs)`. -/
def quadrupoleFields (t2 : Nd Expr) : Except Err (Nd Expr × Nd Expr) := do
  let rt ← rotated4 S t2
  let Qs ← quadrupoleMoment S rt (kinVec S theta) fsVec
  let Qp ← quadrupoleMoment S rt (kinVec S theta) (fpVec S theta)
  return (projectOut S (koutVec S theta) Qp, projectOut S (koutVec S theta) Qs)

/-- `formgen_just_dipole`, formgen.py:340-401. -/
def formgenJustDipole (t1 : Nd Expr) : Except Err FormContainer := do
  assertRealParams t1
  let P ← dipoleFields S theta t1
  formsOf S P.1 P.2

/-- `formgen_dipole_quadrupole`, formgen.py:404-482; `isReal` is the answer of sympy to `theta.is_real`. -/
def formgenDipoleQuadrupole (isReal : Expr → Bool) (t1 t2 : Nd Expr) : Except Err FormContainer := do
  assertRealParams t1
  assertRealParams t2
  if isReal theta then do
    let P ← dipoleFields S theta t1
    let Q ← quadrupoleFields S theta t2
    formsOf S (ndAdd S P.1 (ndScale S .I Q.1)) (ndAdd S P.2 (ndScale S .I Q.2))
  else .error .valueError

/-- A value returned by `gen_P_just_dipole` and `gen_P_dipole_quadrupole`, and taken by `make_form_from_P_and_Q`: an
array or the number 0. -/
inductive Moment
  | arr (a : Nd Expr)
  | zero

/-- `gen_P_just_dipole`, formgen.py:97-148. -/
def genPJustDipole (t1 : Nd Expr) : Except Err (Moment × Moment × Moment × Moment) := do
  assertRealParams t1
  let P ← dipoleFields S theta t1
  return (.arr P.1, .arr P.2, .zero, .zero)

/-- `gen_P_dipole_quadrupole`, formgen.py:151-221. -/
def genPDipoleQuadrupole (t1 t2 : Nd Expr) : Except Err (Moment × Moment × Moment × Moment) := do
  assertRealParams t1
  assertRealParams t2
  let P ← dipoleFields S theta t1
  let Q ← quadrupoleFields S theta t2
  return (.arr P.1, .arr P.2, .arr Q.1, .arr Q.2)

/-- `_assert_real_params(x)`: the number 0 has no method `flatten`. -/
def assertRealMoment : Moment → Except Err (Nd Expr)
  | .arr a => do
    assertRealParams a
    return a
  | .zero => .error .attributeError

/-- `make_form_from_P_and_Q`, formgen.py:57-94. -/
def makeFormFromPAndQ (Pp Ps Qp Qs : Moment) : Except Err FormContainer := do
  let Pp ← assertRealMoment Pp
  let Ps ← assertRealMoment Ps
  let Qp ← assertRealMoment Qp
  let Qs ← assertRealMoment Qs
  formsOf S (ndAdd S Pp (ndScale S .I Qp)) (ndAdd S Ps (ndScale S .I Qs))

end

end Shgpy
