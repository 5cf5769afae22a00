import Verif.Model.Formgen
import Verif.Model.SaveFform

/-!
# Model of `shgpy/fformgen.py`

An array of shape `(2*M+1,) + shape` is the list of its `2*M+1` subarrays.  Floating point numbers are exact, in
particular `np.cos(aoi)` is the cosine of `aoi`.  `np.save` and `np.load` are taken to return what was stored.  The
matrix `R` of lines 175 and 424 is never used and is left out, like the timing, the logging, `rproj`, `rFc`, `rk_out`.
Here `ndigits=None`; rounding is in `FformRound.lean`.
-/

namespace Shgpy

/-- `S.theta`, shg_symbols.py:288. -/
def thetaSym : Sym := ⟨['t', 'h', 'e', 't', 'a'], 1⟩
/-- `S.Fx`, shg_symbols.py:303. -/
def FxSym : Sym := ⟨['F', 'x'], 0⟩
/-- `S.Fy`, shg_symbols.py:305. -/
def FySym : Sym := ⟨['F', 'y'], 0⟩
/-- `S.Fz`, shg_symbols.py:307. -/
def FzSym : Sym := ⟨['F', 'z'], 0⟩

/-- An array with one tensor for every frequency. -/
abbrev FTensor := List (Nd Expr)

section
variable (S : Sympy)

/-- `np.zeros(shape, dtype=object)`. -/
def zerosNd (shape : List ℕ) : Nd Expr := ⟨shape, fun _ => .num 0⟩

/-- `a[i] = v`. -/
def ftSet (a : FTensor) (i : ℤ) (v : Nd Expr) : Except Err FTensor := pySet a i v

/-- `_substitute_into_array`, fformgen.py:55-63.  Native numbers, which have no `subs`, contain no symbol. -/
def substituteIntoArray (pairs : List (Sym × Expr)) (t : Nd Expr) : Nd Expr := t.map (S.subs pairs)

/-- `_conjugate_tensor`, fformgen.py:93-97. -/
def conjugateTensor (t : Nd Expr) : Nd Expr := t.map S.conj

/-- One pass of the inner loop of `_convolve_ftensors`, fformgen.py:105-111. -/
def convolveStep (A B : FTensor) (M : ℕ) (n : ℤ) (acc : Nd Expr) (m : ℤ) : Except Err (Nd Expr) :=
  match (do
    let a ← pyGet A (n2i m M)
    let b ← pyGet B (n2i (n - m) M)
    tensorProduct (exprOps S) [a, b]) with
  | .ok p => .ok (ndAdd S acc p)
  | .error .indexError => .ok acc
  | .error e => .error e

/-- `_convolve_ftensors`, fformgen.py:100-112.  The assignments for different `n` concern different elements of
`ans`. -/
def convolveFtensors (A B : FTensor) (M : ℕ := 16) : Except Err FTensor := do
  let a ← pyGet A 0
  let b ← pyGet B 0
  let test ← tensorProduct (exprOps S) [a, b]
  (freqs M).mapM (fun n => (freqs M).foldlM (convolveStep S A B M n) (zerosNd test.shape))

/-- An array of zeros except for one frequency, fformgen.py:197-204, 230-231 and 239-240. -/
def onlyZeroFreq (M : ℕ) (t : Nd Expr) : Except Err FTensor :=
  ftSet (List.replicate (2 * M + 1) (zerosNd t.shape)) (n2i 0 M) t

/-- `0.5`. -/
def half : Expr := .num (1 / 2)
/-- `0.5j`. -/
def halfI : Expr := .mul [.num (1 / 2), .I]
/-- `-0.5j`. -/
def negHalfI : Expr := .mul [.num (-1 / 2), .I]

/-- A 3×3 array from its rows. -/
def mat3 (rows : List (List Expr)) : Nd Expr :=
  ⟨[3, 3], fun idx => (rows.getD (idx.getD 0 0) []).getD (idx.getD 1 0) (.num 0)⟩

/-- `rR`, fformgen.py:205-229. -/
def rRArr (M : ℕ) : Except Err FTensor := do
  let a := List.replicate (2 * M + 1) (zerosNd [3, 3])
  let a ← ftSet a (n2i (-1) M) (mat3 [[half, negHalfI, .num 0], [halfI, half, .num 0], [.num 0, .num 0, .num 0]])
  let a ← ftSet a (n2i 0 M) (mat3 [[.num 0, .num 0, .num 0], [.num 0, .num 0, .num 0], [.num 0, .num 0, .num 1]])
  ftSet a (n2i 1 M) (mat3 [[half, halfI, .num 0], [negHalfI, half, .num 0], [.num 0, .num 0, .num 0]])

/-- `proj = Id - tensor_product(k_out, k_out)`, fformgen.py:185. -/
def projArr (kout : Nd Expr) : Except Err (Nd Expr) := do
  let p ← tensorProduct (exprOps S) [kout, kout]
  return ⟨p.shape, fun idx => S.sub (.num (if idx.getD 0 0 = idx.getD 1 0 then 1 else 0)) (p.get idx)⟩

/-- `a[i]` for an array of rank at least one. -/
def ndRow (a : Nd Expr) (i : ℕ) : Nd Expr := ⟨a.shape.drop 1, fun idx => a.get (i :: idx)⟩

/-- `np.array([a, b, c])` for three arrays of the same shape. -/
def stack3 (a b c : Nd Expr) : Nd Expr :=
  ⟨3 :: a.shape, fun idx => ([a, b, c].getD (idx.getD 0 0) a).get (idx.drop 1)⟩

/-- `np.array([f(arr[n2i(m, M)]) for m in np.arange(-M, M+1)])`. -/
def mapFreqs (M : ℕ) (f : Nd Expr → Except Err (Nd Expr)) (A : FTensor) : Except Err FTensor :=
  (freqs M).mapM (fun m => do
    let a ← pyGet A (n2i m M)
    f a)

/-- `np.array([np.array([a[n2i(m,M)], b[n2i(m,M)], c[n2i(m,M)]]) for m in np.arange(-M, M+1)])`, fformgen.py:247-258. -/
def stackFreqs (M : ℕ) (A B C : FTensor) : Except Err FTensor :=
  (freqs M).mapM (fun m => do
    let a ← pyGet A (n2i m M)
    let b ← pyGet B (n2i m M)
    let c ← pyGet C (n2i m M)
    return stack3 a b c)

/-- `c * A`. -/
def scaleFreqs (c : Expr) (A : FTensor) : FTensor := A.map (ndScale S c)

/-- The body of the loop over `r1`, fformgen.py:275-322: `h7`, `h9`, `-1*h9` and `h10`. -/
def uncontractedTerms (M : ℕ) (r1 rR rF rkin : FTensor) : Except Err (List FTensor) := do
  let h1 ← mapFreqs M (fun t => tensorContract (exprOps S) t [[1, 2]]) r1
  let r2 ← convolveFtensors S h1 h1
  let h2 ← mapFreqs M (fun t => tensorContract (exprOps S) t [[0, 2]]) r2
  let r3 ← convolveFtensors S rR rF
  let h3 ← mapFreqs M (fun t => tensorContract (exprOps S) t [[0, 2]]) r3
  let h4 ← convolveFtensors S h2 h3
  let h5 ← convolveFtensors S h4 h3
  let h6 ← convolveFtensors S h5 h3
  let h7 ← convolveFtensors S h6 h3
  let r4 ← convolveFtensors S rR (scaleFreqs S (.mul [.num (-1), .I]) rkin)
  let h8 ← mapFreqs M (fun t => tensorContract (exprOps S) t [[0, 2]]) r4
  let h9 ← convolveFtensors S h7 h8
  let h10 ← convolveFtensors S h9 (scaleFreqs S (.num (-1)) h8)
  return [h7, h9, scaleFreqs S (.num (-1)) h9, h10]

/-- `F`, fformgen.py:173. -/
def fieldSymbols : Nd Expr := vec3 (.sym FxSym) (.sym FySym) (.sym FzSym)

/-- Lines 185-322 (and 428-565): the four terms for `P` output and for `S` output. -/
def uncontractedBoth (M : ℕ) (kout kin : Nd Expr) : Except Err (List FTensor × List FTensor) := do
  let proj ← projArr S kout
  let rprojx ← onlyZeroFreq M (ndRow proj 0)
  let rprojy ← onlyZeroFreq M (ndRow proj 1)
  let rprojz ← onlyZeroFreq M (ndRow proj 2)
  let rR ← rRArr M
  let rF ← onlyZeroFreq M fieldSymbols
  let r1x ← convolveFtensors S rprojx rR
  let r1y ← convolveFtensors S rprojy rR
  let r1z ← convolveFtensors S rprojz rR
  let rkin ← onlyZeroFreq M kin
  let r10 := r1x.map (fun t => zerosNd t.shape)
  let r1s ← stackFreqs M r10 r1y r10
  let r1p ← stackFreqs M r1x r10 r1z
  let p ← uncontractedTerms S M r1p rR rF rkin
  let s ← uncontractedTerms S M r1s rR rF rkin
  return (p, s)

/-- The files written by `np.save`, by name. -/
abbrev NpFiles := Key → Option (List FTensor)

/-- `np.save(name, a)`, which adds the extension `.npy`. -/
def npSave (fs : NpFiles) (name : Key) (a : List FTensor) : NpFiles :=
  fun n => if n = name ++ ['.', 'n', 'p', 'y'] then some a else fs n

/-- Substitution of the field into all terms, fformgen.py:333-340 and the three blocks after it. -/
def substTerms (fx fy fz : Expr) (terms : List FTensor) : List FTensor :=
  terms.map (fun A => A.map (substituteIntoArray S [(FxSym, fx), (FySym, fy), (FzSym, fz)]))

/-- Lines 329-388 (and 572-631): the four files.  `c` and `s` are the cosine and the sine of the angle of incidence. -/
def saveUncontracted (fs : NpFiles) (pre : Key) (c s : Expr) (t : List FTensor × List FTensor) : NpFiles :=
  let fs := npSave fs (pre ++ ['_', 'p', 'p']) (substTerms S c (.num 0) s t.1)
  let fs := npSave fs (pre ++ ['_', 'p', 's']) (substTerms S c (.num 0) s t.2)
  let fs := npSave fs (pre ++ ['_', 's', 'p']) (substTerms S (.num 0) (.num (-1)) (.num 0) t.1)
  npSave fs (pre ++ ['_', 's', 's']) (substTerms S (.num 0) (.num (-1)) (.num 0) t.2)

/-- `[-sp.sin(S.theta), 0, -sp.cos(S.theta)]`, fformgen.py:178 and 426. -/
def koutSym : Nd Expr := vec3 (S.neg (S.sin (.sym thetaSym))) (.num 0) (S.neg (S.cos (.sym thetaSym)))
/-- `[-sp.sin(S.theta), 0, sp.cos(S.theta)]`, fformgen.py:182 and 427. -/
def kinSym : Nd Expr := vec3 (S.neg (S.sin (.sym thetaSym))) (.num 0) (S.cos (.sym thetaSym))

/-- `generate_uncontracted_fourier_transforms(aoi, prefix, M)`, fformgen.py:138-388: the files afterwards.  `aoi` is a
number. -/
def generateUncontracted (fs : NpFiles) (aoi : ℚ) (pre : Key) (M : ℕ) : Except Err NpFiles := do
  let kout := substituteIntoArray S [(thetaSym, .num aoi)] (koutSym S)
  let kin := substituteIntoArray S [(thetaSym, .num aoi)] (kinSym S)
  let t ← uncontractedBoth S M kout kin
  return saveUncontracted S fs pre (.cos (.num aoi)) (.sin (.num aoi)) t

/-- `generate_uncontracted_fourier_transforms_symb(prefix, M)`, fformgen.py:391-631. -/
def generateUncontractedSymb (fs : NpFiles) (pre : Key) (M : ℕ) : Except Err NpFiles := do
  let t ← uncontractedBoth S M (koutSym S) (kinSym S)
  return saveUncontracted S fs pre (S.cos (.sym thetaSym)) (S.sin (.sym thetaSym)) t

/-- `contraction_lists_1`, fformgen.py:699-702. -/
def contractionLists1 : List (List (List ℤ)) :=
  [[[0, 6], [2, 7], [3, 8]], [[0, 7], [2, 8], [3, 9]], [[0, 7], [2, 9], [3, 10], [6, 8]],
    [[0, 8], [2, 10], [3, 11], [6, 9]]]

/-- `contraction_lists_2`, fformgen.py:703-706. -/
def contractionLists2 : List (List (List ℤ)) :=
  [[[0, 3], [1, 4], [2, 5]], [[0, 4], [1, 6], [2, 7], [3, 5]], [[0, 3], [1, 4], [2, 5]],
    [[0, 4], [1, 6], [2, 7], [3, 5]]]

/-- One term of the contraction, fformgen.py:729-752.  The result of a full contraction is a number. -/
def contractTerm (M : ℕ) (h : FTensor) (chi1 chi2 : Nd Expr) (l1 l2 : List (List ℤ)) : Except Err (List Expr) := do
  let t8 ← mapFreqs M (fun t => contractProduct (exprOps S) [t, chi1] l1) h
  let t9 ← mapFreqs M (fun t => contractProduct (exprOps S) [t, chi2] l2) t8
  return t9.map (fun t => t.get [])

/-- The loop over the terms of one polarization combination, fformgen.py:727-754.  There are four terms. -/
def contractAll (M : ℕ) (h7 : List FTensor) (chiD chiQ : Nd Expr) : Except Err (List Expr) :=
  (List.range h7.length).foldlM (fun acc (term : ℕ) => do
    let h ← pyGet h7 term
    let chi1 ← pyGet [chiD, chiD, chiQ, chiQ] term
    let chi2 ← pyGet [conjugateTensor S chiD, conjugateTensor S chiQ, conjugateTensor S chiD, conjugateTensor S chiQ] term
    let l1 ← pyGet contractionLists1 term
    let l2 ← pyGet contractionLists2 term
    let t9 ← contractTerm S M h chi1 chi2 l1 l2
    return List.zipWith S.add acc t9) (List.replicate (2 * M + 1) (.num 0))

/-- `pc.lower()` for the four combinations. -/
def lowerPc : List (Key × Key) :=
  [(['P', 'P'], ['p', 'p']), (['P', 'S'], ['p', 's']), (['S', 'P'], ['s', 'p']), (['S', 'S'], ['s', 's'])]

/-- `_load_pickle(prefix + '_' + pc.lower() + '.npy')`, fformgen.py:115-116 and 695. -/
def npLoad (fs : NpFiles) (pre lower : Key) : Except Err (List FTensor) :=
  match fs (pre ++ ['_'] ++ lower ++ ['.', 'n', 'p', 'y']) with
  | some a => .ok a
  | none => .error .fileNotFoundError

/-- The dictionary `_fform_dict` of `generate_contracted_fourier_transforms`, fformgen.py:685-757. -/
def contractedFform (nfs : NpFiles) (pre : Key) (chiD chiQ : Nd Expr) (M : ℕ) : Except Err (Dict Key (List Expr)) := do
  assertRealParams chiD
  assertRealParams chiQ
  let terms ← lowerPc.mapM (fun pc => do
    let a ← npLoad nfs pre pc.2
    return (pc.1, a))
  terms.mapM (fun pc => do
    let v ← contractAll S M pc.2 chiD chiQ
    return (pc.1, v))

/-- `generate_contracted_fourier_transforms` (with `ndigits=None`), fformgen.py:640-759, with `_save_fform_dict`,
fformgen.py:119-125. -/
def generateContracted (R : Repr) (fs : Files) (nfs : NpFiles) (save pre : Key) (chiD chiQ : Nd Expr) (M : ℕ) :
    Except Err Files := do
  let d ← contractedFform S nfs pre chiD chiQ M
  return fun n => if n = save then some (d.mapVals (fun v => v.map (fun e => R.srepr (.sy e)))) else fs n

end

end Shgpy
