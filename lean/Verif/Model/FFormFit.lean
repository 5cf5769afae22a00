import Verif.Model.Formgen
import Verif.Model.FData
import Mathlib.Data.Nat.Digits.Defs

/-!
# Model of `shgpy/fformfit.py`: cost functions, model functions and their files

Generating C code, compiling it and loading the library is a parameter (`Compiler`): of the function that results from an
expression it is only assumed that it computes the value of the expression, in exact arithmetic, when the arguments are the
ones it expects.  A C function with return type `double` that computes a complex number returns its real part.  The text of the C
code is in `Model/CText.lean`; that the assumption holds for expressions with powers, cosines and sines of real quantities only is C112.

The code is evaluated at real arguments only, so `sp.conjugate` of a symbol is the symbol (`Expr.conj`), also for symbols
without the assumption of being real.  Logging, timing and `multiprocessing=True` (which loads the library again on every
call) are not modelled.  Directories other than a folder of model functions exist whenever a file is written to them.
-/

namespace Shgpy

/-- `xs[i]` for `xs = sp.MatrixSymbol('xs', n, 1)`. -/
def xsElem (i : ℕ) : Sym := ⟨['x', 's'], i + 2⟩

mutual
/-- `expr.xreplace(mapping)` for a mapping of symbols to symbols: all replacements at once. -/
def Expr.xreplace (mapping : Dict Sym Sym) : Expr → Expr
  | .num q => .num q
  | .I => .I
  | .sym s => .sym ((Dict.get? mapping s).getD s)
  | .add l => .add (Expr.xreplaceL mapping l)
  | .mul l => .mul (Expr.xreplaceL mapping l)
  | .pow b n => .pow (Expr.xreplace mapping b) n
  | .cos e => .cos (Expr.xreplace mapping e)
  | .sin e => .sin (Expr.xreplace mapping e)
/-- Replacement in a list of arguments. -/
def Expr.xreplaceL (mapping : Dict Sym Sym) : List Expr → List Expr
  | [] => []
  | e :: r => Expr.xreplace mapping e :: Expr.xreplaceL mapping r
end

open Classical in
/-- `sp.sympify(z)` of a complex float.  The floats are rational numbers; the model gives no meaning to other numbers. -/
noncomputable def floatExpr (S : Sympy) (z : ℂ) : Expr :=
  if h : ∃ q : ℚ × ℚ, z = (q.1 : ℂ) + (q.2 : ℂ) * Complex.I then
    (PyObj.native h.choose.1 h.choose.2).sympify S
  else .num 0

/-- `mapping = {fs:xs[i] for i, fs in enumerate(free_symbols)}`, fformfit.py:90, 112, 140.  (The entry `sp.I: 1j` replaces
the imaginary unit by itself.) -/
def xsMapping (symbols : List Sym) : Dict Sym Sym :=
  Dict.ofPairs (symbols.zipIdx.map (fun p => (p.1, xsElem p.2)))

section
variable (S : Sympy)

/-- `if free_symbols is None: free_symbols = fform.get_free_symbols()`, fformfit.py:84-85, 106-107, 135-136. -/
def argumentSymbols (fform : FFormContainer) : Option (List Sym) → Except Err (List Sym)
  | none => fform.getFreeSymbols S
  | some l => .ok l

/-- One term of the cost, fformfit.py:96-97, 118-121. -/
noncomputable def energyTerm (fform : FFormContainer) (fdat : FDataContainer) (mapping : Dict Sym Sym) (k : Key) (m : ℤ) :
    Except Err Expr := do
  let a ← fform.getPc k
  let o ← pyGet a.objs (n2i m fform.getM)
  let v ← fdat.getPc k
  let z ← pyGet v (n2i m fform.getM)
  let expr0 := S.sub (o.sympify S) (floatExpr S z)
  return S.norm ((S.mul expr0 (S.conj expr0)).xreplace mapping)

/-- `_make_energy_expr`, fformfit.py:82-101. -/
noncomputable def energyExpr (fform : FFormContainer) (fdat : FDataContainer) (symbols : Option (List Sym)) :
    Except Err Expr := do
  let symbols ← argumentSymbols S fform symbols
  fform.getKeys.foldlM (fun acc k =>
    (freqs fform.getM).foldlM (fun acc m => do
      let t ← energyTerm S fform fdat (xsMapping symbols) k m
      return S.add acc t) acc) (.num 0)

/-- `_make_energy_expr_list`, fformfit.py:104-125. -/
noncomputable def energyExprList (fform : FFormContainer) (fdat : FDataContainer) (symbols : Option (List Sym)) :
    Except Err (List Expr) := do
  let symbols ← argumentSymbols S fform symbols
  let l ← fform.getKeys.mapM (fun k =>
    (freqs fform.getM).mapM (fun m => energyTerm S fform fdat (xsMapping symbols) k m))
  return l.flatten

mutual
/-- The derivative of an expression with respect to a symbol. -/
def Expr.diff (s : Sym) : Expr → Expr
  | .num _ => .num 0
  | .I => .num 0
  | .sym t => if t = s then .num 1 else .num 0
  | .add l => .add (Expr.diffSum s l)
  | .mul l => Expr.diffProd s l
  | .pow b n => .mul [.num n, .pow b (n - 1), Expr.diff s b]
  | .cos e => .mul [.num (-1), .sin e, Expr.diff s e]
  | .sin e => .mul [.cos e, Expr.diff s e]
/-- The derivatives of the terms of a sum. -/
def Expr.diffSum (s : Sym) : List Expr → List Expr
  | [] => []
  | e :: r => Expr.diff s e :: Expr.diffSum s r
/-- The derivative of a product. -/
def Expr.diffProd (s : Sym) : List Expr → Expr
  | [] => .num 0
  | e :: r => .add [.mul (Expr.diff s e :: r), .mul [e, Expr.diffProd s r]]
end

/-- `_make_denergy_expr`, fformfit.py:128-131: the matrix symbol `xs` is found among the free symbols of the cost
(`IndexError` if there is none) and `n` is its length.  Only for formulas in symbols with the assumption of being real: sympy
does not differentiate the conjugate of any other symbol. -/
def denergyExpr (n : ℕ) (energy : Expr) : Except Err (List Expr) :=
  if energy.free = [] then .error .indexError
  else .ok ((List.range n).map (fun i => S.norm (energy.diff (xsElem i))))

/-- The two components, fformfit.py:176, 320. -/
inductive Part
  | real
  | imag
  deriving DecidableEq

/-- The name of a component. -/
def Part.name : Part → Key
  | .real => ['r', 'e', 'a', 'l']
  | .imag => ['i', 'm', 'a', 'g']

/-- `sp.re(e)` and `sp.im(e)`, for formulas in symbols with the assumption of being real (the C code for other formulas does
not compile). -/
def Part.of (e : Expr) : Part → Expr
  | .real => S.norm (.mul [.num (1 / 2), .add [e, e.conj]])
  | .imag => S.norm (.mul [.num (-1 / 2), .I, .add [e, .mul [.num (-1), e.conj]]])

/-- `_make_model_expr`, fformfit.py:134-150. -/
def modelExpr (fform : FFormContainer) (pc : Key) (m : ℤ) (part : Part) (symbols : Option (List Sym)) : Except Err Expr := do
  let symbols ← argumentSymbols S fform symbols
  let a ← fform.getPc pc
  let o ← pyGet a.objs (n2i m fform.getM)
  return S.norm ((part.of S (o.sympify S)).xreplace (xsMapping symbols))

end

/-- The inner loop of `_split`, fformfit.py:48-52: up to `num` elements from position `start` on. -/
def splitChunk {α : Type} (a : List α) (start : ℕ) : ℕ → List α
  | 0 => []
  | num + 1 =>
      match a[start]? with
      | some v => v :: splitChunk a (start + 1) num
      | none => []

/-- `_split`, fformfit.py:44-54: `ceil(len(a)/num_per)` chunks, none if that number is negative. -/
def split {α : Type} (a : List α) (numPer : ℤ) : Except Err (List (List α)) :=
  if numPer = 0 then .error .zeroDivisionError
  else if numPer < 0 then .ok []
  else .ok ((List.range ((a.length + numPer.toNat - 1) / numPer.toNat)).map (fun n =>
    splitChunk a (n * numPer.toNat) numPer.toNat))

/-- `_split_expr`, fformfit.py:57-62. -/
def splitExpr (e : Expr) (numPer : ℤ) : Except Err (List Expr) :=
  match e with
  | .add l => do
      let chunks ← split l numPer
      return chunks.map .add
  | e => .ok [e]

/-! ## Compiled functions and files -/

/-- The Python function around a compiled function. -/
abbrev CFunc := List ℝ → ℝ

/-- The values of the elements of `xs` when the arguments are `x`. -/
noncomputable def xsVal (x : List ℝ) : Sym → ℂ := fun s => if s.name = ['x', 's'] then ((x.getD (s.tag - 2) 0 : ℝ) : ℂ) else 0

/-- What the model assumes of code generation, compilation and loading. -/
structure Compiler where
  run : Expr → CFunc
  spec : ∀ e x, (∀ s ∈ e.free, ∃ i, i < x.length ∧ s = xsElem i) → run e x = (e.eval (xsVal x)).re

/-- A file: a shared library with a function `autofunc`, or something else. -/
abbrev Content := Option CFunc

/-- The file system as far as the module uses it, and the libraries that the process has loaded: the dynamic loader returns
the library it has already loaded when it is asked for the same path again. -/
structure Disk where
  files : Dict Key Content
  folders : Dict Key (Dict Key Content)
  loaded : Dict Key CFunc

/-- `shutil.copy(so_path, save_filename)` after removing an existing file, fformfit.py:373-376, 444-447. -/
def Disk.save (d : Disk) (f : CFunc) : Option Key → Disk
  | none => d
  | some name => { d with files := Dict.set d.files name (some f) }

/-- `ctypes.PyDLL(path)` of a file with the given content, fformfit.py:492, 499.  A name without a slash is looked up among the
system's libraries and not in the current directory (a `Path` is made absolute before). -/
def Disk.dlopen (d : Disk) (path : Key) (content : Option Content) : Except Err (CFunc × Disk) :=
  if '/' ∉ path then .error .osError else
  match Dict.get? d.loaded path with
  | some f => .ok (f, d)
  | none =>
      match content with
      | some (some f) => .ok (f, { d with loaded := Dict.set d.loaded path f })
      | _ => .error .osError

/-- `load_func`, fformfit.py:467-469, and `_load_func`, fformfit.py:472-501. -/
def loadFunc (d : Disk) (name : Key) : Except Err (CFunc × Disk) := d.dlopen name (Dict.get? d.files name)

section
variable (S : Sympy) (C : Compiler)

/-- `_fixed_autowrap`, fformfit.py:330-382 (and `_make_energy_func_auto`, 456-464, which calls it): the library is loaded from a new temporary directory. -/
def fixedAutowrap (d : Disk) (e : Expr) (save : Option Key) : CFunc × Disk := (C.run e, d.save (C.run e) save)

/-- `_make_energy_func_chunked`, fformfit.py:385-453: the C function `expr0(xs)+expr1(xs)+...`; the code for an empty list
does not compile. -/
def energyFuncChunked (d : Disk) (l : List Expr) (save : Option Key) : Except Err (CFunc × Disk) :=
  match l with
  | [] => .error (if save.isSome then .fileNotFoundError else .osError)
  | e :: r =>
      let f : CFunc := fun x => r.foldl (fun acc e => acc + C.run e x) (C.run e x)
      .ok (f, d.save f save)

/-- `_make_energy_func_wrapper`, fformfit.py:504-534, and `gen_cost_func`, fformfit.py:537-568. -/
noncomputable def genCostFunc (d : Disk) (fform : FFormContainer) (fdat : FDataContainer) (arguments : Option (List Sym))
    (chunk : Bool) (save : Option Key) : Except Err (CFunc × Disk) := do
  if chunk then
    let l ← energyExprList S fform fdat arguments
    energyFuncChunked C d l save
  else
    let e ← energyExpr S fform fdat arguments
    return fixedAutowrap C d e save

/-- `str(i)` for a non-negative integer. -/
def natStr (i : ℕ) : Key := if i = 0 then ['0'] else (Nat.digits 10 i).reverse.map Nat.digitChar

/-- `str(m)` for an integer. -/
def intStr (m : ℤ) : Key := if m < 0 then '-' :: natStr m.natAbs else natStr m.natAbs

/-- `prefix+str(i)+'.so'`, fformfit.py:578, 616. -/
def gradName (pre : Key) (i : ℕ) : Key := pre ++ natStr i ++ ['.', 's', 'o']

/-- `_make_denergy_func_auto`, fformfit.py:571-580. -/
def denergyFuncs (save : Option Key) : List Expr → ℕ → Disk → List CFunc × Disk
  | [], _, d => ([], d)
  | e :: r, i, d =>
      let (f, d) := fixedAutowrap C d e (save.map (fun p => gradName p i))
      let (fs, d) := denergyFuncs save r (i + 1) d
      (f :: fs, d)

/-- The function with its gradient, `lambda x: (f_energy(x), df_energy(x))`. -/
abbrev CGrad := List ℝ → ℝ × List ℝ

/-- `_make_energy_and_denergy_func_wrapper`, fformfit.py:583-603. -/
noncomputable def energyAndDenergy (d : Disk) (fform : FFormContainer) (fdat : FDataContainer) (symbols : List Sym)
    (chunk : Bool) (save gradSave : Option Key) : Except Err (CGrad × Disk) := do
  if chunk then throw .notImplementedError
  let e ← energyExpr S fform fdat (some symbols)
  let de ← denergyExpr S symbols.length e
  let (f, d) := fixedAutowrap C d e save
  let (fs, d) := denergyFuncs C gradSave de 0 d
  return (fun x => (f x, fs.map (fun g => g x)), d)

/-- The loop of `_load_energy_and_denergy_func`, fformfit.py:615-627: load the files with the numbers `i`, `i + 1`, ... while
they exist.  The loop ends because the files are finitely many (`fuel`). -/
def loadGrads (pre : Key) : ℕ → ℕ → Disk → Except Err (List CFunc × Disk)
  | 0, _, d => .ok ([], d)
  | fuel + 1, i, d =>
      match Dict.get? d.files (gradName pre i) with
      | none => .ok ([], d)
      | some _ => do
          let (f, d) ← loadFunc d (gradName pre i)
          let (fs, d) ← loadGrads pre fuel (i + 1) d
          return (f :: fs, d)

/-- `_load_energy_and_denergy_func`, fformfit.py:606-630. -/
def loadEnergyAndDenergy (d : Disk) (name pre : Key) : Except Err (CGrad × Disk) := do
  let (f, d) ← loadFunc d name
  let (fs, d) ← loadGrads pre (d.files.length + 1) 0 d
  return (fun x => (f x, fs.map (fun g => g x)), d)

/-! ## Model functions -/

/-- `'_'.join((k, str(m), component))`. -/
def partName (k : Key) (m : ℤ) (part : Part) : Key := k ++ '_' :: intStr m ++ '_' :: part.name

/-- `'_'.join((k, str(m), component, str(ei))) + '.so'`, fformfit.py:189, 209. -/
def chunkName (k : Key) (m : ℤ) (part : Part) (i : ℕ) : Key := partName k m part ++ '_' :: natStr i ++ ['.', 's', 'o']

/-- `cost_func_dict`: the functions for a combination, a frequency and a component (nested dictionaries in the code). -/
abbrev FuncDict := Dict (Key × ℤ × Part) (List CFunc)

/-- The loop variables of fformfit.py:172-176 and 316-320. -/
def funcKeys (fform : FFormContainer) : List (Key × ℤ × Part) :=
  fform.getKeys.flatMap (fun k => (freqs fform.getM).flatMap (fun m => [(k, m, .real), (k, m, .imag)]))

/-- The functions of one component and their files, fformfit.py:178-230. -/
def modelFuncs (fform : FFormContainer) (symbols : Option (List Sym)) (numPer : ℤ) (key : Key × ℤ × Part) :
    Except Err (List (Key × CFunc)) := do
  let e ← modelExpr S fform key.1 key.2.1 key.2.2 symbols
  let chunks ← splitExpr e numPer
  return chunks.zipIdx.map (fun p => (chunkName key.1 key.2.1 key.2.2 p.2, C.run p.1))

/-- `_fixed_autowrap_model`, fformfit.py:153-232: the folder is removed and made again before anything else.  Returns the
dictionary and the new content of the folder. -/
def fixedAutowrapModel (fform : FFormContainer) (symbols : Option (List Sym)) (numPer : ℤ) :
    Except Err (FuncDict × Dict Key Content) := do
  let l ← (funcKeys fform).mapM (fun key => do
    let fs ← modelFuncs S C fform symbols numPer key
    return (key, fs))
  return (Dict.ofPairs (l.map (fun p => (p.1, p.2.map Prod.snd))),
    Dict.ofPairs ((l.flatMap Prod.snd).map (fun p => (p.1, some p.2))))

/-- The inner function `model_func`, fformfit.py:266-275, 298-307. -/
noncomputable def modelFunc (fd : FuncDict) (x : List ℝ) (pc : Key) (m : ℤ) : Except Err ℂ := do
  let re ← Dict.get fd (pc, m, .real)
  let im ← Dict.get fd (pc, m, .imag)
  return (re.map (fun v => ((v x : ℝ) : ℂ))).sum + (im.map (fun v => Complex.I * ((v x : ℝ) : ℂ))).sum

/-- `gen_model_func`, fformfit.py:235-277. -/
noncomputable def genModelFunc (d : Disk) (fform : FFormContainer) (folder : Key) (numPer : ℤ) :
    Except Err ((List ℝ → Key → ℤ → Except Err ℂ) × Disk) := do
  let (fd, content) ← fixedAutowrapModel S C fform none numPer
  return (modelFunc fd, { d with folders := Dict.set d.folders folder content })

/-- `fnmatch` for patterns with `*` and `?` (character sets are not modelled). -/
def globMatch : List Char → List Char → Bool
  | [], [] => true
  | [], _ :: _ => false
  | p :: ps, [] => p == '*' && globMatch ps []
  | p :: ps, c :: cs =>
      if p = '*' then globMatch ps (c :: cs) || globMatch (p :: ps) cs
      else if p = '?' then globMatch ps cs
      else p == c && globMatch ps cs
  termination_by p s => p.length + s.length

/-- The order in which a directory is listed. -/
structure Listing where
  order : Dict Key Content → Dict Key Content
  perm : ∀ d, (order d).Perm d

/-- The files of one component, fformfit.py:322-326. -/
def loadPart (L : Listing) (folder : Key) (content : Dict Key Content) (key : Key × ℤ × Part) (d : Disk) :
    Except Err (List CFunc × Disk) :=
  ((L.order content).filter (fun p => globMatch (partName key.1 key.2.1 key.2.2 ++ ['*', '.', 's', 'o']) p.1)).foldlM
    (fun acc p => do
      let (f, d) ← acc.2.dlopen (folder ++ '/' :: p.1) (some p.2)
      return (acc.1 ++ [f], d)) ([], d)

/-- `_load_func_dict`, fformfit.py:312-327: a folder that does not exist has no files. -/
def loadFuncDict (L : Listing) (d : Disk) (fform : FFormContainer) (folder : Key) : Except Err (FuncDict × Disk) :=
  (funcKeys fform).foldlM (fun acc key => do
    let (fs, d) ← loadPart L folder ((Dict.get? d.folders folder).getD []) key acc.2
    return (Dict.set acc.1 key fs, d)) ([], d)

/-- `load_model_func`, fformfit.py:280-309. -/
noncomputable def loadModelFunc (L : Listing) (d : Disk) (fform : FFormContainer) (folder : Key) :
    Except Err ((List ℝ → Key → ℤ → Except Err ℂ) × Disk) := do
  let (fd, d) ← loadFuncDict L d fform folder
  return (modelFunc fd, d)

end

/-! ## Fitting -/

/-- The value of an option: the bounds, `None`, or anything else. -/
inductive OptVal
  | bounds (b : List (ℝ × ℝ))
  | none
  | other (n : ℕ)

/-- The value of an entry of `basinhopping_kwargs` or `least_sq_kwargs`: a dictionary or anything else. -/
inductive Kwarg
  | dict (d : Dict Key OptVal)
  | other (n : ℕ)

/-- The dictionary of options of the caller. -/
abbrev Kwargs := Dict Key Kwarg

/-- What a call of an optimizer reports: `ret.x` and whether `ret` stems from the optimizer (`_check_fform` makes one of its
own); the other attributes are not modelled. -/
structure OptResult where
  x : List ℝ
  xdict : Dict Sym ℝ
  optimized : Bool

/-- The state that a fitting routine may change: the files and the caller's dictionary of options. -/
structure FitState where
  disk : Disk
  kwargs : Kwargs

open DataContainer (Meth liftE)

/-- `_check_fform`, fformfit.py:65-79. -/
def emptyResult : OptResult := ⟨[], [], false⟩

/-- `ret.xdict = {k:ret.x[i] for i,k in enumerate(free_symbols)}`, fformfit.py:700 and so on. -/
def xdictOf (symbols : List Sym) (x : List ℝ) : Except Err (Dict Sym ℝ) := do
  let l ← symbols.zipIdx.mapM (fun p => do
    let v ← pyGet x p.2
    return (p.1, v))
  return Dict.ofPairs l

/-- Adding the attributes to the result of the optimizer. -/
def finish (symbols : List Sym) (x : List ℝ) : Except Err OptResult := do
  let xdict ← xdictOf symbols x
  return ⟨x, xdict, true⟩

/-- A function that changes the files, as a step of a fitting routine. -/
def onDisk {α : Type} (f : Disk → Except Err (α × Disk)) : Meth FitState α := do
  let st ← get
  let (a, d) ← liftE (f st.disk)
  set { st with disk := d }
  return a

/-- A call of `scipy.optimize.least_squares`. -/
structure LSCall where
  func : List ℝ → ℝ
  x0 : List ℝ
  bounds : Option (List ℝ × List ℝ)
  kwargs : Kwargs

/-- A call of `scipy.optimize.basinhopping`; `func` gives the value, or the value and the gradient. -/
structure BHCall where
  func : (List ℝ → ℝ) ⊕ (List ℝ → ℝ × List ℝ)
  x0 : List ℝ
  minimizer : Dict Key OptVal
  niter : ℕ
  stepsize : ℝ
  kwargs : Kwargs

/-- A call of `scipy.optimize.dual_annealing`; the options that are only passed on are numbered together. -/
structure DACall where
  func : List ℝ → ℝ
  bounds : Option (List (ℝ × ℝ))
  x0 : List ℝ
  options : ℕ

/-- An optimizer: any function from calls to points. -/
abbrev Optimizer (γ : Type) := γ → Except Err (List ℝ)

section
variable (S : Sympy) (C : Compiler)

/-- The cost function of a fit, fformfit.py:678-689 and so on. -/
noncomputable def fitCost (fform : FFormContainer) (fdat : FDataContainer) (symbols : List Sym) (chunk : Bool)
    (save load : Option Key) : Meth FitState CFunc :=
  match load with
  | some name => onDisk (fun d => loadFunc d name)
  | none => onDisk (fun d => genCostFunc S C d fform fdat (some symbols) chunk save)

/-- The cost function with its gradient, fformfit.py:1062-1077, 1183-1198. -/
noncomputable def fitCostGrad (fform : FFormContainer) (fdat : FDataContainer) (symbols : List Sym) (chunk : Bool)
    (save gradSave load gradLoad : Option Key) : Meth FitState CGrad :=
  match load, gradLoad with
  | some name, some pre => onDisk (fun d => loadEnergyAndDenergy d name pre)
  | _, _ => onDisk (fun d => energyAndDenergy S C d fform fdat symbols chunk save gradSave)

/-- `[d[k] for k in free_symbols]`. -/
def inOrder {α : Type} (symbols : List Sym) (d : Dict Sym α) : Except Err (List α) := symbols.mapM (fun k => Dict.get d k)

/-- The names of the arguments that a routine passes itself and that `**kwargs` may not repeat. -/
def checkKwargs (kwargs : Kwargs) (own : List Key) : Except Err Unit :=
  if own.any (fun k => (Dict.get? kwargs k).isSome) then .error .typeError else .ok ()

/-- `'fun'`. -/
def sFun : Key := ['f', 'u', 'n']
/-- `'func'`. -/
def sFunc : Key := ['f', 'u', 'n', 'c']
/-- `'x0'`. -/
def sX0 : Key := ['x', '0']
/-- `'bounds'`. -/
def sBounds : Key := ['b', 'o', 'u', 'n', 'd', 's']
/-- `'niter'`. -/
def sNiter : Key := ['n', 'i', 't', 'e', 'r']
/-- `'stepsize'`. -/
def sStepsize : Key := ['s', 't', 'e', 'p', 's', 'i', 'z', 'e']
/-- `'method'`. -/
def sMethod : Key := ['m', 'e', 't', 'h', 'o', 'd']
/-- `'args'`. -/
def sArgs : Key := ['a', 'r', 'g', 's']
/-- `'jac'`. -/
def sJac : Key := ['j', 'a', 'c']
/-- `'minimizer_kwargs'`. -/
def sMinimizer : Key := ['m', 'i', 'n', 'i', 'm', 'i', 'z', 'e', 'r', '_', 'k', 'w', 'a', 'r', 'g', 's']

/-- `least_squares_fit`, fformfit.py:633-704, and, with a dictionary of bounds, `least_squares_fit_with_bounds`,
fformfit.py:707-787. -/
noncomputable def leastSquaresFit (opt : Optimizer LSCall) (fform : FFormContainer) (fdat : FDataContainer)
    (guess : Dict Sym ℝ) (boundsDict : Option (Dict Sym (ℝ × ℝ))) (chunk : Bool) (save load : Option Key) :
    Meth FitState OptResult := do
  let symbols ← liftE (fform.getFreeSymbols S)
  if symbols = [] then return emptyResult
  let f ← fitCost S C fform fdat symbols chunk save load
  let x0 ← liftE (inOrder symbols guess)
  let bounds ← match boundsDict with
    | some b => do
        let b ← liftE (inOrder symbols b)
        pure (some (b.map Prod.fst, b.map Prod.snd))
    | none => pure none
  let st ← get
  liftE (checkKwargs st.kwargs ([sFun, sX0] ++ if bounds.isSome then [sBounds] else []))
  let x ← liftE (opt ⟨fun x => Real.sqrt (f x), x0, bounds, st.kwargs⟩)
  liftE (finish symbols x)

/-- `minimizer_kwargs.update(basinhopping_kwargs.pop('minimizer_kwargs'))`, fformfit.py:863-866, 968-971, 1084-1087,
1214-1217: the entry is removed from the caller's dictionary. -/
def takeMinimizer (own : Dict Key OptVal) : Meth FitState (Dict Key OptVal) := do
  let st ← get
  match Dict.get? st.kwargs sMinimizer with
  | none => return own
  | some v =>
      set { st with kwargs := st.kwargs.filter (fun p => p.1 ≠ sMinimizer) }
      match v with
      | .dict d => return d.foldl (fun acc p => Dict.set acc p.1 p.2) own
      | .other _ => throw .typeError

/-- The common end of the basinhopping routines, fformfit.py:870-883 and so on. -/
noncomputable def runBasinhopping (opt : Optimizer BHCall) (symbols : List Sym)
    (func : (List ℝ → ℝ) ⊕ (List ℝ → ℝ × List ℝ)) (x0 : List ℝ) (own : Dict Key OptVal) (niter : ℕ) (stepsize : ℝ) :
    Meth FitState OptResult := do
  let minimizer ← takeMinimizer own
  let st ← get
  liftE (checkKwargs st.kwargs [sFunc, sX0, sNiter, sStepsize])
  let x ← liftE (opt ⟨func, x0, minimizer, niter, stepsize, st.kwargs⟩)
  liftE (finish symbols x)

/-- The bounds as an option of the minimizer, fformfit.py:962-965, 1203-1206, 1345-1348. -/
def orderedBounds (symbols : List Sym) : Option (Dict Sym (ℝ × ℝ)) → Except Err OptVal
  | none => .ok .none
  | some b => do
      let b ← inOrder symbols b
      return .bounds b

/-- `basinhopping_fit`, fformfit.py:790-883. -/
noncomputable def basinhoppingFit (opt : Optimizer BHCall) (fform : FFormContainer) (fdat : FDataContainer)
    (guess : Dict Sym ℝ) (niter : ℕ) (method args : ℕ) (stepsize : ℝ) (chunk : Bool) (save load : Option Key) :
    Meth FitState OptResult := do
  let symbols ← liftE (fform.getFreeSymbols S)
  if symbols = [] then return emptyResult
  let f ← fitCost S C fform fdat symbols chunk save load
  let x0 ← liftE (inOrder symbols guess)
  runBasinhopping opt symbols (.inl f) x0 [(sMethod, .other method), (sArgs, .other args)] niter stepsize

/-- `basinhopping_fit_with_bounds`, fformfit.py:886-988. -/
noncomputable def basinhoppingFitWithBounds (opt : Optimizer BHCall) (fform : FFormContainer) (fdat : FDataContainer)
    (guess : Dict Sym ℝ) (boundsDict : Option (Dict Sym (ℝ × ℝ))) (niter : ℕ) (method args : ℕ) (stepsize : ℝ) (chunk : Bool)
    (save load : Option Key) : Meth FitState OptResult := do
  let symbols ← liftE (fform.getFreeSymbols S)
  if symbols = [] then return emptyResult
  let f ← fitCost S C fform fdat symbols chunk save load
  let x0 ← liftE (inOrder symbols guess)
  let bounds ← liftE (orderedBounds symbols boundsDict)
  runBasinhopping opt symbols (.inl f) x0 [(sMethod, .other method), (sBounds, bounds), (sArgs, .other args)] niter stepsize

/-- `basinhopping_fit_jac`, fformfit.py:991-1104.  The option `True` is the number 1. -/
noncomputable def basinhoppingFitJac (opt : Optimizer BHCall) (fform : FFormContainer) (fdat : FDataContainer)
    (guess : Dict Sym ℝ) (niter : ℕ) (method args : ℕ) (stepsize : ℝ) (chunk : Bool) (save gradSave load gradLoad : Option Key) :
    Meth FitState OptResult := do
  let symbols ← liftE (fform.getFreeSymbols S)
  if symbols = [] then return emptyResult
  let f ← fitCostGrad S C fform fdat symbols chunk save gradSave load gradLoad
  let x0 ← liftE (inOrder symbols guess)
  runBasinhopping opt symbols (.inr f) x0 [(sMethod, .other method), (sJac, .other 1), (sArgs, .other args)] niter stepsize

/-- `basinhopping_fit_jac_with_bounds`, fformfit.py:1107-1234. -/
noncomputable def basinhoppingFitJacWithBounds (opt : Optimizer BHCall) (fform : FFormContainer) (fdat : FDataContainer)
    (guess : Dict Sym ℝ) (boundsDict : Option (Dict Sym (ℝ × ℝ))) (niter : ℕ) (method args : ℕ) (stepsize : ℝ) (chunk : Bool)
    (save gradSave load gradLoad : Option Key) : Meth FitState OptResult := do
  let symbols ← liftE (fform.getFreeSymbols S)
  if symbols = [] then return emptyResult
  let f ← fitCostGrad S C fform fdat symbols chunk save gradSave load gradLoad
  let x0 ← liftE (inOrder symbols guess)
  let bounds ← liftE (orderedBounds symbols boundsDict)
  runBasinhopping opt symbols (.inr f) x0
    [(sMethod, .other method), (sJac, .other 1), (sBounds, bounds), (sArgs, .other args)] niter stepsize

/-- `dual_annealing_fit_with_bounds`, fformfit.py:1237-1371. -/
noncomputable def dualAnnealingFit (opt : Optimizer DACall) (fform : FFormContainer) (fdat : FDataContainer)
    (guess : Dict Sym ℝ) (boundsDict : Option (Dict Sym (ℝ × ℝ))) (options : ℕ) (chunk : Bool) (save load : Option Key) :
    Meth FitState OptResult := do
  let symbols ← liftE (fform.getFreeSymbols S)
  if symbols = [] then return emptyResult
  let f ← fitCost S C fform fdat symbols chunk save load
  let x0 ← liftE (inOrder symbols guess)
  let bounds ← match boundsDict with
    | some b => do
        let b ← liftE (inOrder symbols b)
        pure (some b)
    | none => pure none
  let x ← liftE (opt ⟨f, bounds, x0, options⟩)
  liftE (finish symbols x)

end

end Shgpy
