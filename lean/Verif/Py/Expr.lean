import Verif.Py.Basic
import Mathlib.Analysis.Complex.Trigonometric
import Mathlib.Data.List.Sort
import Mathlib.Data.List.Dedup
import Mathlib.Order.Lattice

/-!
# Sympy expressions

The expression trees that the library builds and inspects: numbers, the imaginary unit, symbols, `Add`, `Mul`,
integer powers, `cos` and `sin`.  (Division, other functions and symbolic exponents are not modelled.)  Numbers are
exact rationals: every float is one.

Sympy rewrites every tree it builds ("automatic evaluation").  The model does not fix the rewriting: it is a parameter
(`Sympy.norm`) of which only soundness is assumed, so every theorem holds for every sound rewriting.
-/

namespace Shgpy

/-- A sympy `Symbol`: its name, and a number standing for its assumptions (two symbols with the same name and different
assumptions are different objects). -/
structure Sym where
  name : Key
  tag : ℕ
  deriving DecidableEq

/-- A sympy expression tree. -/
inductive Expr
  | num (q : ℚ)
  | I
  | sym (s : Sym)
  | add (l : List Expr)
  | mul (l : List Expr)
  | pow (b : Expr) (n : ℕ)
  | cos (e : Expr)
  | sin (e : Expr)

namespace Expr

/-- Structural induction with one hypothesis per argument of `Add` and `Mul`. -/
theorem ind {P : Expr → Prop} (num : ∀ q, P (.num q)) (hI : P .I) (sym : ∀ s, P (.sym s))
    (add : ∀ l, (∀ e ∈ l, P e) → P (.add l)) (mul : ∀ l, (∀ e ∈ l, P e) → P (.mul l))
    (pow : ∀ b n, P b → P (.pow b n)) (cos : ∀ e, P e → P (.cos e)) (sin : ∀ e, P e → P (.sin e)) :
    ∀ e, P e := fun e =>
  Expr.rec (motive_1 := P) (motive_2 := fun l => ∀ e ∈ l, P e) num hI sym add mul pow cos sin
    (by simp) (fun h t hh ht => by
      intro e he
      rcases List.mem_cons.1 he with rfl | he
      · exact hh
      · exact ht e he) e

mutual
/-- Structural equality, which is what sympy's `==` tests. -/
def beq : Expr → Expr → Bool
  | .num p, .num q => decide (p = q)
  | .I, .I => true
  | .sym s, .sym t => decide (s = t)
  | .add l, .add m => beqL l m
  | .mul l, .mul m => beqL l m
  | .pow b n, .pow c m => beq b c && decide (n = m)
  | .cos a, .cos b => beq a b
  | .sin a, .sin b => beq a b
  | _, _ => false
/-- Structural equality of argument lists. -/
def beqL : List Expr → List Expr → Bool
  | [], [] => true
  | a :: l, b :: m => beq a b && beqL l m
  | _, _ => false
end

theorem beqL_iff {l : List Expr} (h : ∀ e ∈ l, ∀ b, beq e b = true ↔ e = b) :
    ∀ m, beqL l m = true ↔ l = m := by
  induction l with
  | nil => intro m; cases m <;> simp [beqL]
  | cons a l ih =>
    intro m
    cases m with
    | nil => simp [beqL]
    | cons b m =>
      simp only [beqL, Bool.and_eq_true, List.cons.injEq]
      rw [h a (by simp) b, ih (fun e he => h e (by simp [he])) m]

theorem beq_iff (a b : Expr) : beq a b = true ↔ a = b := by
  revert b
  induction a using ind with
  | num q => intro b; cases b <;> simp [beq]
  | hI => intro b; cases b <;> simp [beq]
  | sym s => intro b; cases b <;> simp [beq]
  | add l ih => intro b; cases b <;> simp [beq, beqL_iff ih]
  | mul l ih => intro b; cases b <;> simp [beq, beqL_iff ih]
  | pow c n ih => intro b; cases b <;> simp [beq, ih]
  | cos e ih => intro b; cases b <;> simp [beq, ih]
  | sin e ih => intro b; cases b <;> simp [beq, ih]

instance : DecidableEq Expr := fun a b => decidable_of_iff _ (beq_iff a b)

mutual
/-- `expr.free_symbols`, as a list that may repeat symbols. -/
def free : Expr → List Sym
  | .num _ => []
  | .I => []
  | .sym s => [s]
  | .add l => freeL l
  | .mul l => freeL l
  | .pow b _ => b.free
  | .cos e => e.free
  | .sin e => e.free
/-- The free symbols of a list of arguments. -/
def freeL : List Expr → List Sym
  | [] => []
  | e :: r => e.free ++ freeL r
end

mutual
/-- The value of an expression when every symbol `s` has the value `σ s`. -/
noncomputable def eval (σ : Sym → ℂ) : Expr → ℂ
  | .num q => (q : ℂ)
  | .I => Complex.I
  | .sym s => σ s
  | .add l => evalSum σ l
  | .mul l => evalProd σ l
  | .pow b n => (b.eval σ) ^ n
  | .cos e => Complex.cos (e.eval σ)
  | .sin e => Complex.sin (e.eval σ)
/-- The value of a sum. -/
noncomputable def evalSum (σ : Sym → ℂ) : List Expr → ℂ
  | [] => 0
  | e :: r => e.eval σ + evalSum σ r
/-- The value of a product. -/
noncomputable def evalProd (σ : Sym → ℂ) : List Expr → ℂ
  | [] => 1
  | e :: r => e.eval σ * evalProd σ r
end

mutual
/-- The tree in which every occurrence of the symbol `s` is replaced by `t`. -/
def subst (s : Sym) (t : Expr) : Expr → Expr
  | .num q => .num q
  | .I => .I
  | .sym u => if u = s then t else .sym u
  | .add l => .add (substL s t l)
  | .mul l => .mul (substL s t l)
  | .pow b n => .pow (subst s t b) n
  | .cos e => .cos (subst s t e)
  | .sin e => .sin (subst s t e)
/-- Replacement in a list of arguments. -/
def substL (s : Sym) (t : Expr) : List Expr → List Expr
  | [] => []
  | e :: r => subst s t e :: substL s t r
end

/-- `expr.args`. -/
def args : Expr → List Expr
  | .num _ => []
  | .I => []
  | .sym _ => []
  | .add l => l
  | .mul l => l
  | .pow b n => [b, .num n]
  | .cos e => [e]
  | .sin e => [e]

end Expr

/-- What the model assumes of sympy: a sound rewriting `norm` of the trees it builds (the value is preserved, no symbol
is invented), and the iteration order of sets of symbols (`list(set(l))` is some arrangement of the distinct elements
of `l`). -/
structure Sympy where
  norm : Expr → Expr
  eval_norm : ∀ σ e, (norm e).eval σ = e.eval σ
  free_norm : ∀ e s, s ∈ (norm e).free → s ∈ e.free
  setOrder : List Sym → List Sym
  setOrder_perm : ∀ l, (setOrder l).Perm l.dedup

namespace Sympy
variable (S : Sympy)

/-- `a * b`. -/
def mul (a b : Expr) : Expr := S.norm (.mul [a, b])
/-- `a + b`. -/
def add (a b : Expr) : Expr := S.norm (.add [a, b])
/-- `sp.cos(a)`. -/
def cos (a : Expr) : Expr := S.norm (.cos a)
/-- `sp.sin(a)`. -/
def sin (a : Expr) : Expr := S.norm (.sin a)
/-- `expr.subs([(s1, t1), ...])`: the substitutions are performed one after the other. -/
def subs (pairs : List (Sym × Expr)) (e : Expr) : Expr :=
  pairs.foldl (fun e p => S.norm (Expr.subst p.1 p.2 e)) e
/-- `l = list(set(l)); l.sort(key=str)` for a list of symbols (Python's sort is stable). -/
def sortSyms (l : List Sym) : List Sym :=
  (S.setOrder l).mergeSort (fun a b => decide (a.name ≤ b.name))

end Sympy

/-- A simplest instance of the assumptions: no rewriting, and sets kept in order of last occurrence. -/
def Sympy.plain : Sympy where
  norm e := e
  eval_norm _ _ := rfl
  free_norm _ _ h := h
  setOrder l := l.dedup
  setOrder_perm _ := List.Perm.refl _

end Shgpy
