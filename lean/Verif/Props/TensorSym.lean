import Verif.Spec.TensorSym
import Verif.Proofs.Transform
import Verif.Proofs.Expr
import Verif.Proofs.FormConvert

/-!
# Theorems: symbolic tensors (C42, C43)
-/

namespace Shgpy
open Spec

set_option linter.unusedSectionVars false
set_option linter.unusedSimpArgs false

variable (S : Sympy)

/-! ## C43: `make_tensor_complex`, `make_tensor_real` -/

theorem eval_replaceParameters {new : Sym → Expr} (hnew : ∀ s, ∀ u ∈ (new s).free, u.isReal = some true) (e : Expr)
    (hp : ∀ s ∈ e.free, s.isReal = none → s.tag = 0) (σ : Valuation) :
    (replaceParameters S new e).eval σ = e.eval (fun s => if s.isReal = none then (new s).eval σ else σ s) := by
  have key : ∀ (L : List Sym), (∀ s ∈ L, s.isReal = none → s.tag = 0) → L.Nodup → ∀ e : Expr,
      (L.foldl (fun e fs => if fs.isReal = none then S.subs [(parsedSym fs, new fs)] e else e) e).eval σ =
        e.eval (fun s => if s ∈ L ∧ s.isReal = none then (new s).eval σ else σ s) := by
    intro L
    induction L with
    | nil => intro _ _ e; simp
    | cons a L ih =>
      intro hL hnd e
      rw [List.nodup_cons] at hnd
      rw [List.foldl_cons, ih (fun s hs => hL s (by simp [hs])) hnd.2]
      by_cases ha : a.isReal = none
      · rw [if_pos ha, S.eval_subs]
        have htag := hL a (by simp) ha
        have hpa : parsedSym a = a := by
          cases a; simp only at htag; subst htag; rfl
        congr 1
        funext s
        simp only [assigned, assign, hpa]
        by_cases hs : s = a
        · subst hs
          rw [if_pos rfl, if_pos ⟨by simp, ha⟩]
          refine Expr.eval_congr _ (fun u hu => ?_)
          rw [if_neg]
          rintro ⟨-, h⟩
          rw [hnew _ u hu] at h
          exact absurd h (by simp)
        · rw [if_neg hs]
          simp [hs]
      · rw [if_neg ha]
        congr 1
        funext s
        by_cases hs : s = a
        · subst hs
          rw [if_neg (fun h => ha h.2), if_neg (fun h => ha h.2)]
        · simp [hs]
  have hperm := S.setOrder_perm e.free
  have hmem : ∀ s, s ∈ S.setOrder e.free ↔ s ∈ e.free := fun s => by
    rw [hperm.mem_iff, List.mem_dedup]
  unfold replaceParameters
  rw [key _ (fun s hs => hp s ((hmem s).1 hs)) (hperm.nodup_iff.2 (List.nodup_dedup _))]
  refine Expr.eval_congr _ (fun s hs => ?_)
  simp [hmem, hs]

theorem free_subs_single {s : Sym} {t e : Expr} {u : Sym} (h : u ∈ (S.subs [(s, t)] e).free) :
    (u ∈ e.free ∧ u ≠ s) ∨ u ∈ t.free := by
  have := S.free_norm _ _ h
  rcases Expr.free_subst e this with h | h
  · exact Or.inl h
  · exact Or.inr h.2

theorem free_replaceParameters {new : Sym → Expr} (hnew : ∀ s, ∀ u ∈ (new s).free, u.isReal = some true) (e : Expr)
    (hp : ∀ s ∈ e.free, s.isReal = none → s.tag = 0) {u : Sym} (hu : u ∈ (replaceParameters S new e).free) :
    u.isReal = some true ∨ (u ∈ e.free ∧ u.isReal = some false) := by
  have key : ∀ (L : List Sym), (∀ s ∈ L, s.isReal = none → s.tag = 0) → ∀ e : Expr, ∀ u,
      u ∈ (L.foldl (fun e fs => if fs.isReal = none then S.subs [(parsedSym fs, new fs)] e else e) e).free →
        u.isReal = some true ∨ (u ∈ e.free ∧ (u ∈ L → u.isReal ≠ none)) := by
    intro L
    induction L with
    | nil => intro _ e u h; exact Or.inr ⟨h, by simp⟩
    | cons a L ih =>
      intro hL e u h
      rw [List.foldl_cons] at h
      rcases ih (fun s hs => hL s (by simp [hs])) _ u h with h | ⟨h, h'⟩
      · exact Or.inl h
      · by_cases ha : a.isReal = none
        · rw [if_pos ha] at h
          have htag := hL a (by simp) ha
          have hpa : parsedSym a = a := by
            cases a; simp only at htag; subst htag; rfl
          rw [hpa] at h
          rcases free_subs_single S h with ⟨h1, h2⟩ | h
          · refine Or.inr ⟨h1, fun hm => ?_⟩
            rcases List.mem_cons.1 hm with hm | hm
            · exact absurd hm h2
            · exact h' hm
          · exact Or.inl (hnew _ u h)
        · rw [if_neg ha] at h
          refine Or.inr ⟨h, fun hm => ?_⟩
          rcases List.mem_cons.1 hm with hm | hm
          · rw [hm]; exact ha
          · exact h' hm
  have hperm := S.setOrder_perm e.free
  have hmem : ∀ s, s ∈ S.setOrder e.free ↔ s ∈ e.free := fun s => by
    rw [hperm.mem_iff, List.mem_dedup]
  rcases key _ (fun s hs => hp s ((hmem s).1 hs)) e u hu with h | ⟨h1, h2⟩
  · exact Or.inl h
  · have h3 := h2 ((hmem u).2 h1)
    rcases hr : u.isReal with _ | b
    · exact absurd hr h3
    · cases b
      · exact Or.inr ⟨h1, rfl⟩
      · exact Or.inl rfl

theorem complexOf_free (a b c d : Key) (s u : Sym) (h : u ∈ (complexOf S a b c d s).free) : u.isReal = some true := by
  have hr : ∀ n, (realSym n).isReal = some true := fun _ => rfl
  rcases S.free_add h with h | h
  · simp only [Expr.free, List.mem_singleton] at h; rw [h]; exact hr _
  · rcases S.free_mul h with h | h
    · simp [Expr.free] at h
    · simp only [Expr.free, List.mem_singleton] at h; rw [h]; exact hr _

/-- **C43, complex.**  For all symbolic tensors (whose undeclared symbols carry no assumptions), all prefixes and suffixes
and all orders in which the sets of symbols are iterated: the result has the shape of the tensor, and its value under `σ`
is the value of the original with `x = real_x + i * imag_x`. -/
theorem C43_complex (pr pi sr si : Key) (t : Nd Expr) (hp : PlainSymbols t) :
    (makeTensorComplex S pr pi sr si t).shape = t.shape ∧
    ∀ idx, Nd.InRange t.shape idx → ∀ σ : Valuation,
      ((makeTensorComplex S pr pi sr si t).get idx).eval σ = (t.get idx).eval (complexified pr pi sr si σ) := by
  refine ⟨rfl, fun idx hidx σ => ?_⟩
  show (replaceParameters S _ (t.get idx)).eval σ = _
  rw [eval_replaceParameters S (complexOf_free S pr pi sr si) _ (fun s hs => hp s ⟨idx, hidx, hs⟩)]
  congr 1
  funext s
  simp only [complexified]
  congr 1
  simp only [complexOf, S.eval_add, S.eval_mul, Expr.eval]

/-- **C43, the result is accepted.**  If the tensor has no symbol declared non-real, all symbols of the result are real, so
that `_assert_real_params` (which guards `formgen`) accepts it; and no symbol is lost or invented other than by the
replacement. -/
theorem C43_complex_accepted (pr pi sr si : Key) (t : Nd Expr) (hp : PlainSymbols t)
    (hn : ∀ s, OccursIn t s → s.isReal ≠ some false) :
    (∀ s, OccursIn (makeTensorComplex S pr pi sr si t) s → s.isReal = some true) ∧
    assertRealParams (makeTensorComplex S pr pi sr si t) = .ok () := by
  have h1 : ∀ s, OccursIn (makeTensorComplex S pr pi sr si t) s → s.isReal = some true := by
    rintro s ⟨idx, hidx, hs⟩
    rcases free_replaceParameters S (complexOf_free S pr pi sr si) _ (fun u hu => hp u ⟨idx, hidx, hu⟩) hs with h | h
    · exact h
    · exact absurd h.2 (hn s ⟨idx, hidx, h.1⟩)
  refine ⟨h1, if_pos (fun s hs => ?_)⟩
  simp only [freeOfArray, Nd.flatten, List.mem_flatMap, List.mem_map] at hs
  obtain ⟨_, ⟨idx, hidx, rfl⟩, hs⟩ := hs
  exact h1 s ⟨idx, mem_tuples.1 hidx, hs⟩

/-- **C43, real.**  `make_tensor_real` evaluates to the original with every undeclared symbol read as the real symbol of
the same name; its symbols are all real. -/
theorem C43_real (t : Nd Expr) (hp : PlainSymbols t) :
    (makeTensorReal S t).shape = t.shape ∧
    (∀ idx, Nd.InRange t.shape idx → ∀ σ : Valuation,
      ((makeTensorReal S t).get idx).eval σ = (t.get idx).eval (realified σ)) ∧
    ((∀ s, OccursIn t s → s.isReal ≠ some false) → ∀ s, OccursIn (makeTensorReal S t) s → s.isReal = some true) := by
  have hnew : ∀ s : Sym, ∀ u ∈ (Expr.sym (realSym s.name)).free, u.isReal = some true := by
    intro s u hu
    simp only [Expr.free, List.mem_singleton] at hu
    rw [hu]; rfl
  refine ⟨rfl, fun idx hidx σ => ?_, fun hn => ?_⟩
  · show (replaceParameters S _ (t.get idx)).eval σ = _
    rw [eval_replaceParameters S hnew _ (fun s hs => hp s ⟨idx, hidx, hs⟩)]
    congr 1
  · rintro s ⟨idx, hidx, hs⟩
    rcases free_replaceParameters S hnew _ (fun u hu => hp u ⟨idx, hidx, hu⟩) hs with h | h
    · exact h
    · exact absurd h.2 (hn s ⟨idx, hidx, h.1⟩)

/-- C43: elements all of whose symbols are declared to be real, or known not to be (assumption numbers 1 and 2 modulo 3), are left as
they are. -/
theorem C43_declared (pr pi sr si : Key) (t : Nd Expr) (idx : List ℕ) (h : ∀ s ∈ (t.get idx).free, s.tag % 3 = 1 ∨ s.tag % 3 = 2) :
    (makeTensorReal S t).get idx = t.get idx ∧ (makeTensorComplex S pr pi sr si t).get idx = t.get idx := by
  have key : ∀ new : Sym → Expr, replaceParameters S new (t.get idx) = t.get idx := by
    intro new
    unfold replaceParameters
    have : ∀ (l : List Sym) (e : Expr), (∀ s ∈ l, s.tag % 3 = 1 ∨ s.tag % 3 = 2) → l.foldl (fun e fs =>
        if fs.isReal = none then S.subs [(parsedSym fs, new fs)] e else e) e = e := by
      intro l
      induction l with
      | nil => intro e _; rfl
      | cons a l ih =>
        intro e hl
        rw [List.foldl_cons, if_neg, ih e (fun s hs => hl s (List.mem_cons_of_mem _ hs))]
        rcases hl a (List.mem_cons_self ..) with h | h <;> simp [Sym.isReal, h]
    exact this _ _ (fun s hs => h s (List.mem_dedup.1 ((S.setOrder_perm _).mem_iff.1 hs)))
  exact ⟨key _, key _⟩

/-- `x` declared real and `y` known to be imaginary: not changed. -/
example : ∀ s ∈ (Expr.add [.sym ⟨['x'], 1⟩, .sym ⟨['y'], 2⟩]).free, s.tag % 3 = 1 ∨ s.tag % 3 = 2 := by decide

/-- **C43 needs the symbols to be plain**: a symbol with assumptions that leave open whether it is real (like
`complex=True`) is not replaced, because the substitution looks for the symbol of the same name without assumptions, and
the result is still rejected. -/
theorem C43_other_assumptions_broken :
    ∃ t : Nd Expr, (∀ s, OccursIn t s → s.isReal = none) ∧
      assertRealParams (makeTensorComplex Sympy.plain ['r'] ['i'] [] [] t) = .error .valueError := by
  refine ⟨⟨[1], fun _ => .sym ⟨['x'], 3⟩⟩, ?_, ?_⟩
  · rintro s ⟨idx, -, hs⟩
    simp only [Expr.free, List.mem_singleton] at hs
    rw [hs]; rfl
  · decide +kernel

/-- A tensor with an undeclared symbol `x`, a real symbol `y` and their product. -/
example : ∃ t : Nd Expr, PlainSymbols t ∧ (∀ s, OccursIn t s → s.isReal ≠ some false) ∧ OccursIn t ⟨['x'], 0⟩ ∧
    OccursIn t ⟨['y'], 1⟩ := by
  refine ⟨⟨[2], fun i => if i = [0] then .sym ⟨['x'], 0⟩ else .mul [.sym ⟨['x'], 0⟩, .sym ⟨['y'], 1⟩]⟩, ?_, ?_,
    ⟨[0], .cons (by norm_num) .nil, by simp [Expr.free]⟩,
    ⟨[1], .cons (by norm_num) .nil, by simp [Expr.free, Expr.freeL]⟩⟩
  · rintro s ⟨idx, -, hs⟩ hr
    dsimp only at hs
    split_ifs at hs <;> simp [Expr.free, Expr.freeL] at hs
    · rw [hs]
    · rcases hs with rfl | rfl
      · rfl
      · exact absurd hr (by simp [Sym.isReal])
  · rintro s ⟨idx, -, hs⟩ hr
    dsimp only at hs
    split_ifs at hs <;> simp [Expr.free, Expr.freeL] at hs
    · rw [hs] at hr; exact absurd hr (by simp [Sym.isReal])
    · rcases hs with rfl | rfl <;> exact absurd hr (by simp [Sym.isReal])

/-- `map_to_real` gives a real symbol of the same name. -/
theorem C43_map_to_real (s : Sym) : (mapToReal s).name = s.name ∧ (mapToReal s).isReal = some true := ⟨rfl, rfl⟩


/-! ## C42: `particularize` -/

theorem inRange_replicate {n d : ℕ} {I : List ℕ} :
    Nd.InRange (List.replicate n d) I ↔ I.length = n ∧ ∀ i ∈ I, i < d := by
  induction n generalizing I with
  | zero => cases I <;> simp [Nd.InRange]
  | succ n ih =>
    cases I with
    | nil => simp [Nd.InRange, List.replicate_succ]
    | cons a I =>
      have := @ih I
      simp only [Nd.InRange, List.replicate_succ, List.forall₂_cons, List.length_cons, List.mem_cons,
        forall_eq_or_imp] at this ⊢
      rw [this]
      constructor
      · rintro ⟨h1, h2, h3⟩; exact ⟨by omega, h1, h3⟩
      · rintro ⟨h1, h2, h3⟩; exact ⟨h2, by omega, h3⟩

theorem split_last_two {n d : ℕ} {idx : List ℕ} (h : Nd.InRange (List.replicate (n + 2) d) idx) :
    ∃ I a b, idx = I ++ [a, b] ∧ I.length = n ∧ (∀ i ∈ I, i < d) ∧ a < d ∧ b < d := by
  obtain ⟨hl, hb⟩ := inRange_replicate.1 h
  have hl' : (idx.drop n).length = 2 := by simp [hl]
  obtain ⟨a, b, hab⟩ := List.length_eq_two.1 hl'
  have e : idx = idx.take n ++ [a, b] := by rw [← hab, List.take_append_drop]
  refine ⟨idx.take n, a, b, e, by simp [hl], fun i hi => hb i (List.mem_of_mem_take hi), hb a ?_, hb b ?_⟩ <;>
    (rw [e]; simp)

theorem swapLastTwo_ok {n : ℕ} {t : Nd Expr} (ht : IsTensor 3 (n + 2) t) :
    ∃ t2, swapLastTwo t = .ok t2 ∧ t2.shape = t.shape ∧
      ∀ I a b, Nd.InRange t.shape (I ++ [a, b]) → t2.get (I ++ [a, b]) = t.get (I ++ [b, a]) := by
  have hs : t.shape = List.replicate (n + 2) 3 := ht
  have hr : t.rank = n + 2 := by simp [Nd.rank, hs]
  have hd : t.shape.getD 1 0 = 3 := by rw [hs]; simp [List.replicate_succ]
  have hb : List.replicate (t.rank - 2) (t.shape.getD 1 0) ++ [3, 3] = List.replicate (n + 2) 3 := by
    rw [hd, hr, show n + 2 - 2 = n from rfl, show [3, 3] = List.replicate 2 3 from rfl, List.replicate_append_replicate]
  unfold swapLastTwo
  rw [if_neg (by omega), if_neg (by omega)]
  dsimp only
  rw [hb, hs, if_pos (by simp [List.all_eq_true, List.zipWith_self])]
  refine ⟨_, rfl, rfl, fun I a b h => ?_⟩
  obtain ⟨hl, hlt⟩ := inRange_replicate.1 h
  have hI : I.length = n := by simp at hl; omega
  dsimp only
  rw [if_pos]
  · rw [hr, show n + 2 - 2 = n from rfl, ← hI, List.take_left, List.drop_left]
    rfl
  · rw [List.all_eq_true]
    intro x hx
    rw [List.mem_iff_getElem] at hx
    obtain ⟨i, hi, rfl⟩ := hx
    simp only [List.getElem_zipWith, List.getElem_replicate, id, decide_eq_true_eq]
    exact hlt _ (List.getElem_mem _)

theorem flatten_eq_iff {a b : Nd Expr} (h : a.shape = b.shape) :
    a.flatten = b.flatten ↔ ∀ idx, Nd.InRange b.shape idx → a.get idx = b.get idx := by
  unfold Nd.flatten
  rw [h, List.map_inj_left]
  simp [mem_tuples]

theorem eval_sub' (a b : Expr) (σ : Valuation) (sol : List (Sym × Expr)) :
    (S.subs sol (S.sub a b)).eval σ = (S.subs sol a).eval σ - (S.subs sol b).eval σ := by
  simp only [S.eval_subs, Sympy.sub, S.eval_norm, Expr.eval, Expr.evalSum, Expr.evalProd, Expr.evalSum_eq, Expr.evalProd_eq]
  simp
  ring

theorem applySol_value (sol : List (Sym × Expr)) (t : Nd Expr) (σ : Valuation) :
    ∃ τ : Valuation, ∀ idx, ((applySol S sol t).get idx).eval σ = (t.get idx).eval τ :=
  ⟨assigned sol σ, fun _ => S.eval_subs _ _ _⟩

/-- **C42, last two indices.**  For all symbolic 3-dimensional tensors of rank at least 2 and all sound solvers: the result
has the same shape, is symmetric in its last two indices, and every value it takes (as a whole tensor) is a value that the
original takes. -/
theorem C42_last_two {solve : Solver} (hs : SolverSound S solve) (exclude : List Sym) (n : ℕ) (t res : Nd Expr)
    (ht : IsTensor 3 (n + 2) t) (h : particularize S solve exclude false t = .ok res) :
    res.shape = t.shape ∧ SymmetricLastTwo res ∧
    ∀ σ : Valuation, ∃ τ : Valuation, ∀ idx, (res.get idx).eval σ = (t.get idx).eval τ := by
  obtain ⟨t2, h2, hsh, hget⟩ := swapLastTwo_ok ht
  unfold particularize at h
  simp only [Bool.false_eq_true, if_false] at h
  unfold particularizeLastTwo at h
  rw [h2, ok_bind] at h
  split_ifs at h with heq
  · cases h
    rw [flatten_eq_iff hsh] at heq
    refine ⟨rfl, fun I a b hr σ => ?_, fun σ => ⟨σ, fun _ => rfl⟩⟩
    rw [← hget I a b hr, heq _ hr]
  · rcases hsol : solve (swapEquations S t t2) exclude with _ | ⟨sol, rest⟩
    · rw [hsol] at h; cases h
    · rw [hsol] at h
      cases h
      refine ⟨rfl, fun I a b hr σ => ?_, applySol_value S sol t⟩
      have hr' : Nd.InRange t.shape (I ++ [a, b]) := hr
      have := hs _ _ _ _ hsol (S.sub (t.get (I ++ [a, b])) (t2.get (I ++ [a, b])))
        (List.mem_map.2 ⟨_, mem_tuples.2 hr', rfl⟩) σ
      rw [eval_sub', sub_eq_zero, hget I a b hr'] at this
      exact this

/-- **C42, all indices.** -/
theorem C42_all {solve : Solver} (hs : SolverSound S solve) (exclude : List Sym) (n : ℕ) (t res : Nd Expr)
    (ht : IsTensor 3 (n + 2) t) (h : particularize S solve exclude true t = .ok res) :
    res.shape = t.shape ∧ SymmetricAll res ∧
    ∀ σ : Valuation, ∃ τ : Valuation, ∀ idx, (res.get idx).eval σ = (t.get idx).eval τ := by
  have hsh : t.shape = List.replicate (n + 2) 3 := ht
  have hr : t.rank = n + 2 := by simp [Nd.rank, hsh]
  have hd : t.shape.getD 1 0 = 3 := by rw [hsh]; simp [List.replicate_succ]
  unfold particularize at h
  rw [if_pos rfl] at h
  unfold particularizeAll at h
  rw [if_neg (by omega), if_neg (by omega), if_pos (by rw [hd, hsh]; simp)] at h
  rcases hsol : solve (allEquations S t) exclude with _ | ⟨sol, rest⟩
  · rw [hsol] at h; cases h
  · rw [hsol] at h
    cases h
    refine ⟨rfl, fun i j hi hij σ => ?_, applySol_value S sol t⟩
    have hi' : Nd.InRange t.shape i := hi
    have := hs _ _ _ _ hsol (S.sub (t.get i) (t.get j)) (List.mem_flatMap.2 ⟨i, mem_tuples.2 (by
      rw [hd, hr, ← hsh]; exact hi'), List.mem_map.2 ⟨j, List.mem_dedup.2 (List.mem_permutations.2 hij.symm), rfl⟩⟩) σ
    rw [eval_sub', sub_eq_zero] at this
    exact this

/-- **C42, unchanged.**  A tensor whose elements are equal expressions under exchange of the last two indices is returned
as it is, whatever the solver. -/
theorem C42_unchanged (solve : Solver) (exclude : List Sym) (n : ℕ) (t : Nd Expr) (ht : IsTensor 3 (n + 2) t)
    (hsym : ∀ I a b, Nd.InRange t.shape (I ++ [a, b]) → t.get (I ++ [a, b]) = t.get (I ++ [b, a])) :
    particularize S solve exclude false t = .ok t := by
  obtain ⟨t2, h2, hsh, hget⟩ := swapLastTwo_ok ht
  unfold particularize
  simp only [Bool.false_eq_true, if_false]
  unfold particularizeLastTwo
  rw [h2, ok_bind, if_pos]
  · rfl
  · rw [flatten_eq_iff hsh]
    intro idx hidx
    have hidx' := hidx
    rw [show t.shape = _ from ht] at hidx'
    obtain ⟨I, a, b, rfl, -⟩ := split_last_two hidx'
    rw [hget I a b hidx, hsym I a b hidx]

/-- **C42, idempotent.**  Applying `particularize` to its result gives the result again, provided that the result is in
normal form (elements with the same values are the same expressions), for any two sound solvers. -/
theorem C42_idempotent {solve : Solver} (hs : SolverSound S solve) (solve' : Solver) (exclude exclude' : List Sym) (n : ℕ)
    (t res : Nd Expr) (ht : IsTensor 3 (n + 2) t) (h : particularize S solve exclude false t = .ok res)
    (hnf : ∀ i j, Nd.InRange res.shape i → Nd.InRange res.shape j →
      (∀ σ : Valuation, (res.get i).eval σ = (res.get j).eval σ) → res.get i = res.get j) :
    particularize S solve' exclude' false res = .ok res := by
  obtain ⟨h1, h2, -⟩ := C42_last_two S hs exclude n t res ht h
  have hres : IsTensor 3 (n + 2) res := h1.trans ht
  refine C42_unchanged S solve' exclude' n res hres (fun I a b hI => hnf _ _ hI ?_ (h2 I a b hI))
  rw [show res.shape = _ from hres, inRange_replicate] at hI ⊢
  refine ⟨by simpa using hI.1, fun i hi => hI.2 i ?_⟩
  simp only [List.mem_append, List.mem_cons, List.not_mem_nil, or_false] at hi ⊢
  tauto

/-- **C42, no solution.**  If the solver finds no solution, an `IndexError` is raised (and no asymmetric tensor is
returned): in the first mode unless the tensor is symmetric, in the second always. -/
theorem C42_no_solution (exclude : List Sym) (n : ℕ) (t : Nd Expr) (ht : IsTensor 3 (n + 2) t) :
    particularize S (fun _ _ => []) exclude true t = .error .indexError ∧
    ((∃ I a b, Nd.InRange t.shape (I ++ [a, b]) ∧ t.get (I ++ [a, b]) ≠ t.get (I ++ [b, a])) →
      particularize S (fun _ _ => []) exclude false t = .error .indexError) := by
  have hsh : t.shape = List.replicate (n + 2) 3 := ht
  have hr : t.rank = n + 2 := by simp [Nd.rank, hsh]
  have hd : t.shape.getD 1 0 = 3 := by rw [hsh]; simp [List.replicate_succ]
  constructor
  · unfold particularize
    rw [if_pos rfl]
    unfold particularizeAll
    rw [if_neg (by omega), if_neg (by omega), if_pos (by rw [hd, hsh]; simp)]
    rfl
  · rintro ⟨I, a, b, hI, hne⟩
    obtain ⟨t2, h2, hsh, hget⟩ := swapLastTwo_ok ht
    unfold particularize
    simp only [Bool.false_eq_true, if_false]
    unfold particularizeLastTwo
    rw [h2, ok_bind, if_neg]
    · rfl
    · rw [flatten_eq_iff hsh]
      intro hall
      exact hne (by rw [← hget I a b hI, hall _ hI])

/-- **C42, other shapes, all indices.**  All axes are taken to be as long as the second one: a shorter axis gives an `IndexError`, and
otherwise, if there is a solution, a result of the same shape is symmetric as far as the second axis goes. -/
theorem C42_all_shapes {solve : Solver} (hs : SolverSound S solve) (exclude : List Sym) (t : Nd Expr) (hr : 2 ≤ t.rank) :
    ((∃ d ∈ t.shape, d < t.shape.getD 1 0) → particularize S solve exclude true t = .error .indexError) ∧
    ((∀ d ∈ t.shape, t.shape.getD 1 0 ≤ d) → (∀ eqs, solve eqs exclude ≠ []) → ∃ res, particularize S solve exclude true t = .ok res) ∧
    ∀ res, particularize S solve exclude true t = .ok res → res.shape = t.shape ∧
      ∀ idx idx', idx.length = t.rank → (∀ i ∈ idx, i < t.shape.getD 1 0) → idx.Perm idx' →
        ∀ σ : Valuation, (res.get idx).eval σ = (res.get idx').eval σ := by
  unfold particularize
  rw [if_pos rfl]
  unfold particularizeAll
  rw [if_neg (by omega), if_neg (by omega)]
  refine ⟨?_, ?_, ?_⟩
  · rintro ⟨d, hd, hlt⟩
    rw [if_neg]
    intro h
    rw [List.all_eq_true] at h
    have := of_decide_eq_true (h d hd)
    omega
  · intro h hne
    rw [if_pos (by rw [List.all_eq_true]; exact fun d hd => decide_eq_true (h d hd))]
    rcases hsol : solve (allEquations S t) exclude with _ | ⟨sol, rest⟩
    · exact absurd hsol (hne _)
    · exact ⟨_, rfl⟩
  · intro res h
    split_ifs at h with hall
    rcases hsol : solve (allEquations S t) exclude with _ | ⟨sol, rest⟩
    · rw [hsol] at h; cases h
    · rw [hsol] at h
      cases h
      refine ⟨rfl, fun i j hl hi hij σ => ?_⟩
      have := hs _ _ _ _ hsol (S.sub (t.get i) (t.get j)) (List.mem_flatMap.2 ⟨i, mem_tuples.2 (inRange_replicate.2 ⟨hl, hi⟩),
        List.mem_map.2 ⟨j, List.mem_dedup.2 (List.mem_permutations.2 hij.symm), rfl⟩⟩) σ
      rw [eval_sub', sub_eq_zero] at this
      exact this

/-- The transposed array for `d` dimensions. -/
theorem swapLastTwo_dim {n d : ℕ} {t : Nd Expr} (ht : IsTensor d (n + 2) t) :
    (d < 3 → swapLastTwo t = .error .indexError) ∧
    (3 ≤ d → ∃ t2, swapLastTwo t = .ok t2 ∧ t2.shape = t.shape ∧
      ∀ I a b, Nd.InRange t.shape (I ++ [a, b]) → t2.get (I ++ [a, b]) = if a < 3 ∧ b < 3 then t.get (I ++ [b, a]) else .num 0) := by
  have hs : t.shape = List.replicate (n + 2) d := ht
  have hr : t.rank = n + 2 := by simp [Nd.rank, hs]
  have hd : t.shape.getD 1 0 = d := by rw [hs]; simp [List.replicate_succ]
  have hs2 : t.shape = List.replicate n d ++ [d, d] := by
    rw [hs, show [d, d] = List.replicate 2 d from rfl, List.replicate_append_replicate]
  have hz : ∀ (P : ℕ → ℕ → Bool) (x y : ℕ) (L : List ℕ), L.length = n →
      (List.zipWith P (L ++ [x, y]) (List.replicate n d ++ [d, d])).all id =
        ((List.zipWith P L (List.replicate n d)).all id && P x d && P y d) := by
    intro P x y L hL
    rw [List.zipWith_append (by simp [hL])]
    simp [Bool.and_assoc]
  unfold swapLastTwo
  rw [if_neg (by omega), if_neg (by omega)]
  dsimp only
  rw [hd, hr, show n + 2 - 2 = n from rfl, hs2, hz _ _ _ _ (by simp)]
  constructor
  · intro h3
    rw [if_neg (by simp; omega)]
  · intro h3
    rw [if_pos (by simp [List.zipWith_self]; omega)]
    refine ⟨_, rfl, rfl, fun I a b h => ?_⟩
    rw [← hs2, hs] at h
    obtain ⟨hl, hlt⟩ := inRange_replicate.1 h
    have hI : I.length = n := by simp at hl; omega
    have hI3 : (List.zipWith (fun i b => decide (i < b)) I (List.replicate n d)).all id = true := by
      rw [List.all_eq_true]
      intro x hx
      rw [List.mem_iff_getElem] at hx
      obtain ⟨i, hi, rfl⟩ := hx
      simp only [List.getElem_zipWith, List.getElem_replicate, id, decide_eq_true_eq]
      exact hlt _ (by simp)
    dsimp only
    rw [List.zipWith_append (by simp [hI]), List.all_append, hI3, ← hI, List.take_left, List.drop_left]
    simp [Bool.and_eq_true]

/-- **C42, other shapes, last two indices.**  For arrays with fewer than three dimensions an `IndexError` is raised.  For arrays with more
than three dimensions the last two indices beyond three are not exchanged: all these elements of the result are zero. -/
theorem C42_last_two_shapes {solve : Solver} (hs : SolverSound S solve) (exclude : List Sym) (n d : ℕ) (t : Nd Expr)
    (ht : IsTensor d (n + 2) t) :
    (d < 3 → particularize S solve exclude false t = .error .indexError) ∧
    ∀ res, particularize S solve exclude false t = .ok res → res.shape = t.shape ∧
      ∀ I a b, Nd.InRange t.shape (I ++ [a, b]) → ∀ σ : Valuation,
        (res.get (I ++ [a, b])).eval σ = if a < 3 ∧ b < 3 then (res.get (I ++ [b, a])).eval σ else 0 := by
  unfold particularize
  simp only [Bool.false_eq_true, if_false]
  unfold particularizeLastTwo
  refine ⟨fun h3 => by rw [(swapLastTwo_dim ht).1 h3]; rfl, fun res h => ?_⟩
  by_cases h3 : d < 3
  · rw [(swapLastTwo_dim ht).1 h3] at h; cases h
  obtain ⟨t2, h2, hsh, hget⟩ := (swapLastTwo_dim ht).2 (by omega)
  rw [h2, ok_bind] at h
  split_ifs at h with heq
  · cases h
    rw [flatten_eq_iff hsh] at heq
    refine ⟨rfl, fun I a b hr σ => ?_⟩
    have := heq _ hr
    rw [hget I a b hr] at this
    rw [← this]
    split_ifs with hab
    · rfl
    · simp [Expr.eval]
  · rcases hsol : solve (swapEquations S t t2) exclude with _ | ⟨sol, rest⟩
    · rw [hsol] at h; cases h
    · rw [hsol] at h
      cases h
      refine ⟨rfl, fun I a b hr σ => ?_⟩
      have := hs _ _ _ _ hsol (S.sub (t.get (I ++ [a, b])) (t2.get (I ++ [a, b]))) (List.mem_map.2 ⟨_, mem_tuples.2 hr, rfl⟩) σ
      rw [eval_sub', sub_eq_zero] at this
      show (S.subs sol (t.get (I ++ [a, b]))).eval σ = _
      rw [this, hget I a b hr]
      split_ifs with hab
      · rfl
      · rw [S.eval_subs]; simp [Expr.eval]

/-- Concrete cases: a 2 × 3 array is rejected, a 4 × 3 array is accepted, and a 4 × 4 array loses its last element. -/
example : (particularize Sympy.plain (fun _ _ => [[]]) [] true (⟨[2, 3], fun _ => .num 1⟩ : Nd Expr) = .error .indexError) ∧
    (∃ res, particularize Sympy.plain (fun _ _ => [[]]) [] true (⟨[4, 3], fun _ => .num 1⟩ : Nd Expr) = .ok res) ∧
    IsTensor 4 2 (⟨[4, 4], fun _ => .num 1⟩ : Nd Expr) := by
  refine ⟨?_, ?_, rfl⟩
  · exact (C42_all_shapes Sympy.plain (solve := fun _ _ => []) (fun _ _ _ _ h => by cases h) [] (⟨[2, 3], fun _ => .num 1⟩ : Nd Expr)
      (by simp [Nd.rank])).1 ⟨2, by simp, by simp⟩ ▸ rfl
  · exact ⟨_, rfl⟩

/-- The tensor with `x` at `(0,1)`, `y` at `(1,0)` and zeros elsewhere. -/
def exampleXY : Nd Expr :=
  ⟨[3, 3], fun i => if i = [0, 1] then .sym ⟨['x'], 0⟩ else if i = [1, 0] then .sym ⟨['y'], 0⟩ else .num 0⟩

/-- Its transpose. -/
def exampleYX : Nd Expr :=
  ⟨[3, 3], fun i => if i = [1, 0] then .sym ⟨['x'], 0⟩ else if i = [0, 1] then .sym ⟨['y'], 0⟩ else .num 0⟩

/-- A sound solver that solves one system. -/
def exampleSolver : Solver := fun eqs _ =>
  if eqs = swapEquations Sympy.plain exampleXY exampleYX then [[(⟨['x'], 0⟩, .sym ⟨['y'], 0⟩)]] else []

/-- The hypotheses of `C42_last_two` hold for a sound solver and a tensor that is not symmetric; the result has `y` at both
places. -/
example : SolverSound Sympy.plain exampleSolver ∧ IsTensor 3 2 exampleXY ∧
    ∃ res, particularize Sympy.plain exampleSolver [] false exampleXY = .ok res ∧
      res.get [0, 1] = .sym ⟨['y'], 0⟩ ∧ res.get [1, 0] = .sym ⟨['y'], 0⟩ := by
  refine ⟨?_, rfl, ⟨[3, 3], fun i => Sympy.plain.subs [(⟨['x'], 0⟩, .sym ⟨['y'], 0⟩)] (exampleXY.get i)⟩, ?_, ?_, ?_⟩
  · intro eqs ex sol rest h q hq σ
    unfold exampleSolver at h
    split_ifs at h with he
    simp only [List.cons.injEq] at h
    obtain ⟨rfl, -⟩ := h
    subst he
    obtain ⟨i, hi, rfl⟩ := List.mem_map.1 hq
    rw [eval_sub', sub_eq_zero]
    have hi' := mem_tuples.1 hi
    obtain ⟨I, a, b, rfl, hI, -, ha, hb⟩ := split_last_two (n := 0) (d := 3) hi'
    obtain rfl : I = [] := List.eq_nil_of_length_eq_zero hI
    simp only [Sympy.eval_subs, assigned, assign, exampleXY, exampleYX, List.nil_append]
    interval_cases a <;> interval_cases b <;> simp [Expr.eval, assign]
  · have h1 : swapLastTwo exampleXY = .ok ⟨[3, 3], fun idx =>
        if (List.zipWith (fun i b => decide (i < b)) idx [3, 3]).all id then
          exampleXY.get (idx.take 0 ++ (idx.drop 0).reverse)
        else .num 0⟩ := rfl
    unfold particularize
    simp only [Bool.false_eq_true, if_false]
    unfold particularizeLastTwo
    rw [h1, ok_bind, if_neg (by decide +kernel)]
    rw [show exampleSolver (swapEquations Sympy.plain exampleXY _) [] = [[(⟨['x'], 0⟩, .sym ⟨['y'], 0⟩)]] from
      if_pos (by decide +kernel)]
    rfl
  · decide +kernel
  · decide +kernel

end Shgpy
