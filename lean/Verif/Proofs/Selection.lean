import Verif.Spec.Selection
import Verif.Props.TensorTable
import Verif.Props.TensorSym
import Verif.Props.Formgen
import Verif.Props.Fformgen

/-!
# Crystals from the tables, mirrored crystals, Fourier coefficients of symmetric functions
-/

set_option linter.unusedSectionVars false
set_option linter.unusedSimpArgs false
set_option linter.unnecessarySeqFocus false

namespace Shgpy
open Spec

/-! ## Symbols of the tables -/

theorem free_replace {S : Sympy} {new : Sym → Expr} {e : Expr} {u : Sym} (hu : u ∈ (replaceParameters S new e).free) :
    u ∈ e.free ∨ ∃ s ∈ e.free, u ∈ (new s).free := by
  have key : ∀ (L : List Sym) (e : Expr),
      u ∈ (L.foldl (fun e fs => if fs.isReal = none then S.subs [(parsedSym fs, new fs)] e else e) e).free →
        u ∈ e.free ∨ ∃ s ∈ L, u ∈ (new s).free := by
    intro L
    induction L with
    | nil => intro e h; exact .inl h
    | cons a L ih =>
      intro e h
      rw [List.foldl_cons] at h
      rcases ih _ h with h | ⟨s, hs, h⟩
      · split_ifs at h with ha
        · rcases free_subs_single S h with ⟨h1, _⟩ | h
          · exact .inl h1
          · exact .inr ⟨a, by simp, h⟩
        · exact .inl h
      · exact .inr ⟨s, by simp [hs], h⟩
  rcases key _ _ hu with h | ⟨s, hs, h⟩
  · exact .inl h
  · exact .inr ⟨s, by rwa [(S.setOrder_perm e.free).mem_iff, List.mem_dedup] at hs, h⟩

theorem inRange_ofFn {r : ℕ} {idx : List ℕ} (h : Nd.InRange (List.replicate r 3) idx) :
    ∃ i : Fin r → Fin 3, idx = List.ofFn (fun k => (i k).val) := by
  obtain ⟨h1, h2⟩ := inRange_replicate.1 h
  subst h1
  refine ⟨fun k => ⟨idx[k], h2 _ (List.getElem_mem _)⟩, ?_⟩
  exact List.ofFn_getElem.symm

theorem shape_of_get {S : Sympy} {r : ℕ} {pre : Key} {tab : Dict Key (List (List ℤ))} {g : Key} {t : Nd Expr}
    (h : Dict.get (Dict.mapVals (tensorArray S pre r) tab) g = .ok t) : t.shape = List.replicate r 3 := by
  obtain ⟨_, _, rfl, _⟩ := TensorDef.get_mapVals_ok h
  rfl

/-- The symbols of the tables: without assumptions, and with one of the letters x, y and z in their names. -/
def TableSym (s : Sym) : Prop := s.tag = 0 ∧ ∃ c ∈ s.name, c = 'x' ∨ c = 'y' ∨ c = 'z'

theorem ofTable_facts {S : Sympy} {r : ℕ} {t : Nd Expr} {G : Set PG.SymOp} (h : OfTable S r t G) :
    t.shape = List.replicate r 3 ∧ (∀ σ, PG.InvariantUnder G (PG.valueOf r t σ)) ∧ ∀ s, OccursIn t s → TableSym s := by
  have hsym : ∀ {r : ℕ} {pre : Key} {table : Dict Key (Nd Expr)}, 0 < r →
      ((r = 3 ∧ pre = [] ∧ table = dipole S) ∨ (r = 3 ∧ pre = ['s'] ∧ table = surface S) ∨
        (r = 4 ∧ pre = [] ∧ table = quadrupole S)) → ∀ {g : Key} {t : Nd Expr}, Dict.get table g = .ok t →
      t.shape = List.replicate r 3 → ∀ s, OccursIn t s → TableSym s := by
    rintro r pre table hr ht g t hg hsh s ⟨idx, hidx, hs⟩
    rw [hsh] at hidx
    obtain ⟨i, rfl⟩ := inRange_ofFn hidx
    obtain ⟨j, rfl, _⟩ := C68_names S ht hg i hs
    refine ⟨rfl, PG.letter (j ⟨0, hr⟩), ?_, ?_⟩
    · simp only [List.mem_append, List.mem_ofFn]
      exact .inr ⟨_, rfl⟩
    · have : ∀ a : Fin 3, PG.letter a = 'x' ∨ PG.letter a = 'y' ∨ PG.letter a = 'z' := by decide
      exact this _
  cases h with
  | dipole hg ht =>
    obtain ⟨t', h1, h2, h3⟩ := (C55_dipole S).2 _ _ hg
    rw [ht] at h1; cases h1
    exact ⟨h2, fun σ => (h3 _).2 ⟨σ, rfl⟩, hsym (by norm_num) (.inl ⟨rfl, rfl, rfl⟩) ht h2⟩
  | surface hg ht =>
    obtain ⟨t', h1, h2, h3⟩ := (C55_surface S).2 _ _ hg
    rw [ht] at h1; cases h1
    exact ⟨h2, fun σ => (h3 _).2 ⟨σ, rfl⟩, hsym (by norm_num) (.inr (.inl ⟨rfl, rfl, rfl⟩)) ht h2⟩
  | quadrupole hg ht =>
    obtain ⟨t', h1, h2, h3⟩ := (C55_quadrupole S).2.1 _ _ hg
    rw [ht] at h1; cases h1
    exact ⟨h2, fun σ => (h3 _).2 ⟨σ, rfl⟩, hsym (by norm_num) (.inr (.inr ⟨rfl, rfl, rfl⟩)) ht h2⟩
  | isotropic ht =>
    obtain ⟨t', h1, h2, h3⟩ := (C55_quadrupole S).2.2
    rw [ht] at h1; cases h1
    exact ⟨h2, fun σ => (h3 _).2 ⟨σ, rfl⟩, hsym (by norm_num) (.inr (.inr ⟨rfl, rfl, rfl⟩)) ht h2⟩

section
variable (S : Sympy)
open PG TensorDef

theorem assigned_self {sol : List (Sym × Expr)} {σ : Valuation} (h : ∀ p ∈ sol, p.2.eval σ = σ p.1) : assigned sol σ = σ := by
  induction sol with
  | nil => rfl
  | cons p r ih =>
    have hr := ih (fun q hq => h q (List.mem_cons_of_mem _ hq))
    obtain ⟨s, e⟩ := p
    show assign (assigned r σ) s (e.eval (assigned r σ)) = σ
    rw [hr, h (s, e) (by simp)]
    funext u
    unfold assign
    split_ifs with hu
    · rw [hu]
    · rfl

theorem eval_subtract (a b : Expr) (σ : Valuation) : (S.sub a b).eval σ = a.eval σ - b.eval σ := by
  unfold Sympy.sub; rw [S.eval_norm]; simp [Expr.eval, Expr.evalSum, Expr.evalProd]; ring

/-- Every tabulated tensor is an array of sums and differences of symbols. -/
theorem ofTable_array {r : ℕ} {t : Nd Expr} {G : Set SymOp} (h : OfTable S r t G) :
    ∃ pre flat, t = tensorArray S pre r flat := by
  cases h with
  | dipole hg ht => obtain ⟨flat, -, rfl, -⟩ := get_mapVals_ok ht; exact ⟨_, _, rfl⟩
  | surface hg ht => obtain ⟨flat, -, rfl, -⟩ := get_mapVals_ok ht; exact ⟨_, _, rfl⟩
  | quadrupole hg ht => obtain ⟨flat, -, rfl, -⟩ := get_mapVals_ok ht; exact ⟨_, _, rfl⟩
  | isotropic ht => obtain ⟨flat, -, rfl, -⟩ := get_mapVals_ok ht; exact ⟨_, _, rfl⟩

theorem ofTable_describes {r : ℕ} {t : Nd Expr} {G : Set SymOp} (h : OfTable S r t G) : PG.Describes r t G := by
  cases h with
  | dipole hg ht => obtain ⟨t', h1, h2⟩ := (C55_dipole S).2 _ _ hg; rw [ht] at h1; cases h1; exact h2
  | surface hg ht => obtain ⟨t', h1, h2⟩ := (C55_surface S).2 _ _ hg; rw [ht] at h1; cases h1; exact h2
  | quadrupole hg ht => obtain ⟨t', h1, h2⟩ := (C55_quadrupole S).2.1 _ _ hg; rw [ht] at h1; cases h1; exact h2
  | isotropic ht => obtain ⟨t', h1, h2⟩ := (C55_quadrupole S).2.2; rw [ht] at h1; cases h1; exact h2

theorem isLinear_element (pre : Key) (r : ℕ) (e f : List ℤ) : IsLinear (S.sub (elementExpr S pre r e) (elementExpr S pre r f)) := by
  refine ⟨(elementTerms (1, 0) e).map (fun t => (t.2.val, tensorSym pre r t.1)) ++
    (elementTerms (1, 0) f).map (fun t => (-t.2.val, tensorSym pre r t.1)), fun σ => ?_⟩
  rw [eval_subtract, eval_elementExpr, eval_elementExpr, List.map_append, List.sum_append, List.map_map, List.map_map, sub_eq_add_neg]
  congr 1
  unfold LF.val
  generalize elementTerms (1, 0) f = l
  induction l with
  | nil => simp
  | cons t l ih =>
    simp only [List.map_cons, List.sum_cons, neg_add, Function.comp] at ih ⊢
    rw [ih]
    ring

end

/-! ## Tensors of the tables made symmetric by `particularize` -/

section
variable (S : Sympy)
open PG TensorDef

/-- What `particularize` does: nothing, or it substitutes the first solution of equations between elements of the tensor. -/
theorem particularize_cases {solve : Solver} {exclude : List Sym} {all : Bool} {n : ℕ} {t res : Nd Expr} (ht : IsTensor 3 (n + 2) t)
    (h : particularize S solve exclude all t = .ok res) : res = t ∨ ∃ eqs sol rest, solve eqs exclude = sol :: rest ∧
      res = applySol S sol t ∧ ∀ q ∈ eqs, ∃ i j, Nd.InRange t.shape i ∧ Nd.InRange t.shape j ∧ q = S.sub (t.get i) (t.get j) := by
  have hsh : t.shape = List.replicate (n + 2) 3 := ht
  unfold particularize at h
  cases all with
  | true =>
    have hr : t.rank = n + 2 := by simp [Nd.rank, hsh]
    have hd : t.shape.getD 1 0 = 3 := by rw [hsh]; simp [List.replicate_succ]
    rw [if_pos rfl] at h
    unfold particularizeAll at h
    rw [if_neg (by omega), if_neg (by omega), if_pos (by rw [hd, hsh]; simp)] at h
    rcases hsol : solve (allEquations S t) exclude with _ | ⟨sol, rest⟩
    · rw [hsol] at h; cases h
    · rw [hsol] at h
      cases h
      refine .inr ⟨_, sol, rest, hsol, rfl, fun q hq => ?_⟩
      obtain ⟨i, hi, hq⟩ := List.mem_flatMap.1 hq
      obtain ⟨j, hj, rfl⟩ := List.mem_map.1 hq
      have hi' := mem_tuples.1 hi
      rw [hd, hr] at hi'
      have hp := List.mem_permutations.1 (List.mem_dedup.1 hj)
      refine ⟨i, j, by rw [hsh]; exact hi', ?_, rfl⟩
      rw [hsh]
      rw [inRange_replicate] at hi' ⊢
      exact ⟨hp.length_eq.trans hi'.1, fun a ha => hi'.2 a (hp.mem_iff.1 ha)⟩
  | false =>
    obtain ⟨t2, h2, -, hget⟩ := swapLastTwo_ok ht
    simp only [Bool.false_eq_true, if_false] at h
    unfold particularizeLastTwo at h
    rw [h2, ok_bind] at h
    split_ifs at h with heq
    · cases h
      exact .inl rfl
    · rcases hsol : solve (swapEquations S t t2) exclude with _ | ⟨sol, rest⟩
      · rw [hsol] at h; cases h
      · rw [hsol] at h
        cases h
        refine .inr ⟨_, sol, rest, hsol, rfl, fun q hq => ?_⟩
        obtain ⟨i, hi, rfl⟩ := List.mem_map.1 hq
        have hi' := mem_tuples.1 hi
        have hi2 := hi'
        rw [hsh] at hi2
        obtain ⟨I, a, b, rfl, -⟩ := split_last_two hi2
        refine ⟨_, I ++ [b, a], hi', ?_, by rw [hget I a b hi']⟩
        rw [hsh]
        rw [inRange_replicate] at hi2 ⊢
        refine ⟨by simpa using hi2.1, fun c hc => hi2.2 c ?_⟩
        simp only [List.mem_append, List.mem_cons, List.not_mem_nil, or_false] at hc ⊢
        tauto

theorem free_substituted {sol : List (Sym × Expr)} {e : Expr} {s : Sym} (h : s ∈ (S.subs sol e).free) :
    s ∈ e.free ∨ ∃ p ∈ sol, s ∈ p.2.free := by
  unfold Sympy.subs at h
  induction sol generalizing e with
  | nil => exact .inl h
  | cons p r ih =>
    simp only [List.foldl_cons] at h
    rcases ih h with h | ⟨q, hq, h⟩
    · rcases Expr.free_subst e (S.free_norm _ _ h) with ⟨h, _⟩ | ⟨_, h⟩
      · exact .inl h
      · exact .inr ⟨p, by simp, h⟩
    · exact .inr ⟨q, by simp [hq], h⟩

theorem assigned_other {sol : List (Sym × Expr)} (σ : Valuation) {s : Sym} (h : s ∉ sol.map Prod.fst) : assigned sol σ s = σ s := by
  induction sol with
  | nil => rfl
  | cons p r ih =>
    obtain ⟨k, e⟩ := p
    simp only [List.map_cons, List.mem_cons, not_or] at h
    show assign (assigned r σ) k _ s = σ s
    unfold assign
    rw [if_neg h.1, ih h.2]

/-- The entry of the table behind a tensor, and the solution that was substituted. -/
theorem fromTable_cases {r : ℕ} {res : Nd Expr} {G : Set SymOp} (h : FromTable S r res G) :
    ∃ t, OfTable S r t G ∧ (res = t ∨ ∃ sol, res = applySol S sol t ∧
      (∀ p ∈ sol, ∀ s ∈ p.2.free, s ∉ sol.map Prod.fst ∧ OccursIn t s) ∧ ∃ E : List ℕ → List ℕ → Prop,
        (∀ σ i j, E i j → (t.get i).eval (assigned sol σ) = (t.get j).eval (assigned sol σ)) ∧
        ∀ τ, (∀ i j, E i j → (t.get i).eval τ = (t.get j).eval τ) → ∀ p ∈ sol, p.2.eval τ = τ p.1) := by
  cases h with
  | entry h => exact ⟨_, h, .inl rfl⟩
  | @particularized solve exclude all t res _ h hs hp =>
    refine ⟨t, h, ?_⟩
    obtain ⟨n, rfl⟩ : ∃ n, r = n + 2 := by cases h <;> exact ⟨_, rfl⟩
    rcases particularize_cases S (ofTable_facts h).1 hp with h1 | ⟨eqs, sol, rest, hsol, h1, heq⟩
    · exact .inl h1
    · refine .inr ⟨sol, h1, fun p hp s hps => ?_, fun i j => S.sub (t.get i) (t.get j) ∈ eqs, fun σ i j hij => ?_, fun τ hτ p hp => ?_⟩
      · obtain ⟨k1, q, hq, hsq⟩ := hs.reduced _ _ _ _ hsol p hp s hps
        refine ⟨k1, ?_⟩
        obtain ⟨i, j, hi, hj, rfl⟩ := heq q hq
        have := S.free_norm _ _ hsq
        simp only [Expr.free, Expr.freeL, List.append_nil, List.mem_append, List.nil_append] at this
        rcases this with h | h
        · exact ⟨i, hi, h⟩
        · exact ⟨j, hj, h⟩
      · have := hs.sound _ _ _ _ hsol _ hij σ
        rw [S.eval_subs, eval_subtract, sub_eq_zero] at this
        exact this
      · refine hs.complete _ _ _ _ (fun q hq => ?_) hsol τ (fun q hq => ?_) p hp
        · obtain ⟨i, j, -, -, rfl⟩ := heq q hq
          obtain ⟨pre, flat, rfl⟩ := ofTable_array S h
          rw [get_tensorArray, get_tensorArray]
          exact isLinear_element S _ _ _ _
        · obtain ⟨i, j, -, -, rfl⟩ := heq q hq
          rw [eval_subtract, hτ i j hq, sub_self]

theorem fromTable_facts {r : ℕ} {t : Nd Expr} {G : Set SymOp} (h : FromTable S r t G) :
    t.shape = List.replicate r 3 ∧ (∀ σ, InvariantUnder G (valueOf r t σ)) ∧ ∀ s, OccursIn t s → TableSym s := by
  obtain ⟨t₀, h0, rfl | ⟨sol, rfl, hred, -⟩⟩ := fromTable_cases S h
  · exact ofTable_facts h0
  · obtain ⟨h1, h2, h3⟩ := ofTable_facts h0
    refine ⟨h1, fun σ => ?_, ?_⟩
    · have : valueOf r (applySol S sol t₀) σ = valueOf r t₀ (assigned sol σ) := by
        funext i
        exact S.eval_subs _ _ _
      rw [this]
      exact h2 _
    · rintro s ⟨idx, hidx, hs⟩
      rcases free_substituted S hs with h | ⟨p, hp, h⟩
      · exact h3 s ⟨idx, hidx, h⟩
      · exact h3 s (hred p hp s h).2

/-- If the values of the entries of the tables are transformed by `m` when those of the parameters are, so are those of the tensors made
symmetric. -/
theorem fromTable_equivariant {m : ℂ → ℂ} (hm : ∀ {r : ℕ} {t : Nd Expr} {G : Set SymOp}, OfTable S r t G → ∀ (σ : Valuation) idx,
    (t.get idx).eval (fun s => m (σ s)) = m ((t.get idx).eval σ)) {r : ℕ} {t : Nd Expr} {G : Set SymOp} (h : FromTable S r t G)
    (σ : Valuation) (idx : List ℕ) : (t.get idx).eval (fun s => m (σ s)) = m ((t.get idx).eval σ) := by
  obtain ⟨t₀, h0, rfl | ⟨sol, rfl, hred, E, hsound, hcomp⟩⟩ := fromTable_cases S h
  · exact hm h0 σ idx
  · show (S.subs sol (t₀.get idx)).eval _ = m ((S.subs sol (t₀.get idx)).eval σ)
    rw [S.eval_subs, S.eval_subs, ← hm h0]
    congr 1
    funext s
    by_cases hs : s ∈ sol.map Prod.fst
    · obtain ⟨p, hp, rfl⟩ := List.mem_map.1 hs
      have k1 := hcomp (assigned sol (fun s => m (σ s))) (fun i j hij => hsound _ i j hij) p hp
      have k2 := hcomp (fun s => m (assigned sol σ s)) (fun i j hij => by rw [hm h0, hm h0, hsound _ i j hij]) p hp
      rw [← k1, ← k2]
      refine Expr.eval_congr _ (fun s hs => ?_)
      have := (hred p hp s hs).1
      rw [assigned_other _ this, assigned_other _ this]
    · rw [assigned_other _ hs, assigned_other _ hs]

end

theorem tableSym_real {s : Sym} (h : TableSym s) : s.isReal = none := by
  obtain ⟨n, t⟩ := s
  obtain ⟨rfl, -⟩ := h
  rfl

theorem not_phi_name {pre suf : Key} {s : Sym} (h : TableSym s) : realSym (pre ++ s.name ++ suf) ≠ phi := by
  intro he
  obtain ⟨-, c, hc, h⟩ := h
  have : c ∈ (['p', 'h', 'i'] : Key) := by
    have h2 : pre ++ s.name ++ suf = ['p', 'h', 'i'] := congrArg Sym.name he
    rw [← h2]
    simp [hc]
  rcases h with rfl | rfl | rfl <;> simp at this

/-- What is needed of a tensor that was taken from a table and prepared for `formgen`. -/
theorem prepared_facts {S : Sympy} {r : ℕ} {t t' : Nd Expr} {G : Set PG.SymOp} (h : FromTable S r t G) (hm : MadeReal S t t') :
    t'.shape = List.replicate r 3 ∧ (∀ σ, PG.InvariantUnder G (PG.valueOf r t' σ)) ∧
      (∀ s, OccursIn t' s → s.isReal = some true) ∧ ¬ OccursIn t' phi := by
  obtain ⟨h1, h2, h3⟩ := fromTable_facts S h
  have hp : PlainSymbols t := fun s hs _ => (h3 s hs).1
  have hn : ∀ s, OccursIn t s → s.isReal ≠ some false := fun s hs => by rw [tableSym_real (h3 s hs)]; simp
  have hval : ∀ {t' : Nd Expr} {f : Valuation → Valuation}, (∀ idx, Nd.InRange t.shape idx → ∀ σ : Valuation,
      (t'.get idx).eval σ = (t.get idx).eval (f σ)) → ∀ σ, PG.valueOf r t' σ = PG.valueOf r t (f σ) := by
    intro t' f hf σ
    funext i
    refine hf _ ?_ σ
    rw [h1, inRange_replicate]
    refine ⟨by simp, fun a ha => ?_⟩
    obtain ⟨k, rfl⟩ := List.mem_ofFn.1 ha
    exact (i k).isLt
  have hphi : phi.isReal ≠ none := by decide
  cases hm with
  | real =>
    obtain ⟨a1, a2, a3⟩ := C43_real S t hp
    refine ⟨by rw [a1, h1], fun σ => ?_, a3 hn, ?_⟩
    · rw [hval a2]; exact h2 _
    · rintro ⟨idx, hidx, hs⟩
      rcases free_replace hs with hs | ⟨s, hs, hu⟩
      · exact hphi (tableSym_real (h3 _ ⟨idx, hidx, hs⟩))
      · simp only [Expr.free, List.mem_singleton] at hu
        exact not_phi_name (pre := []) (suf := []) (h3 _ ⟨idx, hidx, hs⟩) (by simpa using hu.symm)
  | complex pr pi sr si =>
    obtain ⟨a1, a2⟩ := C43_complex S pr pi sr si t hp
    refine ⟨by rw [a1, h1], fun σ => ?_, (C43_complex_accepted S pr pi sr si t hp hn).1, ?_⟩
    · rw [hval a2]; exact h2 _
    · rintro ⟨idx, hidx, hs⟩
      rcases free_replace hs with hs | ⟨s, hs, hu⟩
      · exact hphi (tableSym_real (h3 _ ⟨idx, hidx, hs⟩))
      · have hts := h3 _ ⟨idx, hidx, hs⟩
        rcases S.free_add hu with h | h
        · simp only [Expr.free, List.mem_singleton] at h
          exact not_phi_name hts h.symm
        · rcases S.free_mul h with h | h
          · simp [Expr.free] at h
          · simp only [Expr.free, List.mem_singleton] at h
            exact not_phi_name hts h.symm

/-! ## Operations on crystals -/

/-- A matrix as a function. -/
def opM (A : PG.SymOp) : Fin 3 → Fin 3 → ℂ := fun i j => (A i j : ℂ)

theorem act_rot3 {t : Nd Expr} {σ : Valuation} {A : PG.SymOp} (h : PG.act A (PG.valueOf 3 t σ) = PG.valueOf 3 t σ) :
    rot3 (opM A) (value3 t σ) = value3 t σ := by
  funext i j k
  have := congrFun h ![i, j, k]
  rw [TensorDef.act3] at this
  exact this

theorem act_rot4 {t : Nd Expr} {σ : Valuation} {A : PG.SymOp} (h : PG.act A (PG.valueOf 4 t σ) = PG.valueOf 4 t σ) :
    rot4 (opM A) (value4 t σ) = value4 t σ := by
  funext i j k l
  have := congrFun h ![i, j, k, l]
  rw [TensorDef.act4] at this
  exact this

theorem rot3_zero (A : Fin 3 → Fin 3 → ℂ) : rot3 A 0 = 0 := by
  funext i j k; simp [rot3]

theorem rot4_zero (A : Fin 3 → Fin 3 → ℂ) : rot4 A 0 = 0 := by
  funext i j k l; simp [rot4]

/-- The crystal seen in transformed axes. -/
noncomputable def transformedCrystal (A : Fin 3 → Fin 3 → ℂ) (X : Crystal) : Crystal := ⟨rot3 A X.eee, rot3 A X.mee, rot4 A X.qee⟩

theorem tabulated_facts {S : Sympy} {A : PG.SymOp} {eee qee : Option (Nd Expr)} (h : Tabulated S A eee qee)
    (hg : ¬ (eee = none ∧ qee = none)) :
    ValidTensors eee none qee ∧ ¬ OccursInSome eee none qee phi ∧
      ∀ σ, transformedCrystal (opM A) (crystalOf eee none qee σ) = crystalOf eee none qee σ := by
  refine ⟨⟨?_, by simp, ?_, fun h => hg ⟨h.1, h.2.2⟩, ?_⟩, ?_, fun σ => ?_⟩
  · intro t ht
    obtain ⟨t₀, G, h1, h2, _⟩ := h.eee3 t ht
    exact (prepared_facts h1 h2).1
  · intro t ht
    obtain ⟨t₀, G, h1, h2, _⟩ := h.qee4 t ht
    exact (prepared_facts h1 h2).1
  · rintro t (ht | ht | ht) s hs
    · obtain ⟨t₀, G, h1, h2, _⟩ := h.eee3 t ht
      exact (prepared_facts h1 h2).2.2.1 s hs
    · simp at ht
    · obtain ⟨t₀, G, h1, h2, _⟩ := h.qee4 t ht
      exact (prepared_facts h1 h2).2.2.1 s hs
  · rintro ⟨t, ht | ht | ht, hs⟩
    · obtain ⟨t₀, G, h1, h2, _⟩ := h.eee3 t ht
      exact (prepared_facts h1 h2).2.2.2 hs
    · simp at ht
    · obtain ⟨t₀, G, h1, h2, _⟩ := h.qee4 t ht
      exact (prepared_facts h1 h2).2.2.2 hs
  · refine Crystal.ext ?_ ?_ ?_
    · show rot3 (opM A) ((eee.map (fun t => value3 t σ)).getD 0) = _
      cases heee : eee with
      | none => exact rot3_zero _
      | some t =>
        obtain ⟨t₀, G, h1, h2, h3⟩ := h.eee3 t heee
        exact act_rot3 ((prepared_facts h1 h2).2.1 σ A h3)
    · exact rot3_zero _
    · show rot4 (opM A) ((qee.map (fun t => value4 t σ)).getD 0) = _
      cases hqee : qee with
      | none => exact rot4_zero _
      | some t =>
        obtain ⟨t₀, G, h1, h2, h3⟩ := h.qee4 t hqee
        exact act_rot4 ((prepared_facts h1 h2).2.1 σ A h3)

theorem opM_rotZ (α : ℝ) : opM (PG.rotZ α) = rotZ α := by
  funext i j
  fin_cases i <;> fin_cases j <;> simp [opM, PG.rotZ, rotZ]

theorem transformed_rotZ (α : ℝ) (X : Crystal) : transformedCrystal (opM (PG.rotZ α)) X = X.turned α := by
  rw [opM_rotZ]; rfl

/-- The sign of a component under the mirror perpendicular to `y`. -/
def sgnY (i : Fin 3) : ℂ := if i = 1 then -1 else 1

theorem opM_mirrorY (i j : Fin 3) : opM PG.mirrorY i j = if i = j then sgnY i else 0 := by
  fin_cases i <;> fin_cases j <;> simp [opM, PG.mirrorY, sgnY]

theorem rot3_mirrorY (t : T3) (i j k : Fin 3) : rot3 (opM PG.mirrorY) t i j k = sgnY i * sgnY j * sgnY k * t i j k := by
  simp only [rot3, opM_mirrorY, ite_mul, mul_ite, zero_mul, mul_zero, Finset.sum_ite_eq, Finset.mem_univ, if_true]

theorem rot4_mirrorY (t : T4) (i j k l : Fin 3) :
    rot4 (opM PG.mirrorY) t i j k l = sgnY i * sgnY j * sgnY k * sgnY l * t i j k l := by
  simp only [rot4, opM_mirrorY, ite_mul, mul_ite, zero_mul, mul_zero, Finset.sum_ite_eq, Finset.mem_univ, if_true]

/-- The intensities of a mirrored crystal (without magnetic dipole) are those of the crystal at the opposite azimuth. -/
theorem intensity_mirrored (X : Crystal) (hm : X.mee = 0) (θ φ : ℝ) (p q : Pol) :
    intensity (transformedCrystal (opM PG.mirrorY) X) θ φ p q = intensity X θ (-φ) p q := by
  have hmul : mulM (rotZ φ) (opM PG.mirrorY) = mulM (opM PG.mirrorY) (rotZ (-φ)) := by
    funext i j
    fin_cases i <;> fin_cases j <;> simp [mulM, opM, PG.mirrorY, rotZ, Fin.sum_univ_three]
  have hX : (transformedCrystal (opM PG.mirrorY) X).turned φ = transformedCrystal (opM PG.mirrorY) (X.turned (-φ)) := by
    simp only [Crystal.turned, transformedCrystal, rot3_comp, rot4_comp, hmul]
  unfold intensity radiated
  rw [hX]
  have hm' : (X.turned (-φ)).mee = 0 := by
    show rot3 _ X.mee = 0
    rw [hm, rot3_zero]
  generalize X.turned (-φ) = Y at hm'
  have hs : ∀ i, source (transformedCrystal (opM PG.mirrorY) Y) (kIn θ) (fieldIn θ p) i =
      sgnY i * source Y (kIn θ) (fieldIn θ p) i := by
    intro i
    simp only [source, transformedCrystal, hm', rot3_zero]
    have h1 : quad (rot3 (opM PG.mirrorY) Y.eee) (fieldIn θ p) i = sgnY i * quad Y.eee (fieldIn θ p) i := by
      simp only [quad, rot3_mirrorY, Fin.sum_univ_three]
      cases p <;> simp [fieldIn, sgnY] <;> split_ifs <;> ring
    have h2 : quadGrad (rot4 (opM PG.mirrorY) Y.qee) (kIn θ) (fieldIn θ p) i = sgnY i * quadGrad Y.qee (kIn θ) (fieldIn θ p) i := by
      simp only [quadGrad, rot4_mirrorY, Fin.sum_univ_three]
      cases p <;> simp [fieldIn, kIn, sgnY] <;> split_ifs <;> ring
    have h3 : ∀ v, cross (kIn θ) (quad (0 : T3) v) i = 0 := by
      intro v
      have : quad (0 : T3) v = 0 := by funext j; simp [quad]
      rw [this]
      fin_cases i <;> simp [cross]
    rw [h1, h2, h3]
    ring
  have hp : ∀ i, perp (kOut θ) (source (transformedCrystal (opM PG.mirrorY) Y) (kIn θ) (fieldIn θ p)) i =
      sgnY i * perp (kOut θ) (source Y (kIn θ) (fieldIn θ p)) i := by
    intro i
    have hd : dot (kOut θ) (source (transformedCrystal (opM PG.mirrorY) Y) (kIn θ) (fieldIn θ p)) =
        dot (kOut θ) (source Y (kIn θ) (fieldIn θ p)) := by
      simp only [dot, hs, Fin.sum_univ_three]
      simp [kOut, sgnY]
    simp only [perp, hd, hs]
    fin_cases i <;> simp [kOut, sgnY]
  cases q <;> simp only [outIntensity, hp] <;> simp [sgnY, Complex.normSq_neg]

/-! ## Fourier coefficients -/

theorem coeff_of_series {d : ℕ} {c : ℤ → ℂ} {f : ℝ → ℂ}
    (hf : ∀ x, f x = ∑ n ∈ Finset.Icc (-(d : ℤ)) d, c n * harmonic n x) (n : ℤ) :
    integralCoeff f n = if n ∈ Finset.Icc (-(d : ℤ)) d then c n else 0 := by
  have h1 : f = fun x : ℝ => ∑ m ∈ Finset.Icc (-(d : ℤ)) d, c m * Complex.exp (Complex.I * (m * x)) := by
    funext x; exact hf x
  rw [h1, integralCoeff_sum (Finset.Icc (-(d : ℤ)) d) c (fun m => m) n, Finset.sum_ite_eq']

theorem harmonic_shift (n : ℤ) (x α : ℝ) : harmonic n (x + α) = harmonic n α * harmonic n x := by
  unfold harmonic
  rw [← Complex.exp_add]
  congr 1
  push_cast
  ring

theorem coeff_shift {d : ℕ} {f : ℝ → ℂ} (h : TrigDegree d f) (α : ℝ) (n : ℤ) :
    integralCoeff (fun x => f (x + α)) n = harmonic n α * integralCoeff f n := by
  have h1 : ∀ x, f (x + α) = ∑ m ∈ Finset.Icc (-(d : ℤ)) d, (harmonic m α * integralCoeff f m) * harmonic m x := by
    intro x
    rw [TrigDegree.series h]
    refine Finset.sum_congr rfl (fun m _ => ?_)
    rw [harmonic_shift]
    ring
  rw [coeff_of_series h1]
  split_ifs with hn
  · rfl
  · rw [TrigDegree.coeff_zero h, mul_zero]
    rw [Finset.mem_Icc] at hn
    by_contra hc
    exact hn (abs_le.1 (not_lt.1 hc))

theorem coeff_neg {d : ℕ} {f : ℝ → ℂ} (h : TrigDegree d f) (n : ℤ) :
    integralCoeff (fun x => f (-x)) n = integralCoeff f (-n) := by
  have h1 : ∀ x, f (-x) = ∑ m ∈ Finset.Icc (-(d : ℤ)) d, integralCoeff f (-m) * harmonic m x := by
    intro x
    rw [TrigDegree.series h]
    refine Finset.sum_bij' (fun m _ => -m) (fun m _ => -m) ?_ ?_ ?_ ?_ ?_
    · intro m hm; rw [Finset.mem_Icc] at hm ⊢; omega
    · intro m hm; rw [Finset.mem_Icc] at hm ⊢; omega
    · intro m _; exact neg_neg m
    · intro m _; exact neg_neg m
    · intro m _
      rw [neg_neg]
      congr 1
      unfold harmonic
      congr 1
      push_cast
      ring
  rw [coeff_of_series h1]
  split_ifs with hn
  · rfl
  · rw [TrigDegree.coeff_zero h]
    rw [abs_neg]
    rw [Finset.mem_Icc] at hn
    by_contra hc
    exact hn (abs_le.1 (not_lt.1 hc))

theorem harmonic_root {n : ℕ} (hn : 0 < n) (m : ℤ) : harmonic m (2 * Real.pi / n) = 1 ↔ (n : ℤ) ∣ m := by
  unfold harmonic
  rw [Complex.exp_eq_one_iff]
  have hn' : (n : ℂ) ≠ 0 := by exact_mod_cast hn.ne'
  have hpi : (2 * Real.pi * Complex.I : ℂ) ≠ 0 := Complex.two_pi_I_ne_zero
  constructor
  · rintro ⟨k, hk⟩
    refine ⟨k, ?_⟩
    have h2 : ((m : ℂ) - n * k) * (2 * Real.pi * Complex.I) = 0 := by
      push_cast at hk
      field_simp at hk
      linear_combination (2 * Real.pi * Complex.I : ℂ) * hk
    have h3 := (mul_eq_zero.1 h2).resolve_right hpi
    have h4 : (m : ℂ) = ((n * k : ℤ) : ℂ) := by push_cast; linear_combination h3
    exact_mod_cast h4
  · rintro ⟨k, rfl⟩
    refine ⟨k, ?_⟩
    push_cast
    field_simp

end Shgpy
