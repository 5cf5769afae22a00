import Verif.Spec.Lowered
import Verif.Props.Particularized
import Verif.Props.Orientation
import Verif.Props.Degenerate
import Verif.Props.MergeFit

/-!
# Lower symmetry: C104
-/

set_option linter.unusedSectionVars false
set_option linter.unusedSimpArgs false

namespace Shgpy
open Spec Spec.PG TensorDef
open scoped ComplexConjugate

section
variable (S : Sympy) (ex : Rewriting) (R : Repr) (C : Compiler)

/-! ## Lemmas -/

theorem inRange_index {n : ℕ} (i : Fin n → Fin 3) : Nd.InRange (List.replicate n 3) (List.ofFn (fun k => (i k).val)) := by
  rw [inRange_replicate]
  refine ⟨by simp, fun x hx => ?_⟩
  obtain ⟨k, rfl⟩ := List.mem_ofFn.1 hx
  exact (i k).isLt

/-- The values of a tabulated tensor at the conjugate values of the parameters are the conjugate ones. -/
theorem ofTable_conj {n : ℕ} {t : Nd Expr} {G : Set SymOp} (h : OfTable S n t G) (σ : Valuation) (idx : List ℕ) :
    (t.get idx).eval (fun s => conj (σ s)) = conj ((t.get idx).eval σ) := by
  obtain ⟨pre, flat, rfl⟩ := ofTable_array S h
  rw [get_tensorArray, eval_elementExpr, eval_elementExpr]
  generalize elementTerms (1, 0) _ = l
  induction l with
  | nil => simp [LF.val]
  | cons x l ih =>
    rw [LF.val_cons, LF.val_cons, ih, map_add, map_mul]
    congr 2
    simp [Z3.val]

/-- Where all parameters are real, a tensor made real has real values. -/
theorem made_real_conj {n : ℕ} {t : Nd Expr} {G : Set SymOp} (h : FromTable S n t G) (r : Sym → ℝ) (i : Fin n → Fin 3) :
    conj (valueOf n (makeTensorReal S t) (realVal r) i) = valueOf n (makeTensorReal S t) (realVal r) i := by
  obtain ⟨h1, h2, h3⟩ := fromTable_facts S h
  obtain ⟨a1, a2, a3⟩ := C43_real S t (fun s hs _ => (h3 s hs).1)
  have hr : Nd.InRange t.shape (List.ofFn (fun k => (i k).val)) := by rw [h1]; exact inRange_index i
  unfold valueOf
  rw [a2 _ hr, ← fromTable_equivariant S (m := conj) (fun h σ idx => ofTable_conj S h σ idx) h]
  refine Expr.eval_congr _ (fun s hs => ?_)
  simp [realified, tableSym_real (h3 s ⟨_, hr, hs⟩), realVal]

/-- The parameters of a tensor of a table are elements of it. -/
theorem ofTable_parameter {n : ℕ} {t : Nd Expr} {G : Set SymOp} (h : OfTable S n t G) {s : Sym} (hs : OccursIn t s) :
    ∃ j : Fin n → Fin 3, ∀ σ, valueOf n t σ j = σ s := by
  have h1 := (ofTable_facts h).1
  obtain ⟨idx, hidx, hs⟩ := hs
  rw [h1] at hidx
  obtain ⟨i, rfl⟩ := inRange_ofFn hidx
  have key : ∀ {pre : Key} {table : Dict Key (Nd Expr)},
      ((n = 3 ∧ pre = [] ∧ table = dipole S) ∨ (n = 3 ∧ pre = ['s'] ∧ table = surface S) ∨
        (n = 4 ∧ pre = [] ∧ table = quadrupole S)) → ∀ {g : Key}, Dict.get table g = .ok t →
        ∃ j : Fin n → Fin 3, ∀ σ, valueOf n t σ j = σ s := by
    intro pre table ht g hg
    obtain ⟨j, -, hj⟩ := C68_names S ht hg i hs
    exact ⟨j, fun σ => by unfold valueOf; rw [hj]; simp [Expr.eval]⟩
  cases h with
  | dipole hg ht => exact key (.inl ⟨rfl, rfl, rfl⟩) ht
  | surface hg ht => exact key (.inr (.inl ⟨rfl, rfl, rfl⟩)) ht
  | quadrupole hg ht => exact key (.inr (.inr ⟨rfl, rfl, rfl⟩)) ht
  | isotropic ht => exact key (.inr (.inr ⟨rfl, rfl, rfl⟩)) ht

theorem tableSym_ext {s s' : Sym} (h : TableSym s) (h' : TableSym s') (hn : s.name = s'.name) : s = s' := by
  obtain ⟨n, a⟩ := s
  obtain ⟨n', a'⟩ := s'
  obtain ⟨rfl, -⟩ := h
  obtain ⟨rfl, -⟩ := h'
  cases hn
  rfl

theorem tableTensor_from {n : ℕ} {u : Nd Expr} {G : Set SymOp} (h : TableTensor S n u G) : FromTable S n u G := by
  cases h with
  | entry h => exact .entry h
  | particularized h hs hp => exact .particularized h hs hp

/-- The symbols of the result of `particularize` are symbols of the tensor. -/
theorem particularize_symbols {solve : Solver} (hs : SolverReduced solve) {exclude : List Sym} {permuteAll : Bool} {n : ℕ}
    {t u : Nd Expr} (hsh : IsTensor 3 (n + 2) t) (hp : particularize S solve exclude permuteAll t = .ok u) {s : Sym}
    (hs' : OccursIn u s) : OccursIn t s := by
  rcases particularize_cases S hsh hp with rfl | ⟨eqs, sol, rest, hsol, rfl, heq⟩
  · exact hs'
  · obtain ⟨idx, hidx, hs'⟩ := hs'
    rcases free_substituted S hs' with h | ⟨p, hp, h⟩
    · exact ⟨idx, hidx, h⟩
    · obtain ⟨-, q, hq, hsq⟩ := hs _ _ _ _ hsol p hp s h
      obtain ⟨i, j, hi, hj, rfl⟩ := heq q hq
      have := S.free_norm _ _ hsq
      simp only [Expr.free, Expr.freeL, List.append_nil, List.mem_append, List.nil_append] at this
      rcases this with h | h
      · exact ⟨i, hi, h⟩
      · exact ⟨j, hj, h⟩

theorem entry_reaches {n : ℕ} {u : Nd Expr} {G : Set SymOp} (h : OfTable S n u G) {T : Tens n} (hT : InvariantUnder G T) :
    ∃ σ, valueOf n u σ = T ∧ ∀ s, OccursIn u s → ∃ j, σ s = T j := by
  obtain ⟨σ, rfl⟩ := ((ofTable_describes S h).2 T).1 hT
  exact ⟨σ, rfl, fun s hs => by obtain ⟨j, hj⟩ := ofTable_parameter S h hs; exact ⟨j, (hj σ).symm⟩⟩

/-- Every symmetric invariant tensor is a value of the tensor, with elements of it as parameters. -/
theorem tableTensor_reaches {n : ℕ} {u : Nd Expr} {G : Set SymOp} (h : TableTensor S n u G) {T : Tens n} (hT : InvariantUnder G T)
    (hsym : SymmetricTensor T ∨ OfTable S n u G) : ∃ σ, valueOf n u σ = T ∧ ∀ s, OccursIn u s → ∃ j, σ s = T j := by
  rcases hsym with hsym | hsym
  swap
  · exact entry_reaches S hsym hT
  cases h with
  | entry h => exact entry_reaches S h hT
  | @particularized solve exclude t res _ h hs hp =>
    obtain ⟨σ, rfl⟩ := ((ofTable_describes S h).2 T).1 hT
    obtain ⟨m, rfl⟩ : ∃ m, n = m + 2 := by cases h <;> exact ⟨_, rfl⟩
    have hsh := (ofTable_facts h).1
    have hkeep := C42_keeps S hs.complete exclude m t u hsh (fun I a b _ => by
      obtain ⟨pre, flat, rfl⟩ := ofTable_array S h
      rw [get_tensorArray, get_tensorArray]; exact isLinear_element S _ _ _ _) hp σ ((symmetricTensor_iff hsh σ).1 hsym)
    refine ⟨σ, funext fun i => hkeep _, fun s hs' => ?_⟩
    have hocc : OccursIn t s := particularize_symbols S hs.reduced hsh hp hs'
    obtain ⟨j, hj⟩ := ofTable_parameter S h hocc
    exact ⟨j, (hj σ).symm⟩

/-- Every real symmetric invariant tensor is a value of the tensor made real, at real parameters. -/
theorem real_reaches {n : ℕ} {u : Nd Expr} {G : Set SymOp} (h : TableTensor S n u G) {T : Tens n} (hT : InvariantUnder G T)
    (hsym : SymmetricTensor T ∨ OfTable S n u G) (hc : ∀ i, conj (T i) = T i) : ∃ r : Sym → ℝ, valueOf n (makeTensorReal S u) (realVal r) = T := by
  obtain ⟨h1, h2, h3⟩ := fromTable_facts S (tableTensor_from S h)
  obtain ⟨a1, a2, a3⟩ := C43_real S u (fun s hs _ => (h3 s hs).1)
  obtain ⟨σ, rfl, hj⟩ := tableTensor_reaches S h hT hsym
  refine ⟨fun v => (σ ⟨v.name, 0⟩).re, funext fun i => ?_⟩
  have hr : Nd.InRange u.shape (List.ofFn (fun k => (i k).val)) := by rw [h1]; exact inRange_index i
  unfold valueOf
  rw [a2 _ hr]
  refine Expr.eval_congr _ (fun s hs => ?_)
  have hs' : OccursIn u s := ⟨_, hr, hs⟩
  obtain ⟨j, hj⟩ := hj s hs'
  have := hc j
  rw [← hj, Complex.conj_eq_iff_re] at this
  have e : (⟨s.name, 0⟩ : Sym) = s := by
    obtain ⟨nm, tg⟩ := s
    obtain ⟨rfl, -⟩ := h3 _ hs'
    rfl
  simp only [realified, tableSym_real (h3 s hs'), if_true, realVal, realSym]
  rw [e, this]

open Classical in
/-- Every symmetric invariant tensor is a value of the tensor made complex, at real parameters. -/
theorem complex_reaches {n : ℕ} {u : Nd Expr} {G : Set SymOp} (h : TableTensor S n u G) {T : Tens n} (hT : InvariantUnder G T)
    (hsym : SymmetricTensor T ∨ OfTable S n u G) {pr pi sr si : Key} (hn : ClearNames pr pi sr si u) :
    ∃ r : Sym → ℝ, valueOf n (makeTensorComplex S pr pi sr si u) (realVal r) = T := by
  obtain ⟨h1, h2, h3⟩ := fromTable_facts S (tableTensor_from S h)
  obtain ⟨a1, a2⟩ := C43_complex S pr pi sr si u (fun s hs _ => (h3 s hs).1)
  obtain ⟨σ, rfl, -⟩ := tableTensor_reaches S h hT hsym
  refine ⟨fun v => if hv : ∃ s, OccursIn u s ∧ v = realSym (pr ++ s.name ++ sr) then (σ hv.choose).re else
    if hv : ∃ s, OccursIn u s ∧ v = realSym (pi ++ s.name ++ si) then (σ hv.choose).im else 0, funext fun i => ?_⟩
  have hr : Nd.InRange u.shape (List.ofFn (fun k => (i k).val)) := by rw [h1]; exact inRange_index i
  unfold valueOf
  rw [a2 _ hr]
  refine Expr.eval_congr _ (fun s hs => ?_)
  have hs' : OccursIn u s := ⟨_, hr, hs⟩
  simp only [complexified, tableSym_real (h3 s hs'), if_true, realVal]
  have e1 : ∃ s', OccursIn u s' ∧ realSym (pr ++ s.name ++ sr) = realSym (pr ++ s'.name ++ sr) := ⟨s, hs', rfl⟩
  have e2 : ¬ ∃ s', OccursIn u s' ∧ realSym (pi ++ s.name ++ si) = realSym (pr ++ s'.name ++ sr) := by
    rintro ⟨s', h', he⟩
    exact hn s' s h' hs' (congrArg Sym.name he).symm
  have e3 : ∃ s', OccursIn u s' ∧ realSym (pi ++ s.name ++ si) = realSym (pi ++ s'.name ++ si) := ⟨s, hs', rfl⟩
  rw [dif_pos e1, dif_neg e2, dif_pos e3]
  have c1 : e1.choose = s := by
    obtain ⟨b1, b2⟩ := e1.choose_spec
    have b3 : pr ++ s.name ++ sr = pr ++ e1.choose.name ++ sr := congrArg Sym.name b2
    exact tableSym_ext (h3 _ b1) (h3 _ hs') (List.append_cancel_left (List.append_cancel_right b3)).symm
  have c3 : e3.choose = s := by
    obtain ⟨b1, b2⟩ := e3.choose_spec
    have b3 : pi ++ s.name ++ si = pi ++ e3.choose.name ++ si := congrArg Sym.name b2
    exact tableSym_ext (h3 _ b1) (h3 _ hs') (List.append_cancel_left (List.append_cancel_right b3)).symm
  rw [c1, c3, mul_comm]
  exact Complex.re_add_im (σ s)

/-! ## The symmetric part -/

theorem lastSwap_lastSwap {n : ℕ} (hn : 2 ≤ n) (k : Fin n) : lastSwap n (lastSwap n k) = k := by
  obtain ⟨k, hk⟩ := k
  apply Fin.ext
  unfold lastSwap
  by_cases h1 : k + 1 = n
  · have h2 : ¬ (k - 1 + 1 = n) := by omega
    have h3 : k - 1 + 2 = n := by omega
    simp only [h1, dif_pos, h2, dif_neg, not_false_eq_true, h3]
    omega
  · by_cases h2 : k + 2 = n
    · have h3 : k + 1 + 1 = n := by omega
      simp only [h1, dif_neg, not_false_eq_true, h2, dif_pos, h3]
      omega
    · simp only [h1, dif_neg, not_false_eq_true, h2]

theorem symmetricPart_idem {n : ℕ} (hn : 2 ≤ n) (T : Tens n) : symmetricPart (symmetricPart T) = symmetricPart T := by
  funext i
  simp only [symmetricPart, lastSwap_lastSwap hn]
  ring

theorem symmetricPart_swap {n : ℕ} (hn : 2 ≤ n) (T : Tens n) (i : Fin n → Fin 3) :
    symmetricPart T (fun k => i (lastSwap n k)) = symmetricPart T i := by
  simp only [symmetricPart, lastSwap_lastSwap hn]
  ring

theorem ofFn_swap {n : ℕ} {i j : Fin n → Fin 3} {I : List (Fin 3)} {a b : Fin 3} (hi : List.ofFn i = I ++ [a, b])
    (hj : List.ofFn j = I ++ [b, a]) : j = fun k => i (lastSwap n k) := by
  have hl : n = I.length + 2 := by simpa using congrArg List.length hi
  have gi : ∀ k : Fin n, (I ++ [a, b])[k.val]? = some (i k) := fun k => by rw [← hi]; simp
  have gj : ∀ k : Fin n, (I ++ [b, a])[k.val]? = some (j k) := fun k => by rw [← hj]; simp
  funext k
  have h1 := gj k
  have h2 := gi (lastSwap n k)
  apply Option.some.inj
  rw [← h1, ← h2]
  obtain ⟨k, hk⟩ := k
  unfold lastSwap
  by_cases h1 : k + 1 = n
  · simp only [h1, dif_pos]
    rw [List.getElem?_append_right (by omega), List.getElem?_append_right (by omega)]
    rw [show k - I.length = 1 by omega, show k - 1 - I.length = 0 by omega]
    rfl
  · by_cases h2 : k + 2 = n
    · simp only [h1, dif_neg, not_false_eq_true, h2, dif_pos]
      rw [List.getElem?_append_right (by omega), List.getElem?_append_right (by omega)]
      rw [show k - I.length = 0 by omega, show k + 1 - I.length = 1 by omega]
      rfl
    · simp only [h1, dif_neg, not_false_eq_true, h2]
      rw [List.getElem?_append_left (by omega), List.getElem?_append_left (by omega)]

theorem symmetricPart_symmetric {n : ℕ} (hn : 2 ≤ n) (T : Tens n) : SymmetricTensor (symmetricPart T) := by
  intro i j I a b hi hj
  rw [ofFn_swap hi hj, symmetricPart_swap hn]

/-- The symmetric part of an invariant tensor is invariant. -/
theorem symmetricPart_invariant {n : ℕ} (hn : 2 ≤ n) {G : Set SymOp} {T : Tens n} (hT : InvariantUnder G T) :
    InvariantUnder G (symmetricPart T) := by
  intro A hA
  have h := hT A hA
  let π : Fin n ≃ Fin n := ⟨lastSwap n, lastSwap n, lastSwap_lastSwap hn, lastSwap_lastSwap hn⟩
  funext i
  have e : ∀ i, act A (fun j => T (fun k => j (lastSwap n k))) i = act A T (fun k => i (lastSwap n k)) := by
    intro i
    unfold act
    rw [← (Equiv.arrowCongr π (Equiv.refl (Fin 3))).sum_comp]
    refine Finset.sum_congr rfl (fun j _ => ?_)
    have e1 : (fun k => (Equiv.arrowCongr π (Equiv.refl (Fin 3))) j (lastSwap n k)) = j := by
      funext k
      show j (π.symm (lastSwap n k)) = j k
      congr 1
      exact lastSwap_lastSwap hn k
    refine congrArg₂ (· * ·) ?_ (congrArg T e1)
    rw [← π.prod_comp]
    refine Finset.prod_congr rfl (fun k _ => ?_)
    show ((A (i (lastSwap n k)) (j (π.symm (lastSwap n k))) : ℝ) : ℂ) = _
    rw [show π.symm (lastSwap n k) = k from lastSwap_lastSwap hn k]
  have e2 : act A (symmetricPart T) i = (act A T i + act A (fun j => T (fun k => j (lastSwap n k))) i) / 2 := by
    unfold act symmetricPart
    rw [← Finset.sum_add_distrib, Finset.sum_div]
    exact Finset.sum_congr rfl (fun j _ => by ring)
  rw [e2, e, h]
  rfl

theorem symmetricPart_conj {n : ℕ} {T : Tens n} (h : ∀ i, conj (T i) = T i) (i : Fin n → Fin 3) :
    conj (symmetricPart T i) = symmetricPart T i := by
  simp only [symmetricPart, map_div₀, map_add, h, map_ofNat]

theorem symmetricPart3 (T : Tens 3) : symmetricPart T = fun i => (T ![i 0, i 1, i 2] + T ![i 0, i 2, i 1]) / 2 := by
  funext i
  unfold symmetricPart
  congr 3
  · exact eq_vec3 i
  · exact eq_vec3 _

theorem symmetricPart4 (T : Tens 4) : symmetricPart T = fun i => (T ![i 0, i 1, i 2, i 3] + T ![i 0, i 1, i 3, i 2]) / 2 := by
  funext i
  unfold symmetricPart
  congr 3
  · exact eq_vec4 i
  · exact eq_vec4 _

theorem rot3_symmetric (M : Fin 3 → Fin 3 → ℂ) (t : T3) (i j k : Fin 3) :
    rot3 M (fun a b c => (t a b c + t a c b) / 2) i j k = (rot3 M t i j k + rot3 M t i k j) / 2 := by
  have e : rot3 M t i k j = ∑ a, ∑ b, ∑ c, M i a * M j b * M k c * t a c b := by
    unfold rot3
    refine Finset.sum_congr rfl (fun a _ => ?_)
    rw [Finset.sum_comm]
    exact Finset.sum_congr rfl (fun b _ => Finset.sum_congr rfl (fun c _ => by ring))
  rw [e]
  unfold rot3
  simp only [← Finset.sum_add_distrib, Finset.sum_div]
  exact Finset.sum_congr rfl (fun a _ => Finset.sum_congr rfl (fun b _ => Finset.sum_congr rfl (fun c _ => by ring)))

theorem rot4_symmetric (M : Fin 3 → Fin 3 → ℂ) (t : T4) (i j k l : Fin 3) :
    rot4 M (fun a b c d => (t a b c d + t a b d c) / 2) i j k l = (rot4 M t i j k l + rot4 M t i j l k) / 2 := by
  have e : rot4 M t i j l k = ∑ a, ∑ b, ∑ c, ∑ d, M i a * M j b * M k c * M l d * t a b d c := by
    unfold rot4
    refine Finset.sum_congr rfl (fun a _ => Finset.sum_congr rfl (fun b _ => ?_))
    rw [Finset.sum_comm]
    exact Finset.sum_congr rfl (fun c _ => Finset.sum_congr rfl (fun d _ => by ring))
  rw [e]
  unfold rot4
  simp only [← Finset.sum_add_distrib, Finset.sum_div]
  exact Finset.sum_congr rfl (fun a _ => Finset.sum_congr rfl (fun b _ => Finset.sum_congr rfl (fun c _ =>
    Finset.sum_congr rfl (fun d _ => by ring))))

theorem invariant_subset {n : ℕ} {G G' : Set SymOp} (h : G' ⊆ G) {T : Tens n} (hT : InvariantUnder G T) : InvariantUnder G' T :=
  fun A hA => hT A (h hA)

theorem valueOf_congr {n : ℕ} {t : Nd Expr} (ht : IsTensor 3 n t) {σ τ : Valuation} (h : ∀ s, OccursIn t s → σ s = τ s) :
    valueOf n t σ = valueOf n t τ := by
  funext i
  refine Expr.eval_congr _ (fun s hs => h s ⟨_, ?_, hs⟩)
  rw [show t.shape = _ from ht]
  exact inRange_index i

open Classical in
theorem restrict_reach {n : ℕ} {u : Nd Expr} (hu : IsTensor 3 n u) (r r1 : Sym → ℝ) :
    ∃ r' : Sym → ℝ, (∀ s, ¬ OccursIn u s → r' s = r s) ∧ valueOf n u (realVal r') = valueOf n u (realVal r1) := by
  refine ⟨fun s => if OccursIn u s then r1 s else r s, fun s hs => if_neg hs, valueOf_congr hu (fun s hs => ?_)⟩
  simp [realVal, hs]

theorem optionValue3 (t : Option (Nd Expr)) (σ : Valuation) :
    optionValue 3 t σ = fun i => ((t.map (fun t => value3 t σ)).getD 0) (i 0) (i 1) (i 2) := by
  cases t with
  | none => rfl
  | some t => funext i; exact valueOf3_eq i

theorem optionValue4 (t : Option (Nd Expr)) (σ : Valuation) :
    optionValue 4 t σ = fun i => ((t.map (fun t => value4 t σ)).getD 0) (i 0) (i 1) (i 2) (i 3) := by
  cases t with
  | none => rfl
  | some t => funext i; exact valueOf4_eq i

theorem symmetrized_of {eee qee eee' qee' : Option (Nd Expr)} {σ τ : Valuation}
    (h3 : symmetricPart (optionValue 3 eee' τ) = symmetricPart (optionValue 3 eee σ))
    (h4 : symmetricPart (optionValue 4 qee' τ) = symmetricPart (optionValue 4 qee σ)) :
    (crystalOf eee' none qee' τ).symmetrized = (crystalOf eee none qee σ).symmetrized := by
  rw [optionValue3, optionValue3, symmetricPart3, symmetricPart3] at h3
  rw [optionValue4, optionValue4, symmetricPart4, symmetricPart4] at h4
  exact Crystal.ext (funext fun i => funext fun j => funext fun k => congrFun h3 ![i, j, k]) rfl
    (funext fun i => funext fun j => funext fun k => funext fun l => congrFun h4 ![i, j, k, l])

/-- The value of a transformed tensor is a function of the value of the matrix and of the tensor. -/
theorem transformGiven_turn {n : ℕ} (hn : n = 3 ∨ n = 4) {A : Nd Expr} (hA : IsMatrix 3 3 A) :
    ∃ turn : (Fin 3 → Fin 3 → ℂ) → Tens n → Tens n, (∀ M T, symmetricPart (turn M T) = turn M (symmetricPart T)) ∧ ∀ t t', (∀ u, t = some u → IsTensor 3 n u) → transformGiven S A t = .ok t' →
      (∀ u, t' = some u → IsTensor 3 n u) ∧
      ∀ σ, optionValue n t' σ = turn (fun i a => (A.get [i.val, a.val]).eval σ) (optionValue n t σ) := by
  rcases hn with rfl | rfl
  · refine ⟨fun M T i => rot3 M (fun a b c => T ![a, b, c]) (i 0) (i 1) (i 2), fun M T => ?_, fun t t' ht h => ?_⟩
    · rw [symmetricPart3, symmetricPart3]
      funext i
      exact (rot3_symmetric M (fun a b c => T ![a, b, c]) (i 0) (i 1) (i 2)).symm
    obtain ⟨t'', h1, -, h3, -, h5⟩ := transformGiven3 S hA ht
    rw [h] at h1; cases h1
    refine ⟨h3, fun σ => ?_⟩
    rw [optionValue3, h5 σ, optionValue3]
    rfl
  · refine ⟨fun M T i => rot4 M (fun a b c d => T ![a, b, c, d]) (i 0) (i 1) (i 2) (i 3), fun M T => ?_, fun t t' ht h => ?_⟩
    · rw [symmetricPart4, symmetricPart4]
      funext i
      exact (rot4_symmetric M (fun a b c d => T ![a, b, c, d]) (i 0) (i 1) (i 2) (i 3)).symm
    obtain ⟨t'', h1, -, h3, -, h5⟩ := transformGiven4 S hA ht
    rw [h] at h1; cases h1
    refine ⟨h3, fun σ => ?_⟩
    rw [optionValue4, h5 σ, optionValue4]
    rfl

/-! ## C104: tensors -/

theorem lowered_shapes {n : ℕ} (hn : n = 3 ∨ n = 4) {t u : Option (Nd Expr)} {P : Sym → Prop} (h : Lowered S n t u P) :
    (∀ v, t = some v → IsTensor 3 n v) ∧ ∀ v, u = some v → IsTensor 3 n v := by
  induction h with
  | same h => exact ⟨h, h⟩
  | added h1 h2 =>
    refine ⟨by simp, ?_⟩
    rintro v ⟨⟩
    exact (prepared_facts h1 h2).1
  | real h1 h2 h3 =>
    refine ⟨?_, ?_⟩
    · rintro v ⟨⟩
      exact (prepared_facts h1 .real).1
    · rintro v ⟨⟩
      exact (prepared_facts (tableTensor_from S h2) .real).1
  | complex h1 h2 h3 h4 h5 =>
    refine ⟨?_, ?_⟩
    · rintro v ⟨⟩
      exact (prepared_facts h1 h2).1
    · rintro v ⟨⟩
      exact (prepared_facts (tableTensor_from S h3) (.complex _ _ _ _)).1
  | turned h1 hA h2 h3 h4 ih =>
    obtain ⟨turn, hsym, hturn⟩ := transformGiven_turn S hn hA
    exact ⟨(hturn _ _ ih.1 h3).1, (hturn _ _ ih.2 h4).1⟩

/-- C104, one tensor made real: with a table entry (not made symmetric) even the tensors themselves are equal. -/
theorem C104_real {n : ℕ} {t₀ u₀ : Nd Expr} {G G' : Set SymOp} (h1 : FromTable S n t₀ G) (h2 : OfTable S n u₀ G') (h3 : G' ⊆ G)
    (r : Sym → ℝ) :
    ∃ r' : Sym → ℝ, (∀ s, ¬ OccursIn (makeTensorReal S u₀) s → r' s = r s) ∧
      valueOf n (makeTensorReal S u₀) (realVal r') = valueOf n (makeTensorReal S t₀) (realVal r) := by
  obtain ⟨r1, e1⟩ := real_reaches S (.entry h2) (invariant_subset h3 ((prepared_facts h1 .real).2.1 (realVal r))) (.inr h2)
    (made_real_conj S h1 r)
  obtain ⟨r', h4, h5⟩ := restrict_reach (prepared_facts (.entry h2) .real).1 r r1
  exact ⟨r', h4, h5.trans e1⟩

/-- C104, one tensor made complex. -/
theorem C104_complex {n : ℕ} {t₀ t u₀ : Nd Expr} {G G' : Set SymOp} {pr pi sr si : Key} (h1 : FromTable S n t₀ G) (h2 : MadeReal S t₀ t)
    (h3 : OfTable S n u₀ G') (h4 : G' ⊆ G) (h5 : ClearNames pr pi sr si u₀) (r : Sym → ℝ) :
    ∃ r' : Sym → ℝ, (∀ s, ¬ OccursIn (makeTensorComplex S pr pi sr si u₀) s → r' s = r s) ∧
      valueOf n (makeTensorComplex S pr pi sr si u₀) (realVal r') = valueOf n t (realVal r) := by
  obtain ⟨r1, e1⟩ := complex_reaches S (.entry h3) (invariant_subset h4 ((prepared_facts h1 h2).2.1 (realVal r))) (.inr h3) h5
  obtain ⟨r', h6, h7⟩ := restrict_reach (prepared_facts (.entry h3) (.complex pr pi sr si)).1 r r1
  exact ⟨r', h6, h7.trans e1⟩

/-- **C104, tensors.**  With a tensor of lower symmetry every value of the original tensor is still possible: for all values of the
parameters of the original tensor there are values of the parameters of the other one that make the symmetric parts of the two tensors
equal (nothing else of a tensor can be seen in a pattern, C50).  All other symbols keep their values. -/
theorem C104_tensors {n : ℕ} (hn : n = 3 ∨ n = 4) {t u : Option (Nd Expr)} {P : Sym → Prop} (h : Lowered S n t u P) (r : Sym → ℝ) :
    ∃ r' : Sym → ℝ, (∀ s, ¬ P s → r' s = r s) ∧
      symmetricPart (optionValue n u (realVal r')) = symmetricPart (optionValue n t (realVal r)) := by
  have hn2 : 2 ≤ n := by omega
  induction h with
  | same _ => exact ⟨r, fun _ _ => rfl, rfl⟩
  | @added u₀ u G h1 h2 =>
    have hz : valueOf n u (realVal (fun _ => 0)) = 0 := by
      funext i
      have hr : Nd.InRange u₀.shape (List.ofFn (fun k => (i k).val)) := by rw [(fromTable_facts S h1).1]; exact inRange_index i
      have h3 := (fromTable_facts S h1).2.2
      have hp : PlainSymbols u₀ := fun s hs _ => (h3 s hs).1
      unfold valueOf
      cases h2 with
      | real =>
        rw [(C43_real S u₀ hp).2.1 _ hr, fromTable_homogeneous h1 0 (σ := fun _ => 0) _ (fun s hs => by
          simp [realified, realVal])]
        simp
      | complex pr pi sr si =>
        rw [(C43_complex S pr pi sr si u₀ hp).2 _ hr, fromTable_homogeneous h1 0 (σ := fun _ => 0) _ (fun s hs => by
          simp [complexified, realVal])]
        simp
    obtain ⟨r', h3, h4⟩ := restrict_reach (prepared_facts h1 h2).1 r (fun _ => 0)
    refine ⟨r', h3, ?_⟩
    show symmetricPart (valueOf n u _) = symmetricPart 0
    rw [h4, hz]
  | @real t₀ u₀ G G' h1 h2 h3 =>
    obtain ⟨r1, e1⟩ := real_reaches S h2
      (symmetricPart_invariant hn2 (invariant_subset h3 ((prepared_facts h1 .real).2.1 (realVal r))))
      (.inl (symmetricPart_symmetric hn2 _)) (symmetricPart_conj (made_real_conj S h1 r))
    obtain ⟨r', h4, h5⟩ := restrict_reach (prepared_facts (tableTensor_from S h2) .real).1 r r1
    refine ⟨r', h4, ?_⟩
    show symmetricPart (valueOf n _ _) = symmetricPart (valueOf n _ _)
    rw [h5, e1, symmetricPart_idem hn2]
  | @complex t₀ t u₀ G G' pr pi sr si h1 h2 h3 h4 h5 =>
    obtain ⟨r1, e1⟩ := complex_reaches S h3
      (symmetricPart_invariant hn2 (invariant_subset h4 ((prepared_facts h1 h2).2.1 (realVal r))))
      (.inl (symmetricPart_symmetric hn2 _)) h5
    obtain ⟨r', h6, h7⟩ := restrict_reach (prepared_facts (tableTensor_from S h3) (.complex pr pi sr si)).1 r r1
    refine ⟨r', h6, ?_⟩
    show symmetricPart (valueOf n _ _) = symmetricPart (valueOf n _ _)
    rw [h7, e1, symmetricPart_idem hn2]
  | @turned t u t' u' P A h1 hA h2 h3 h4 ih =>
    obtain ⟨r', e1, e2⟩ := ih
    obtain ⟨turn, hsym, hturn⟩ := transformGiven_turn S hn hA
    obtain ⟨s1, s2⟩ := lowered_shapes S hn h1
    refine ⟨r', e1, ?_⟩
    rw [(hturn _ _ s1 h3).2, (hturn _ _ s2 h4).2, hsym, hsym, e2]
    congr 1
    funext i a
    refine Expr.eval_congr _ (fun s hs => ?_)
    unfold realVal
    rw [e1 s (h2 s ⟨_, ?_, hs⟩)]
    rw [show A.shape = [3, 3] from hA]
    exact .cons i.isLt (.cons a.isLt .nil)

open Classical in
/-- C104, crystals: the same for dipole and quadrupole tensor together. -/
theorem C104_crystals {theta : Expr} {eee qee eee' qee' : Option (Nd Expr)} {P3 P4 : Sym → Prop} (h3 : Lowered S 3 eee eee' P3)
    (h4 : Lowered S 4 qee qee' P4) (hs : SeparateParameters theta eee' qee' P3 P4) (r : Sym → ℝ) :
    ∃ r' : Sym → ℝ, (∀ s, ¬ P3 s → ¬ P4 s → r' s = r s) ∧
      (crystalOf eee' none qee' (realVal r')).symmetrized = (crystalOf eee none qee (realVal r)).symmetrized ∧
      theta.eval (realVal r') = theta.eval (realVal r) := by
  obtain ⟨r3, a1, a2⟩ := C104_tensors S (.inl rfl) h3 r
  obtain ⟨r4, b1, b2⟩ := C104_tensors S (.inr rfl) h4 r
  have s3 := (lowered_shapes S (.inl rfl) h3).2
  have s4 := (lowered_shapes S (.inr rfl) h4).2
  let r' : Sym → ℝ := fun s => if P3 s then r3 s else if P4 s then r4 s else r s
  have e3 : optionValue 3 eee' (realVal r') = optionValue 3 eee' (realVal r3) := by
    cases he : eee' with
    | none => rfl
    | some t =>
      refine valueOf_congr (s3 t he) (fun s hs' => ?_)
      have h4' := hs.eee t s he hs'
      simp only [realVal, r']
      split_ifs with hp
      · rfl
      · rw [a1 s hp]
  have e4 : optionValue 4 qee' (realVal r') = optionValue 4 qee' (realVal r4) := by
    cases he : qee' with
    | none => rfl
    | some t =>
      refine valueOf_congr (s4 t he) (fun s hs' => ?_)
      have h3' := hs.qee t s he hs'
      simp only [realVal, r', if_neg h3']
      split_ifs with hp
      · rfl
      · rw [b1 s hp]
  refine ⟨r', fun s h1 h2 => by simp [r', h1, h2], symmetrized_of (by rw [e3, a2]) (by rw [e4, b2]),
    Expr.eval_congr _ (fun s hs' => ?_)⟩
  obtain ⟨h1, h2⟩ := hs.theta s hs'
  simp [realVal, r', h1, h2]

/-! ## C104: patterns -/

/-- **C104, patterns.**  The formulas of `formgen` for the tensors of lower symmetry make every pattern that the original ones make, at
all azimuths and in all combinations of polarizations. -/
theorem C104_patterns {theta : Expr} {eee qee eee' qee' : Option (Nd Expr)} {P3 P4 : Sym → Prop} (h3 : Lowered S 3 eee eee' P3)
    (h4 : Lowered S 4 qee qee' P4) (hs : SeparateParameters theta eee' qee' P3 P4) (hv : ValidTensors eee none qee)
    (hv' : ValidTensors eee' none qee') (hphi : ¬ OccursInSome eee none qee phi) (hphi' : ¬ OccursInSome eee' none qee' phi)
    (hth : phi ∉ theta.free) :
    ∃ c c', formgen S ex theta eee none qee = .ok c ∧ formgen S ex theta eee' none qee' = .ok c' ∧
      ∀ (r : Sym → ℝ) (θ : ℝ), theta.eval (realVal r) = (θ : ℂ) → ∃ r' : Sym → ℝ, (∀ s, ¬ P3 s → ¬ P4 s → r' s = r s) ∧
        ∀ φ p q, Related c c' (withPhi r φ) (withPhi r' φ) p q p q (· = ·) := by
  obtain ⟨c, hc, hd⟩ := formgen_ok S ex (theta := theta) hv
  obtain ⟨c', hc', hd'⟩ := formgen_ok S ex (theta := theta) hv'
  refine ⟨c, c', hc, hc', fun r θ hθ => ?_⟩
  obtain ⟨r', a1, a2, a3⟩ := C104_crystals S h3 h4 hs r
  refine ⟨r', a1, fun φ p q => ?_⟩
  obtain ⟨e, he, hval⟩ := hd.2 p q
  obtain ⟨e', he', hval'⟩ := hd'.2 p q
  refine ⟨e, e', he, he', ?_⟩
  rw [hval (withPhi r φ) θ (by rw [eval_withPhi hth, hθ]), hval' (withPhi r' φ) θ (by rw [eval_withPhi hth, a3, hθ]),
    crystalOf_withPhi hv.shapes hphi, crystalOf_withPhi hv'.shapes hphi', ← intensity_symmetrized (crystalOf eee' _ _ _), a2, intensity_symmetrized]
  simp [withPhi]

/-! ## C104: fits -/

/-- The components of two Fourier formulas that were made in the same way. -/
theorem pair_components {theta : Expr} {eee qee eee' qee' : Option (Nd Expr)} {c c' : FFormContainer}
    (h : FourierPair S ex R theta eee qee c eee' qee' c') (hv : ValidTensors eee none qee) (hv' : ValidTensors eee' none qee')
    (hphi : ¬ OccursInSome eee none qee phi) (hphi' : ¬ OccursInSome eee' none qee' phi) :
    (c.Reachable S ∧ c.getKeys = [combo .P .P, combo .P .S, combo .S .P, combo .S .S] ∧ c.getM = 16) ∧
    (c'.Reachable S ∧ c'.getKeys = [combo .P .P, combo .P .S, combo .S .P, combo .S .S] ∧ c'.getM = 16) ∧
    ∃ (θ : (Sym → ℝ) → ℝ) (β : ℝ), (∀ r, theta.eval (realVal r) = (θ r : ℂ)) ∧ ∀ p q m, -16 ≤ m ∧ m ≤ 16 →
      RealComponent c (combo p q) m (fun r => integralCoeff (fun x =>
        (intensity (crystalOf eee none qee (realVal r)) (θ r) (x + β) p q : ℂ)) m) ∧
      RealComponent c' (combo p q) m (fun r => integralCoeff (fun x =>
        (intensity (crystalOf eee' none qee' (realVal r)) (θ r) (x + β) p q : ℂ)) m) := by
  have key : ∀ {eee qee : Option (Nd Expr)} {c : FFormContainer} {form : FormContainer} {θ : (Sym → ℝ) → ℝ}, phi ∉ theta.free →
      (∀ r, theta.eval (realVal r) = (θ r : ℂ)) → ValidTensors eee none qee → ¬ OccursInSome eee none qee phi →
      formgen S ex theta eee none qee = .ok form → (∀ k e, form.getPc k = .ok e → Supported e) → formToFform S form 16 = .ok c →
      c.getKeys = [combo .P .P, combo .P .S, combo .S .P, combo .S .S] ∧ c.getM = 16 ∧ ∀ p q m, -16 ≤ m ∧ m ≤ 16 →
      RealComponent c (combo p q) m (fun r => integralCoeff (fun x =>
        (intensity (crystalOf eee none qee (realVal r)) (θ r) (x + 0) p q : ℂ)) m) := by
    intro eee qee c form θ hth hθ hv hphi hf hs hc
    obtain ⟨form', hf', hd⟩ := formgen_ok S ex (theta := theta) hv
    rw [hf] at hf'; cases hf'
    obtain ⟨c', h1, h2, h3, h4⟩ := formToFform_supported S (formgen_reachable S ex hf) hs le_rfl
    rw [hc] at h1; cases h1
    refine ⟨h2.trans hd.1, h3, fun p q m hm => ?_⟩
    obtain ⟨e, he, hval⟩ := hd.2 p q
    obtain ⟨a, o, ha, ho, hv'⟩ := h4 _ e he m hm
    refine ⟨a, o, ha, ho, fun r => ?_⟩
    rw [hv']
    dsimp only
    congr 1
    funext x
    rw [ofAngle_real, hval (withPhi r x) (θ r) (by rw [eval_withPhi hth, hθ]), crystalOf_withPhi hv.shapes hphi]
    simp [withPhi]
  cases h with
  | easy hth hθ f1 s1 c1 f2 s2 c2 =>
    have hθ0 := hθ
    choose θ hθ' using hθ0
    obtain ⟨a1, a2, a3⟩ := key hth hθ' hv hphi f1 s1 c1
    obtain ⟨b1, b2, b3⟩ := key hth hθ' hv' hphi' f2 s2 c2
    exact ⟨⟨fourierFormulas_reachable S ex R (.easy f1 s1 hth hθ c1), a1, a2⟩,
      ⟨fourierFormulas_reachable S ex R (.easy f2 s2 hth hθ c2), b1, b2⟩, θ, 0, hθ', fun p q m hm => ⟨a3 p q m hm, b3 p q m hm⟩⟩
  | hard h1 h2 =>
    obtain ⟨-, θ, hθ, a1, a2, a3⟩ := hard_components S R hv h1
    obtain ⟨-, θ', hθ', b1, b2, b3⟩ := hard_components S R hv' h2
    have : θ' = θ := by
      funext r
      have := (hθ r).symm.trans (hθ' r)
      exact_mod_cast this.symm
    subst this
    exact ⟨⟨fourierFormulas_reachable S ex R (.hard h1), a1, a2⟩, ⟨fourierFormulas_reachable S ex R (.hard h2), b1, b2⟩, θ', Real.pi,
      hθ, fun p q m hm => ⟨a3 p q m hm, b3 p q m hm⟩⟩

/-- **C104, fits.**  For all data, the cost function of the tensors of lower symmetry takes every value that the cost function of the
original tensors takes, with the same values of all symbols that are not parameters of the new tensors. -/
theorem C104_cost {theta : Expr} {eee qee eee' qee' : Option (Nd Expr)} {P3 P4 : Sym → Prop} {c c' : FFormContainer}
    (h3 : Lowered S 3 eee eee' P3) (h4 : Lowered S 4 qee qee' P4) (hs : SeparateParameters theta eee' qee' P3 P4)
    (hv : ValidTensors eee none qee) (hv' : ValidTensors eee' none qee') (hphi : ¬ OccursInSome eee none qee phi)
    (hphi' : ¬ OccursInSome eee' none qee' phi) (hc : FourierPair S ex R theta eee qee c eee' qee' c')
    {fdat : FDataContainer} {D : Key → ℤ → ℂ} (hM : fdat.getM = 16) (hD : DataIs c fdat D)
    {arguments arguments' : Option (List Sym)} {l l' : List Sym} (hl : ArgumentOrder S c arguments l)
    (hl' : ArgumentOrder S c' arguments' l') (d d' : Disk) (chunk chunk' : Bool) (save save' : Option Key) :
    ∃ f f' e e', genCostFunc S C d c fdat arguments chunk save = .ok (f, e) ∧
      genCostFunc S C d' c' fdat arguments' chunk' save' = .ok (f', e') ∧
      ∀ r : Sym → ℝ, ∃ r' : Sym → ℝ, (∀ s, ¬ P3 s → ¬ P4 s → r' s = r s) ∧ f' (l'.map r') = f (l.map r) := by
  obtain ⟨⟨hcr, hk, hcM⟩, ⟨hcr', hk', hcM'⟩, θ, β, hθ, hcomp⟩ := pair_components S ex R hc hv hv' hphi hphi'
  obtain ⟨F, hF⟩ := formulaIs_exists S hcr
  obtain ⟨F', hF'⟩ := formulaIs_exists S hcr'
  have hD' : DataIs c' fdat D := by
    intro k hkk m h1 h2
    rw [hk', ← hk] at hkk
    rw [hcM', ← hcM] at h1 h2
    exact hD k hkk m h1 h2
  obtain ⟨f, e, g1, g2⟩ := C57_cost S C d hcr hl (by rw [hM, hcM]) hF hD chunk (fun _ => by rw [hk]; simp) save
  obtain ⟨f', e', g1', g2'⟩ := C57_cost S C d' hcr' hl' (by rw [hM, hcM']) hF' hD' chunk' (fun _ => by rw [hk']; simp) save'
  refine ⟨f, f', e, e', g1, g1', fun r => ?_⟩
  obtain ⟨r', a1, a2, a3⟩ := C104_crystals S h3 h4 hs r
  refine ⟨r', a1, ?_⟩
  rw [g2, g2']
  unfold misfit
  rw [hk, hk', hcM, hcM']
  congr 1
  refine List.map_congr_left (fun k hkk => ?_)
  refine Finset.sum_congr rfl (fun m hm => ?_)
  rw [Finset.mem_Icc] at hm
  have hm16 : -16 ≤ m ∧ m ≤ 16 := by
    have : ((16 : ℕ) : ℤ) = 16 := rfl
    omega
  have hpq : ∃ p q, k = combo p q := by
    simp only [List.mem_cons, List.not_mem_nil, or_false] at hkk
    rcases hkk with h | h | h | h <;> exact ⟨_, _, h⟩
  obtain ⟨p, q, rfl⟩ := hpq
  obtain ⟨hc1, hc2⟩ := hcomp p q m hm16
  have unique : ∀ {c : FFormContainer} {F : Key → ℤ → Valuation → ℂ} {g : (Sym → ℝ) → ℂ}, FormulaIs c F → combo p q ∈ c.getKeys →
      c.getM = 16 → RealComponent c (combo p q) m g → ∀ r, F (combo p q) m (realVal r) = g r := by
    intro c F g hF hk hM ⟨a', o', ha', ho', hval'⟩ r
    obtain ⟨a, o, ha, ho, hval⟩ := hF _ hk m (by rw [hM]; exact hm.1) (by rw [hM]; exact hm.2)
    rw [ha] at ha'; cases ha'
    have : o = o' := Option.some.inj (ho.2.symm.trans ho'.2)
    subst this
    rw [← hval, hval' r]
  rw [unique hF (by rw [hk]; exact hkk) hcM hc1, unique hF' (by rw [hk']; exact hkk) hcM' hc2]
  have hth : θ r' = θ r := by
    have := (hθ r').symm.trans (a3.trans (hθ r))
    exact_mod_cast this
  have hint : ∀ x, intensity (crystalOf eee' none qee' (realVal r')) (θ r) (x + β) p q =
      intensity (crystalOf eee none qee (realVal r)) (θ r) (x + β) p q := fun x => by
    rw [← intensity_symmetrized, a2, intensity_symmetrized]
  simp only [hth, hint]

/-- **C104, the best fit.**  The best fit with the tensors of lower symmetry is at least as good as every fit with the original ones:
where the new cost function is smallest, it is not larger than the original cost function anywhere. -/
theorem C104_never_worse {theta : Expr} {eee qee eee' qee' : Option (Nd Expr)} {P3 P4 : Sym → Prop} {c c' : FFormContainer}
    (h3 : Lowered S 3 eee eee' P3) (h4 : Lowered S 4 qee qee' P4) (hs : SeparateParameters theta eee' qee' P3 P4)
    (hv : ValidTensors eee none qee) (hv' : ValidTensors eee' none qee') (hphi : ¬ OccursInSome eee none qee phi)
    (hphi' : ¬ OccursInSome eee' none qee' phi) (hc : FourierPair S ex R theta eee qee c eee' qee' c')
    {fdat : FDataContainer} {D : Key → ℤ → ℂ} (hM : fdat.getM = 16) (hD : DataIs c fdat D)
    {arguments arguments' : Option (List Sym)} {l l' : List Sym} (hl : ArgumentOrder S c arguments l)
    (hl' : ArgumentOrder S c' arguments' l') (d d' : Disk) (chunk chunk' : Bool) (save save' : Option Key) :
    ∃ f f' e e', genCostFunc S C d c fdat arguments chunk save = .ok (f, e) ∧
      genCostFunc S C d' c' fdat arguments' chunk' save' = .ok (f', e') ∧
      ∀ x x' : List ℝ, x.length = l.length → (∀ y, y.length = l'.length → f' x' ≤ f' y) → f' x' ≤ f x := by
  obtain ⟨f, f', e, e', g1, g2, g3⟩ := C104_cost S ex R C h3 h4 hs hv hv' hphi hphi' hc hM hD hl hl' d d' chunk chunk' save save'
  refine ⟨f, f', e, e', g1, g2, fun x x' hx hmin => ?_⟩
  have hnd : l.Nodup := by
    rcases hl with ⟨-, h⟩ | ⟨-, h⟩
    · exact h.1
    · exact (getFreeSymbols_lists ((pair_components S ex R hc hv hv' hphi hphi').1.1).good h).2.1
  obtain ⟨r, rfl⟩ := exists_map_eq hnd hx
  obtain ⟨r', -, hr⟩ := g3 r
  rw [← hr]
  exact hmin _ (by simp)

end

/-! ## Concrete cases -/

theorem generated_subset {gens gens' : List SymOp} (h : ∀ A ∈ gens', A ∈ generated gens) : generated gens' ⊆ generated gens :=
  fun _ hA => (Submonoid.closure_le (S := Submonoid.closure {A | A ∈ gens})).2 (fun _ hB => h _ hB) hA

theorem generated_mem {gens : List SymOp} {A : SymOp} (h : A ∈ gens) : A ∈ generated gens := Submonoid.subset_closure h

theorem generated_mul {gens : List SymOp} {A B : SymOp} (hA : A ∈ generated gens) (hB : B ∈ generated gens) : A * B ∈ generated gens :=
  Submonoid.mul_mem _ hA hB

/-- `C_1` is contained in all groups. -/
theorem trivial_subset (gens : List SymOp) : generated [] ⊆ generated gens := generated_subset (by simp)

/-- `D_2d` is contained in `T_d`. -/
theorem tetragonal_subset : generated [rotoinversion4, twofoldX] ⊆ generated [rotoinversion4, threefoldDiagonal] := by
  have h : twofoldX = threefoldDiagonal * (rotoinversion4 * rotoinversion4) * (threefoldDiagonal * threefoldDiagonal) := by
    have hc : Real.cos (2 * Real.pi / 4) = 0 := by rw [show 2 * Real.pi / 4 = Real.pi / 2 by ring]; exact Real.cos_pi_div_two
    have hs : Real.sin (2 * Real.pi / 4) = 1 := by rw [show 2 * Real.pi / 4 = Real.pi / 2 by ring]; exact Real.sin_pi_div_two
    ext i j
    fin_cases i <;> fin_cases j <;>
      simp [twofoldX, threefoldDiagonal, rotoinversion4, PG.rotZ, hc, hs, Matrix.mul_apply, Fin.sum_univ_three]
  have r4 : rotoinversion4 ∈ generated [rotoinversion4, threefoldDiagonal] := generated_mem (by simp)
  have d3 : threefoldDiagonal ∈ generated [rotoinversion4, threefoldDiagonal] := generated_mem (by simp)
  refine generated_subset (fun A hA => ?_)
  simp only [List.mem_cons, List.not_mem_nil, or_false] at hA
  rcases hA with rfl | rfl
  · exact r4
  · rw [h]
    exact generated_mul (generated_mul d3 (generated_mul r4 r4)) (generated_mul d3 d3)

/-- The symbols of a tensor made real or complex. -/
theorem prepared_names {S : Sympy} {n : ℕ} {t : Nd Expr} {G : Set SymOp} (h : OfTable S n t G) :
    (∀ s, OccursIn (makeTensorReal S t) s → ∃ s₀, OccursIn t s₀ ∧ s = realSym s₀.name) ∧
    ∀ pr pi sr si s, OccursIn (makeTensorComplex S pr pi sr si t) s →
      ∃ s₀, OccursIn t s₀ ∧ (s = realSym (pr ++ s₀.name ++ sr) ∨ s = realSym (pi ++ s₀.name ++ si)) := by
  obtain ⟨h1, h2, h3⟩ := ofTable_facts h
  refine ⟨?_, ?_⟩
  · rintro s ⟨idx, hidx, hs⟩
    have hreal := (prepared_facts (.entry h) .real).2.2.1 s ⟨idx, hidx, hs⟩
    rcases free_replace hs with h | ⟨s₀, h, hu⟩
    · rw [tableSym_real (h3 s ⟨idx, hidx, h⟩)] at hreal; cases hreal
    · simp only [Expr.free, List.mem_singleton] at hu
      exact ⟨s₀, ⟨idx, hidx, h⟩, hu⟩
  · rintro pr pi sr si s ⟨idx, hidx, hs⟩
    have hreal := (prepared_facts (.entry h) (.complex pr pi sr si)).2.2.1 s ⟨idx, hidx, hs⟩
    rcases free_replace hs with h | ⟨s₀, h, hu⟩
    · rw [tableSym_real (h3 s ⟨idx, hidx, h⟩)] at hreal; cases hreal
    · refine ⟨s₀, ⟨idx, hidx, h⟩, ?_⟩
      rcases S.free_add hu with h | h
      · simp only [Expr.free, List.mem_singleton] at h
        exact .inl h
      · rcases S.free_mul h with h | h
        · simp [Expr.free] at h
        · simp only [Expr.free, List.mem_singleton] at h
          exact .inr h

/-- The names of the symbols of the tables of dipole and quadrupole tensors have as many letters as the tensor has indices. -/
theorem table_name_length {S : Sympy} {g : Key} {t : Nd Expr} :
    (Dict.get (dipole S) g = .ok t → ∀ s, OccursIn t s → s.name.length = 3) ∧
    (Dict.get (quadrupole S) g = .ok t → ∀ s, OccursIn t s → s.name.length = 4) := by
  refine ⟨fun h s hs => ?_, fun h s hs => ?_⟩
  · have hsh : t.shape = List.replicate 3 3 := shape_of_get h
    obtain ⟨idx, hidx, hs⟩ := hs
    rw [hsh] at hidx
    obtain ⟨i, rfl⟩ := inRange_ofFn hidx
    obtain ⟨j, rfl, -⟩ := C68_names S (.inl ⟨rfl, rfl, rfl⟩) h i hs
    simp
  · have hsh : t.shape = List.replicate 4 3 := shape_of_get h
    obtain ⟨idx, hidx, hs⟩ := hs
    rw [hsh] at hidx
    obtain ⟨i, rfl⟩ := inRange_ofFn hidx
    obtain ⟨j, rfl, -⟩ := C68_names S (.inr (.inr ⟨rfl, rfl, rfl⟩)) h i hs
    simp

/-- Fourier formulas for all tensors, with a sympy that expands whatever can be expanded. -/
theorem expanding_formulas {theta : Expr} {eee qee : Option (Nd Expr)} (hv : ValidTensors eee none qee)
    (hphi : ¬ OccursInSome eee none qee phi) (hth : phi ∉ theta.free) :
    ∃ form c, formgen expandingSympy expanding theta eee none qee = .ok form ∧ (∀ k e, form.getPc k = .ok e → Supported e) ∧
      formToFform expandingSympy form 16 = .ok c ∧ c.getM = 16 ∧ Dict.WF c.fform ∧ ∃ l, ArgumentOrder expandingSympy c none l := by
  obtain ⟨form, hf, hd⟩ := formgen_ok expandingSympy expanding (theta := theta) hv
  have hs : ∀ k e, form.getPc k = .ok e → Supported e := by
    intro k e hk
    have H := graded_trigSum expandingSympy expanding hth
    rcases formgen_graded H (d := 4) (.inl rfl) hv.shapes (tensors_trigSum hphi) hf hk with ⟨x, hx, rfl⟩ | ⟨x, y, hx, hy, rfl⟩
    · exact expandAll_supported hx
    · exact expandAll_supported (H.add2 (H.run hx) (H.run hy))
  obtain ⟨c, hc, -⟩ := formToFform_supported expandingSympy (formgen_reachable expandingSympy expanding hf) hs le_rfl
  obtain ⟨hgood, hM, hnat, _⟩ := formToFform_symbols expandingSympy (formgen_reachable expandingSympy expanding hf).wf hc
  obtain ⟨l, hl, _⟩ := FFormContainer.getFreeSymbols_ok expandingSympy hgood hnat
  exact ⟨form, c, hf, hs, hc, hM, hgood.wf, _, .inr ⟨rfl, hl⟩⟩

/-- The hypotheses of the theorems C104 are met: the dipole tensor of `T_d`, made real, is replaced by that of `D_2d`, made complex,
and the quadrupole tensor of `O_h` is added; the angle of incidence is a number. -/
example : ∃ (t tD tQ : Nd Expr) (c c' : FFormContainer) (fdat : FDataContainer) (P3 P4 : Sym → Prop),
    Lowered expandingSympy 3 (some t) (some tD) P3 ∧ Lowered expandingSympy 4 none (some tQ) P4 ∧
    SeparateParameters (.num (1 / 2)) (some tD) (some tQ) P3 P4 ∧ ValidTensors (some t) none none ∧ ValidTensors (some tD) none (some tQ) ∧
    ¬ OccursInSome (some t) none none phi ∧ ¬ OccursInSome (some tD) none (some tQ) phi ∧
    FourierPair expandingSympy expanding exRepr (.num (1 / 2)) (some t) none c (some tD) (some tQ) c' ∧
    fdat.getM = 16 ∧ DataIs c fdat (fun _ _ => 0) ∧ (∃ l, ArgumentOrder expandingSympy c none l) ∧
    ∃ l, ArgumentOrder expandingSympy c' none l := by
  have hT : ((['T', '_', 'd'] : Key), [rotoinversion4, threefoldDiagonal]) ∈ pointGroups := by simp [pointGroups]
  have hD : ((['D', '_', '2', 'd'] : Key), [rotoinversion4, twofoldX]) ∈ pointGroups := by simp [pointGroups]
  have hQ : ((['O', '_', 'h'] : Key), [fourfoldZ, threefoldDiagonal, inversion]) ∈ quadrupoleGroups := by
    simp [quadrupoleGroups, pointGroups]
  obtain ⟨tT, h0, _⟩ := (C55_dipole expandingSympy).2 _ _ hT
  obtain ⟨tD, h1, _⟩ := (C55_dipole expandingSympy).2 _ _ hD
  obtain ⟨tQ, h2, _⟩ := (C55_quadrupole expandingSympy).2.1 _ _ hQ
  have oT := OfTable.dipole hT h0
  have oD := OfTable.dipole hD h1
  have oQ := OfTable.quadrupole hQ h2
  have hft : Tabulated expandingSympy 1 (some (makeTensorReal expandingSympy tT)) none := by
    refine fromTables_tabulated expandingSympy ⟨?_, by simp⟩
    rintro t ⟨⟩
    exact ⟨tT, _, .entry oT, .real⟩
  have hft' : Tabulated expandingSympy 1 (some (makeTensorComplex expandingSympy ['r'] ['i'] [] [] tD))
      (some (makeTensorReal expandingSympy tQ)) := by
    refine fromTables_tabulated expandingSympy ⟨?_, ?_⟩
    · rintro t ⟨⟩
      exact ⟨tD, _, .entry oD, .complex _ _ _ _⟩
    · rintro t ⟨⟩
      exact ⟨tQ, _, .entry oQ, .real⟩
  obtain ⟨hv, hphi, _⟩ := tabulated_facts hft (by simp)
  obtain ⟨hv', hphi', _⟩ := tabulated_facts hft' (by simp)
  have hth : phi ∉ (Expr.num (1 / 2)).free := by simp [Expr.free]
  obtain ⟨form, c, f1, f2, f3, f4, f5, f6⟩ := expanding_formulas (theta := .num (1 / 2)) hv hphi hth
  obtain ⟨form', c', g1, g2, g3, g4, g5, g6⟩ := expanding_formulas (theta := .num (1 / 2)) hv' hphi' hth
  obtain ⟨fdat, d1, d2⟩ := zero_data f4 f5
  have nD : ∀ s, OccursIn (makeTensorComplex expandingSympy ['r'] ['i'] [] [] tD) s →
      s.name.length = 4 ∧ (s.name.head? = some 'r' ∨ s.name.head? = some 'i') := by
    intro s hs
    obtain ⟨s₀, h, h'⟩ := (prepared_names oD).2 _ _ _ _ s hs
    have := table_name_length.1 h1 s₀ h
    rcases h' with rfl | rfl <;> simp [realSym, this]
  have nQ : ∀ s, OccursIn (makeTensorReal expandingSympy tQ) s →
      ¬ (s.name.head? = some 'r' ∨ s.name.head? = some 'i') := by
    intro s hs
    obtain ⟨s₀, ⟨idx, hidx, h⟩, rfl⟩ := (prepared_names oQ).1 s hs
    rw [(ofTable_facts oQ).1] at hidx
    obtain ⟨i, rfl⟩ := inRange_ofFn hidx
    obtain ⟨j, rfl, -⟩ := C68_names expandingSympy (.inr (.inr ⟨rfl, rfl, rfl⟩)) h2 i h
    have : ∀ a : Fin 3, letter a ≠ 'r' ∧ letter a ≠ 'i' := by decide
    simp [realSym, List.ofFn_succ, this]
  refine ⟨_, _, _, c, c', fdat, _, _, .complex (.entry oT) .real (.entry oD) tetragonal_subset ?_, .added (.entry oQ) .real, ⟨?_, ?_, by simp [Expr.free]⟩, hv,
    hv', hphi, hphi', .easy hth (fun r => ⟨((1 / 2 : ℚ) : ℝ), by simp [Expr.eval]⟩) f1 f2 f3 g1 g2 g3, d1, d2, f6, g6⟩
  · intro s s' hs hs' he
    simp at he
  · rintro t s ⟨⟩ hs hs'
    exact nQ s hs' (nD s hs).2
  · rintro t s ⟨⟩ hs hs'
    exact nQ s hs (nD s hs').2

end Shgpy
