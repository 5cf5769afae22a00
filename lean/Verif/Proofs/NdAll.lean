import Verif.Model.Formgen
import Verif.Proofs.FormConvert
import Mathlib.Data.List.InsertIdx

/-!
# Lemmas: properties of all elements of an array, through the tensor algebra
-/

namespace Shgpy

set_option linter.unusedSectionVars false
set_option linter.unusedSimpArgs false

/-- All elements of the array have the property. -/
def AllIn {α : Type} (Q : α → Prop) (t : Nd α) : Prop := ∀ idx, Nd.InRange t.shape idx → Q (t.get idx)

/-- The property is kept by the arithmetic of the elements. -/
structure ClosedOps {α : Type} (O : Ops α) (Q : α → Prop) : Prop where
  zero : Q O.zero
  add : ∀ a b, Q a → Q b → Q (O.add a b)
  mul : ∀ a b, Q a → Q b → Q (O.mul a b)

section
variable {α : Type} {O : Ops α} {Q : α → Prop}

theorem ClosedOps.sum (h : ClosedOps O Q) (n : ℕ) (f : ℕ → α) (hf : ∀ i < n, Q (f i)) : Q (O.sum n f) := by
  have key : ∀ (l : List ℕ) (a : α), Q a → (∀ i ∈ l, Q (f i)) → Q (l.foldl (fun acc i => O.add acc (f i)) a) := by
    intro l
    induction l with
    | nil => intro a ha _; exact ha
    | cons i l ih => intro a ha hl; exact ih _ (h.add _ _ ha (hl i (by simp))) (fun j hj => hl j (by simp [hj]))
  exact key _ _ h.zero (fun i hi => hf i (List.mem_range.1 hi))

theorem inRange_insertIdx : ∀ {l idx : List ℕ} {p i : ℕ}, Nd.InRange (l.eraseIdx p) idx → p < l.length → i < l.getD p 0 →
    Nd.InRange l (idx.insertIdx p i) := by
  intro l
  induction l with
  | nil => intro idx p i _ hp; simp at hp
  | cons d l ih =>
    intro idx p i h hp hi
    cases p with
    | zero => exact List.Forall₂.cons (by simpa using hi) h
    | succ p =>
      rw [List.eraseIdx_cons_succ] at h
      cases h with
      | cons hd hr => exact List.Forall₂.cons hd (ih hr (by simpa using hp) (by simpa using hi))

theorem getD_eraseIdx_lt {l : List ℕ} {p q : ℕ} (h : p < q) : (l.eraseIdx q).getD p 0 = l.getD p 0 := by
  rw [List.getD_eq_getElem?_getD, List.getElem?_eraseIdx_of_lt h, List.getD_eq_getElem?_getD]

theorem inRange_insert2 {l idx : List ℕ} {p q i : ℕ} (h : Nd.InRange (Nd.erase2 p q l) idx) (hp : p < l.length)
    (hq : q < l.length) (hpq : p ≠ q) (hi : i < min (l.getD p 0) (l.getD q 0)) :
    Nd.InRange l (Nd.insert2 p q i idx) := by
  have key : ∀ {a b : ℕ}, a < b → b < l.length → i < l.getD a 0 → i < l.getD b 0 →
      Nd.InRange ((l.eraseIdx b).eraseIdx a) idx → Nd.InRange l ((idx.insertIdx a i).insertIdx b i) := by
    intro a b hab hb h1 h2 h
    refine inRange_insertIdx (inRange_insertIdx h ?_ ?_) hb h2
    · rw [List.length_eraseIdx, if_pos hb]; omega
    · rwa [getD_eraseIdx_lt hab]
  unfold Nd.insert2
  unfold Nd.erase2 at h
  rw [lt_min_iff] at hi
  split_ifs at h ⊢ with hle
  · exact key (lt_of_le_of_ne hle hpq) hq hi.1 hi.2 h
  · exact key (by omega) hp hi.2 hi.1 h

theorem AllIn.tensordot0 (hO : ClosedOps O Q) {a b : Nd α} (ha : AllIn Q a) (hb : AllIn Q b) :
    AllIn Q (Nd.tensordot0 O a b) := by
  intro idx h
  have h' : List.Forall₂ (fun i d => i < d) idx (a.shape ++ b.shape) := h
  have h1 := List.forall₂_take_append _ _ _ h'
  have h2 := List.forall₂_drop_append _ _ _ h'
  exact hO.mul _ _ (ha _ h1) (hb _ h2)

theorem AllIn.trace (hO : ClosedOps O Q) {a y : Nd α} {p q : ℕ} (ha : AllIn Q a) (hy : Nd.trace O a p q = .ok y) :
    AllIn Q y := by
  unfold Nd.trace at hy
  split_ifs at hy with h
  cases hy
  intro idx hidx
  exact hO.sum _ _ (fun i hi => ha _ (inRange_insert2 hidx h.1 h.2.1 h.2.2 hi))

theorem AllIn.tensorProduct (hO : ClosedOps O Q) : ∀ {ts : List (Nd α)} {y : Nd α}, (∀ t ∈ ts, AllIn Q t) →
    tensorProduct O ts = .ok y → AllIn Q y := by
  intro ts
  induction ts with
  | nil => intro y _ h; simp [Shgpy.tensorProduct] at h
  | cons a rest ih =>
    intro y hts h
    rcases rest with _ | ⟨b, _ | ⟨c, r⟩⟩
    · simp [Shgpy.tensorProduct] at h
    · simp only [Shgpy.tensorProduct, Except.ok.injEq] at h
      subst h
      exact AllIn.tensordot0 hO (hts a (by simp)) (hts b (by simp))
    · rw [Shgpy.tensorProduct] at h
      · cases hr : Shgpy.tensorProduct O (b :: c :: r) with
        | error e => rw [hr, error_bind] at h; cases h
        | ok z =>
          rw [hr, ok_bind] at h
          cases h
          exact AllIn.tensordot0 hO (hts a (by simp)) (ih (fun t ht => hts t (by simp [ht])) hr)
      · simp
      · simp

theorem AllIn.contractLoop (hO : ClosedOps O Q) {ι : Type} [DecidableEq ι] : ∀ {pairs : List (List ι)} {a y : Nd α}
    {labels : List ι}, AllIn Q a → contractLoop O pairs a labels = .ok y → AllIn Q y := by
  intro pairs
  induction pairs with
  | nil => intro a y labels ha h; cases h; exact ha
  | cons pair rest ih =>
    intro a y labels ha h
    rw [Shgpy.contractLoop] at h
    cases h1 : pair.mapM (listIndex labels) with
    | error e => rw [h1, error_bind] at h; cases h
    | ok new =>
      rw [h1, ok_bind] at h
      cases h2 : pyGet new 0 with
      | error e => rw [h2, error_bind] at h; cases h
      | ok p =>
        rw [h2, ok_bind] at h
        cases h3 : pyGet new 1 with
        | error e => rw [h3, error_bind] at h; cases h
        | ok q =>
          rw [h3, ok_bind] at h
          cases h4 : Nd.trace O a p q with
          | error e => rw [h4, error_bind] at h; cases h
          | ok z =>
            rw [h4, ok_bind] at h
            cases h5 : pair.foldlM listRemove labels with
            | error e => rw [h5, error_bind] at h; cases h
            | ok l' =>
              rw [h5, ok_bind] at h
              exact ih (ha.trace hO h4) h

theorem AllIn.contractProduct (hO : ClosedOps O Q) {ts : List (Nd α)} {pairs : List (List ℤ)} {y : Nd α}
    (hts : ∀ t ∈ ts, AllIn Q t) (h : contractProduct O ts pairs = .ok y) : AllIn Q y := by
  unfold Shgpy.contractProduct at h
  cases hp : Shgpy.tensorProduct O ts with
  | error e => rw [hp, error_bind] at h; cases h
  | ok P =>
    rw [hp, ok_bind] at h
    exact (AllIn.tensorProduct hO hts hp).contractLoop hO h

theorem AllIn.transform (hO : ClosedOps O Q) {t A y : Nd α} (ht : AllIn Q t) (hA : AllIn Q A)
    (h : transform O t A = .ok y) : AllIn Q y := by
  refine AllIn.contractProduct hO (ts := List.replicate t.rank A ++ [t]) (pairs := transformPairs t.rank) ?_ h
  intro u hu
  rw [List.mem_append, List.mem_singleton] at hu
  rcases hu with hu | rfl
  · rw [List.eq_of_mem_replicate hu]; exact hA
  · exact ht

theorem AllIn.map {β : Type} {Q' : β → Prop} {f : α → β} (hf : ∀ a, Q a → Q' (f a)) {t : Nd α} (ht : AllIn Q t) :
    AllIn Q' (t.map f) := fun idx h => hf _ (ht idx h)

end

/-! ## Free symbols -/

/-- All free symbols of the expression satisfy `F`. -/
def FreeIn (F : Sym → Prop) (e : Expr) : Prop := ∀ s ∈ e.free, F s

section
variable (S : Sympy) {F : Sym → Prop}

theorem FreeIn.num (q : ℚ) : FreeIn F (.num q) := by intro s h; simp [Expr.free] at h
theorem FreeIn.I : FreeIn F .I := by intro s h; simp [Expr.free] at h

theorem FreeIn.norm {e : Expr} (h : FreeIn F e) : FreeIn F (S.norm e) := fun s hs => h s (S.free_norm e s hs)

theorem FreeIn.addS {a b : Expr} (ha : FreeIn F a) (hb : FreeIn F b) : FreeIn F (S.add a b) :=
  FreeIn.norm S (fun s hs => by
    rcases (by simpa [Expr.free, Expr.freeL] using hs) with h | h
    · exact ha s h
    · exact hb s h)

theorem FreeIn.mulS {a b : Expr} (ha : FreeIn F a) (hb : FreeIn F b) : FreeIn F (S.mul a b) :=
  FreeIn.norm S (fun s hs => by
    rcases (by simpa [Expr.free, Expr.freeL] using hs) with h | h
    · exact ha s h
    · exact hb s h)

theorem FreeIn.negS {a : Expr} (ha : FreeIn F a) : FreeIn F (S.neg a) :=
  FreeIn.norm S (fun s hs => ha s (by simpa [Expr.free, Expr.freeL] using hs))

theorem closed_freeIn : ClosedOps (exprOps S) (FreeIn F) :=
  ⟨FreeIn.num 0, fun _ _ => FreeIn.addS S, fun _ _ => FreeIn.mulS S⟩

theorem freeIn_run (ex : Rewriting) {e : Expr} (h : FreeIn F e) : FreeIn F (ex.run e) := fun s hs => h s (ex.free_run e s hs)

end

end Shgpy
