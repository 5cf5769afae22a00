import Verif.Proofs.Fformgen6
import Verif.Proofs.NdAll
import Verif.Proofs.Formgen3

/-!
# Lemmas: properties of all elements of the arrays of `fformgen`
-/

namespace Shgpy
open Spec

set_option linter.unusedSectionVars false

/-- All elements of the array have the property, also those outside of its shape. -/
def AllEv (Q : Expr → Prop) (t : Nd Expr) : Prop := ∀ idx, Q (t.get idx)

/-- All arrays of the list have the property. -/
def AllF (Q : Expr → Prop) (A : FTensor) : Prop := ∀ t ∈ A, AllEv Q t

/-- The property is kept by the arithmetic that `fformgen` uses. -/
structure FClosed (S : Sympy) (Q : Expr → Prop) : Prop where
  num : ∀ q, Q (.num q)
  imag : ∀ q, Q (.mul [.num q, .I])
  add : ∀ a b, Q a → Q b → Q (S.add a b)
  mul : ∀ a b, Q a → Q b → Q (S.mul a b)
  sub : ∀ a b, Q a → Q b → Q (S.sub a b)

theorem foldlM_keeps {α β : Type} {f : β → α → Except Err β} {P : β → Prop} (h : ∀ b a b', P b → f b a = .ok b' → P b') :
    ∀ (l : List α) {b b' : β}, P b → l.foldlM f b = .ok b' → P b'
  | [], b, b', hb, e => by cases e; exact hb
  | a :: l, b, b', hb, e => by
      rw [List.foldlM_cons] at e
      obtain ⟨c, h1, h2⟩ := bind_ok e
      exact foldlM_keeps h l (h _ _ _ hb h1) h2

theorem getD_mem_or {α : Type} (l : List α) (i : ℕ) (d : α) : l.getD i d ∈ l ∨ l.getD i d = d := by
  rw [List.getD_eq_getElem?_getD]
  cases h : l[i]? with
  | none => exact .inr rfl
  | some a => exact .inl (List.mem_of_getElem? h)

section
variable {S : Sympy} {Q : Expr → Prop}

theorem FClosed.ops (h : FClosed S Q) : ClosedOps (exprOps S) Q := ⟨h.num 0, h.add, h.mul⟩

theorem AllEv.allIn {t : Nd Expr} (h : AllEv Q t) : AllIn Q t := fun idx _ => h idx

theorem allEv_zeros (h : FClosed S Q) (sh : List ℕ) : AllEv Q (zerosNd sh) := fun _ => h.num 0

theorem AllEv.add (h : FClosed S Q) {a b : Nd Expr} (ha : AllEv Q a) (hb : AllEv Q b) : AllEv Q (ndAdd S a b) :=
  fun idx => h.add _ _ (ha idx) (hb idx)

theorem allEv_tensordot0 (h : FClosed S Q) {a b : Nd Expr} (ha : AllEv Q a) (hb : AllEv Q b) :
    AllEv Q (Nd.tensordot0 (exprOps S) a b) := fun _ => h.mul _ _ (ha _) (hb _)

theorem allEv_trace (h : FClosed S Q) {a y : Nd Expr} {p q : ℕ} (ha : AllEv Q a) (hy : Nd.trace (exprOps S) a p q = .ok y) : AllEv Q y := by
  unfold Nd.trace at hy
  split_ifs at hy with hc
  cases hy
  intro idx
  exact h.ops.sum _ _ (fun i _ => ha _)

theorem allEv_product (h : FClosed S Q) {a b y : Nd Expr} (ha : AllEv Q a) (hb : AllEv Q b)
    (hy : tensorProduct (exprOps S) [a, b] = .ok y) : AllEv Q y := by
  simp only [tensorProduct, Except.ok.injEq] at hy
  subst hy
  exact allEv_tensordot0 h ha hb

theorem allEv_contractLoop (h : FClosed S Q) {ι : Type} [DecidableEq ι] : ∀ {pairs : List (List ι)} {a y : Nd Expr}
    {labels : List ι}, AllEv Q a → contractLoop (exprOps S) pairs a labels = .ok y → AllEv Q y := by
  intro pairs
  induction pairs with
  | nil => intro a y labels ha h; cases h; exact ha
  | cons pair rest ih =>
    intro a y labels ha hy
    rw [contractLoop] at hy
    obtain ⟨new, h1, hy⟩ := bind_ok hy
    obtain ⟨p, h2, hy⟩ := bind_ok hy
    obtain ⟨q, h3, hy⟩ := bind_ok hy
    obtain ⟨z, h4, hy⟩ := bind_ok hy
    obtain ⟨l', h5, hy⟩ := bind_ok hy
    exact ih (allEv_trace h ha h4) hy

theorem allEv_contract (h : FClosed S Q) {a y : Nd Expr} {pairs : List (List ℤ)} (ha : AllEv Q a)
    (hy : tensorContract (exprOps S) a pairs = .ok y) : AllEv Q y := allEv_contractLoop h ha hy

theorem allF_mapM {α : Type} {l : List α} {f : α → Except Err (Nd Expr)} {B : FTensor} (hf : ∀ a ∈ l, ∀ t, f a = .ok t → AllEv Q t)
    (h : l.mapM f = .ok B) : AllF Q B := by
  intro t ht
  obtain ⟨a, ha, hfa⟩ := mapM_mem h ht
  exact hf a ha t hfa

theorem allF_mapFreqs {M : ℕ} {f : Nd Expr → Except Err (Nd Expr)} {A B : FTensor} (hA : AllF Q A)
    (hf : ∀ a t, AllEv Q a → f a = .ok t → AllEv Q t) (h : mapFreqs M f A = .ok B) : AllF Q B := by
  refine allF_mapM (fun m _ t ht => ?_) h
  obtain ⟨a, h1, h2⟩ := bind_ok ht
  exact hf a t (hA a (pyGet_mem h1)) h2

theorem allF_convolve (h : FClosed S Q) {A B C : FTensor} {M : ℕ} (hA : AllF Q A) (hB : AllF Q B)
    (hc : convolveFtensors S A B M = .ok C) : AllF Q C := by
  unfold convolveFtensors at hc
  obtain ⟨a, -, hc⟩ := bind_ok hc
  obtain ⟨b, -, hc⟩ := bind_ok hc
  obtain ⟨test, -, hc⟩ := bind_ok hc
  refine allF_mapM (fun n _ t ht => ?_) hc
  refine foldlM_keeps (P := AllEv Q) ?_ _ (allEv_zeros h _) ht
  intro acc m acc' hacc hm
  unfold convolveStep at hm
  split at hm
  · rename_i p hp
    cases hm
    obtain ⟨a, h1, hp⟩ := bind_ok hp
    obtain ⟨b, h2, hp⟩ := bind_ok hp
    exact hacc.add h (allEv_product h (hA a (pyGet_mem h1)) (hB b (pyGet_mem h2)) hp)
  · cases hm; exact hacc
  · cases hm

theorem allF_set {A B : FTensor} {i : ℤ} {v : Nd Expr} (hA : AllF Q A) (hv : AllEv Q v) (h : ftSet A i v = .ok B) : AllF Q B := by
  unfold ftSet pySet at h
  intro t ht
  have key : ∀ k, B = A.set k v → AllEv Q t := by
    rintro k rfl
    rcases List.mem_or_eq_of_mem_set ht with h | rfl
    · exact hA t h
    · exact hv
  split_ifs at h <;> cases h <;> exact key _ rfl

theorem allEv_vec3 (h : FClosed S Q) {a b c : Expr} (ha : Q a) (hb : Q b) (hc : Q c) : AllEv Q (vec3 a b c) := by
  intro idx
  show Q ([a, b, c].getD (idx.getD 0 0) (.num 0))
  match idx.getD 0 0 with
  | 0 => exact ha
  | 1 => exact hb
  | 2 => exact hc
  | n + 3 => exact h.num 0

theorem allEv_mat3 (h : FClosed S Q) {rows : List (List Expr)} (hr : ∀ row ∈ rows, ∀ e ∈ row, Q e) : AllEv Q (mat3 rows) := by
  intro idx
  show Q ((rows.getD (idx.getD 0 0) []).getD (idx.getD 1 0) (.num 0))
  rcases getD_mem_or (rows) (idx.getD 0 0) [] with h1 | h1
  · rcases getD_mem_or (rows.getD (idx.getD 0 0) []) (idx.getD 1 0) (.num 0) with h2 | h2
    · exact hr _ h1 _ h2
    · rw [h2]; exact h.num 0
  · rw [h1]; exact h.num 0

theorem allF_onlyZero (h : FClosed S Q) {M : ℕ} {t : Nd Expr} {A : FTensor} (ht : AllEv Q t) (hA : onlyZeroFreq M t = .ok A) : AllF Q A := by
  refine allF_set ?_ ht hA
  intro u hu
  rw [List.eq_of_mem_replicate hu]
  exact allEv_zeros h _

theorem allF_rR (h : FClosed S Q) {M : ℕ} {A : FTensor} (hA : rRArr M = .ok A) : AllF Q A := by
  have hh : Q half := h.num _
  have h1 : Q halfI := h.imag _
  have h2 : Q negHalfI := h.imag _
  have h0 : Q (.num 0) := h.num 0
  have h3 : Q (.num 1) := h.num 1
  unfold rRArr at hA
  obtain ⟨a, e1, hA⟩ := bind_ok hA
  obtain ⟨b, e2, hA⟩ := bind_ok hA
  refine allF_set (allF_set (allF_set ?_ ?_ e1) ?_ e2) ?_ hA
  · intro u hu
    rw [List.eq_of_mem_replicate hu]
    exact allEv_zeros h _
  all_goals
    refine allEv_mat3 h (fun row hr e he => ?_)
    simp only [List.mem_cons, List.not_mem_nil, or_false] at hr
    rcases hr with rfl | rfl | rfl <;> simp only [List.mem_cons, List.not_mem_nil, or_false] at he <;>
      rcases he with rfl | rfl | rfl <;> assumption

theorem allEv_proj (h : FClosed S Q) {kout P : Nd Expr} (hk : AllEv Q kout) (hP : projArr S kout = .ok P) : AllEv Q P := by
  unfold projArr at hP
  obtain ⟨p, h1, h2⟩ := bind_ok hP
  cases h2
  exact fun idx => h.sub _ _ (h.num _) (allEv_product h hk hk h1 idx)

theorem allEv_row {a : Nd Expr} (h : AllEv Q a) (i : ℕ) : AllEv Q (ndRow a i) := fun idx => h (i :: idx)

theorem allF_stack {M : ℕ} {A B C D : FTensor} (hA : AllF Q A) (hB : AllF Q B) (hC : AllF Q C) (h : stackFreqs M A B C = .ok D) :
    AllF Q D := by
  refine allF_mapM (fun m _ t ht => ?_) h
  obtain ⟨a, h1, ht⟩ := bind_ok ht
  obtain ⟨b, h2, ht⟩ := bind_ok ht
  obtain ⟨c, h3, ht⟩ := bind_ok ht
  cases ht
  intro idx
  show Q (([a, b, c].getD (idx.getD 0 0) a).get (idx.drop 1))
  match idx.getD 0 0 with
  | 0 => exact hA a (pyGet_mem h1) _
  | 1 => exact hB b (pyGet_mem h2) _
  | 2 => exact hC c (pyGet_mem h3) _
  | n + 3 => exact hA a (pyGet_mem h1) _

theorem allF_scale (h : FClosed S Q) {c : Expr} (hc : Q c) {A : FTensor} (hA : AllF Q A) : AllF Q (scaleFreqs S c A) := by
  intro t ht
  obtain ⟨a, ha, rfl⟩ := List.mem_map.1 ht
  exact fun idx => h.mul _ _ hc (hA a ha idx)

theorem allF_zeros (h : FClosed S Q) (A : FTensor) : AllF Q (A.map (fun t => zerosNd t.shape)) := by
  intro t ht
  obtain ⟨a, ha, rfl⟩ := List.mem_map.1 ht
  exact allEv_zeros h _

theorem allF_terms (h : FClosed S Q) {M : ℕ} {r1 rR rF rkin : FTensor} {l : List FTensor} (h1 : AllF Q r1) (hR : AllF Q rR)
    (hF : AllF Q rF) (hk : AllF Q rkin) (hl : uncontractedTerms S M r1 rR rF rkin = .ok l) : ∀ A ∈ l, AllF Q A := by
  have hc : ∀ {a b : Nd Expr} {pairs : List (List ℤ)}, AllEv Q a → tensorContract (exprOps S) a pairs = .ok b → AllEv Q b :=
    fun ha hb => allEv_contract h ha hb
  unfold uncontractedTerms at hl
  obtain ⟨h1', e1, hl⟩ := bind_ok hl
  obtain ⟨r2, e2, hl⟩ := bind_ok hl
  obtain ⟨h2, e3, hl⟩ := bind_ok hl
  obtain ⟨r3, e4, hl⟩ := bind_ok hl
  obtain ⟨h3, e5, hl⟩ := bind_ok hl
  obtain ⟨h4, e6, hl⟩ := bind_ok hl
  obtain ⟨h5, e7, hl⟩ := bind_ok hl
  obtain ⟨h6, e8, hl⟩ := bind_ok hl
  obtain ⟨h7, e9, hl⟩ := bind_ok hl
  obtain ⟨r4, e10, hl⟩ := bind_ok hl
  obtain ⟨h8, e11, hl⟩ := bind_ok hl
  obtain ⟨h9, e12, hl⟩ := bind_ok hl
  obtain ⟨h10, e13, hl⟩ := bind_ok hl
  cases hl
  have a1 := allF_mapFreqs h1 (fun _ _ => hc) e1
  have a2 := allF_mapFreqs (allF_convolve h a1 a1 e2) (fun _ _ => hc) e3
  have a3 := allF_mapFreqs (allF_convolve h hR hF e4) (fun _ _ => hc) e5
  have a7 := allF_convolve h (allF_convolve h (allF_convolve h (allF_convolve h a2 a3 e6) a3 e7) a3 e8) a3 e9
  have a8 := allF_mapFreqs (allF_convolve h hR (allF_scale h (h.imag _) hk) e10) (fun _ _ => hc) e11
  have a9 := allF_convolve h a7 a8 e12
  have a10 := allF_convolve h a9 (allF_scale h (h.num _) a8) e13
  intro A hA
  simp only [List.mem_cons, List.not_mem_nil, or_false] at hA
  rcases hA with rfl | rfl | rfl | rfl
  · exact a7
  · exact a9
  · exact allF_scale h (h.num _) a9
  · exact a10

theorem allF_both (h : FClosed S Q) {M : ℕ} {kout kin : Nd Expr} (hko : AllEv Q kout) (hki : AllEv Q kin) (hx : Q (.sym FxSym))
    (hy : Q (.sym FySym)) (hz : Q (.sym FzSym)) {t : List FTensor × List FTensor} (ht : uncontractedBoth S M kout kin = .ok t) :
    (∀ A ∈ t.1, AllF Q A) ∧ ∀ A ∈ t.2, AllF Q A := by
  unfold uncontractedBoth at ht
  obtain ⟨P, e1, ht⟩ := bind_ok ht
  obtain ⟨px, e2, ht⟩ := bind_ok ht
  obtain ⟨py, e3, ht⟩ := bind_ok ht
  obtain ⟨pz, e4, ht⟩ := bind_ok ht
  obtain ⟨rR, e5, ht⟩ := bind_ok ht
  obtain ⟨rF, e6, ht⟩ := bind_ok ht
  obtain ⟨r1x, e7, ht⟩ := bind_ok ht
  obtain ⟨r1y, e8, ht⟩ := bind_ok ht
  obtain ⟨r1z, e9, ht⟩ := bind_ok ht
  obtain ⟨rkin, e10, ht⟩ := bind_ok ht
  dsimp only at ht
  obtain ⟨r1s, e11, ht⟩ := bind_ok ht
  obtain ⟨r1p, e12, ht⟩ := bind_ok ht
  obtain ⟨p, e13, ht⟩ := bind_ok ht
  obtain ⟨s, e14, ht⟩ := bind_ok ht
  cases ht
  have hP := allEv_proj h hko e1
  have hR := allF_rR h e5
  have hF := allF_onlyZero h (allEv_vec3 h hx hy hz) e6
  have hk := allF_onlyZero h hki e10
  have h1 := allF_convolve h (allF_onlyZero h (allEv_row hP 0) e2) hR e7
  have h2 := allF_convolve h (allF_onlyZero h (allEv_row hP 1) e3) hR e8
  have h3 := allF_convolve h (allF_onlyZero h (allEv_row hP 2) e4) hR e9
  have h0 := allF_zeros h r1x
  exact ⟨allF_terms h (allF_stack h1 h0 h3 e12) hR hF hk e13, allF_terms h (allF_stack h0 h2 h0 e11) hR hF hk e14⟩

/-- All arrays in the four files have the property. -/
def FilesAll (Q : Expr → Prop) (nfs : NpFiles) (pre : Key) : Prop :=
  ∀ p q l, nfs (termsFile pre p q) = some l → ∀ A ∈ l, AllF Q A

/-- If the substitution of the field takes expressions with the property `Q` to such with the property `Q'`, the stored arrays have the
property `Q'`. -/
theorem filesAll_saved {Q' : Expr → Prop} {t : List FTensor × List FTensor} (h1 : ∀ A ∈ t.1, AllF Q A) (h2 : ∀ A ∈ t.2, AllF Q A)
    {c s : Expr} (hp : ∀ e, Q e → Q' (S.subs [(FxSym, c), (FySym, .num 0), (FzSym, s)] e))
    (hs : ∀ e, Q e → Q' (S.subs [(FxSym, .num 0), (FySym, .num (-1)), (FzSym, .num 0)] e)) (nfs : NpFiles) (pre : Key) :
    FilesAll Q' (saveUncontracted S nfs pre c s t) pre := by
  have key : ∀ {l : List FTensor} {a b d : Expr}, (∀ A ∈ l, AllF Q A) → (∀ e, Q e → Q' (S.subs [(FxSym, a), (FySym, b), (FzSym, d)] e)) →
      ∀ A ∈ substTerms S a b d l, AllF Q' A := by
    intro l a b d hl hsub A hA
    obtain ⟨B, hB, rfl⟩ := List.mem_map.1 hA
    intro u hu
    obtain ⟨v, hv, rfl⟩ := List.mem_map.1 hu
    exact fun idx => hsub _ (hl B hB v hv idx)
  intro p q l hl
  unfold saveUncontracted npSave termsFile at hl
  cases p <;> cases q <;> simp [Pol.lower] at hl <;> subst hl
  · exact key h1 hp
  · exact key h2 hp
  · exact key h1 hs
  · exact key h2 hs

/-! ### Contraction with the tensors -/

theorem mapFreqs_allIn (h : FClosed S Q) {M : ℕ} {A C : FTensor} {c : Nd Expr} {l : List (List ℤ)} (hA : ∀ t ∈ A, AllIn Q t) (hc : AllIn Q c)
    (hC : mapFreqs M (fun t => contractProduct (exprOps S) [t, c] l) A = .ok C) : ∀ t ∈ C, AllIn Q t := by
  intro t ht
  obtain ⟨m, -, hm⟩ := mapM_mem hC ht
  obtain ⟨a, h1, h2⟩ := bind_ok hm
  refine AllIn.contractProduct h.ops (fun u hu => ?_) h2
  simp only [List.mem_cons, List.not_mem_nil, or_false] at hu
  rcases hu with rfl | rfl
  · exact hA _ (pyGet_mem h1)
  · exact hc

theorem contractTerm_all (h : FClosed S Q) {A C D : FTensor} {c1 c2 : Nd Expr} {l1 l2 : List (List ℤ)} {B : ℕ}
    {T : Valuation → ℝ → List ℕ → ℂ} (hA : AllF Q A) (hc1 : AllIn Q c1) (hc2 : AllIn Q c2)
    (h1 : mapFreqs 16 (fun t => contractProduct (exprOps S) [t, c1] l1) A = .ok C)
    (h2 : mapFreqs 16 (fun t => contractProduct (exprOps S) [t, c2] l2) C = .ok D) (R : Rep D [] B T) {v : List Expr}
    (hv : contractTerm S 16 A c1 c2 l1 l2 = .ok v) : ∀ e ∈ v, Q e := by
  have hD := mapFreqs_allIn h (mapFreqs_allIn h (fun t ht => (hA t ht).allIn) hc1 h1) hc2 h2
  unfold contractTerm at hv
  rw [h1, ok_bind, h2, ok_bind] at hv
  cases hv
  intro e he
  obtain ⟨t, ht, rfl⟩ := List.mem_map.1 he
  obtain ⟨g, rfl, g1, -⟩ := R
  refine hD t ht [] ?_
  obtain ⟨n, -, rfl⟩ := List.mem_map.1 ht
  rw [g1]
  exact .nil

theorem allEv_zipWith (h : FClosed S Q) {a b : List Expr} (ha : ∀ e ∈ a, Q e) (hb : ∀ e ∈ b, Q e) : ∀ e ∈ List.zipWith S.add a b, Q e := by
  intro e he
  rw [List.mem_iff_getElem?] at he
  obtain ⟨i, hi⟩ := he
  obtain ⟨x, y, h1, h2, rfl⟩ := List.getElem?_zipWith_eq_some.1 hi
  exact h.add _ _ (ha _ (List.mem_of_getElem? h1)) (hb _ (List.mem_of_getElem? h2))

theorem contractAll_all (h : FClosed S Q) (hconj : ∀ e, Q e → Q (S.conj e)) {G : Valuation → ℕ → ℕ → ℂ} {F κ : Valuation → ℕ → ℂ}
    {l : List FTensor} (hl : TermsOf l G F κ) (hlq : ∀ A ∈ l, AllF Q A) {chiD chiQ : Nd Expr} (hD : chiD.shape = [3, 3, 3])
    (hQ : chiQ.shape = [3, 3, 3, 3]) (hDq : AllIn Q chiD) (hQq : AllIn Q chiQ) {v : List Expr}
    (hv : contractAll S 16 l chiD chiQ = .ok v) : ∀ e ∈ v, Q e := by
  obtain ⟨h7, h9, h9', h10, rfl, R7, R9, R9', R10⟩ := hl
  obtain ⟨C1, D1, a1, b1, r1⟩ := term1 S G F R7 hD (c2 := conjugateTensor S chiD) hD
  obtain ⟨C2, D2, a2, b2, r2⟩ := term2 S G F κ R9 hD (c2 := conjugateTensor S chiQ) hQ
  obtain ⟨C3, D3, a3, b3, r3⟩ := term3 S G F κ R9' hQ (c2 := conjugateTensor S chiD) hD
  obtain ⟨C4, D4, a4, b4, r4⟩ := term4 S G F κ R10 hQ (c2 := conjugateTensor S chiQ) hQ
  have hDc : AllIn Q (conjugateTensor S chiD) := hDq.map hconj
  have hQc : AllIn Q (conjugateTensor S chiQ) := hQq.map hconj
  unfold contractAll at hv
  replace hv : [0, 1, 2, 3].foldlM _ _ = Except.ok v := hv
  rw [List.foldlM_cons] at hv
  obtain ⟨x1, e1, hv⟩ := bind_ok hv
  rw [List.foldlM_cons] at hv
  obtain ⟨x2, e2, hv⟩ := bind_ok hv
  rw [List.foldlM_cons] at hv
  obtain ⟨x3, e3, hv⟩ := bind_ok hv
  rw [List.foldlM_cons] at hv
  obtain ⟨x4, e4, hv⟩ := bind_ok hv
  cases hv
  replace e1 : (contractTerm S 16 h7 chiD (conjugateTensor S chiD) [[0, 6], [2, 7], [3, 8]] [[0, 3], [1, 4], [2, 5]] >>= _) = _ := e1
  replace e2 : (contractTerm S 16 h9 chiD (conjugateTensor S chiQ) [[0, 7], [2, 8], [3, 9]]
    [[0, 4], [1, 6], [2, 7], [3, 5]] >>= _) = _ := e2
  replace e3 : (contractTerm S 16 h9' chiQ (conjugateTensor S chiD) [[0, 7], [2, 9], [3, 10], [6, 8]]
    [[0, 3], [1, 4], [2, 5]] >>= _) = _ := e3
  replace e4 : (contractTerm S 16 h10 chiQ (conjugateTensor S chiQ) [[0, 8], [2, 10], [3, 11], [6, 9]]
    [[0, 4], [1, 6], [2, 7], [3, 5]] >>= _) = _ := e4
  obtain ⟨t1, f1, e1⟩ := bind_ok e1
  obtain ⟨t2, f2, e2⟩ := bind_ok e2
  obtain ⟨t3, f3, e3⟩ := bind_ok e3
  obtain ⟨t4, f4, e4⟩ := bind_ok e4
  cases e1; cases e2; cases e3; cases e4
  refine allEv_zipWith h (allEv_zipWith h (allEv_zipWith h (allEv_zipWith h ?_ ?_) ?_) ?_) ?_
  · intro e he
    rw [List.eq_of_mem_replicate he]
    exact h.num 0
  · exact contractTerm_all h (hlq _ (by simp)) hDq hDc a1 b1 r1 f1
  · exact contractTerm_all h (hlq _ (by simp)) hDq hQc a2 b2 r2 f2
  · exact contractTerm_all h (hlq _ (by simp)) hQq hDc a3 b3 r3 f3
  · exact contractTerm_all h (hlq _ (by simp)) hQq hQc a4 b4 r4 f4

/-- All formulas that are stored have the property. -/
theorem contracted_all (h : FClosed S Q) (hconj : ∀ e, Q e → Q (S.conj e)) {nfs : NpFiles} {pre : Key} {θ : (Sym → ℝ) → ℝ}
    (hs : AllStored nfs pre θ) (hf : FilesAll Q nfs pre) {chiD chiQ : Nd Expr} (hD : IsTensor 3 3 chiD) (hQ : IsTensor 3 4 chiQ)
    (hDq : AllIn Q chiD) (hQq : AllIn Q chiQ) {d : Dict Key (List Expr)} (hd : contractedFform S nfs pre chiD chiQ 16 = .ok d) :
    ∀ k v, (k, v) ∈ d → ∀ e ∈ v, Q e := by
  unfold contractedFform at hd
  obtain ⟨-, -, hd⟩ := bind_ok hd
  obtain ⟨-, -, hd⟩ := bind_ok hd
  obtain ⟨terms, h1, hd⟩ := bind_ok hd
  intro k v hkv
  obtain ⟨⟨k', l⟩, hl, hc⟩ := mapM_mem hd hkv
  obtain ⟨v', hv', hc⟩ := bind_ok hc
  cases hc
  obtain ⟨⟨k'', lo⟩, hlo, hload⟩ := mapM_mem h1 hl
  obtain ⟨a, ha, hload⟩ := bind_ok hload
  cases hload
  obtain ⟨p, q, hpq⟩ : ∃ p q : Pol, lo = [p.lower, q.lower] := by
    simp only [lowerPc, List.mem_cons, Prod.mk.injEq, List.not_mem_nil, or_false] at hlo
    rcases hlo with ⟨-, rfl⟩ | ⟨-, rfl⟩ | ⟨-, rfl⟩ | ⟨-, rfl⟩
    · exact ⟨.P, .P, rfl⟩
    · exact ⟨.P, .S, rfl⟩
    · exact ⟨.S, .P, rfl⟩
    · exact ⟨.S, .S, rfl⟩
  subst hpq
  have hfile : nfs (termsFile pre p q) = some l := by
    unfold npLoad at ha
    rw [show pre ++ ['_'] ++ [p.lower, q.lower] ++ ['.', 'n', 'p', 'y'] = termsFile pre p q from rfl] at ha
    split at ha
    · rename_i x hx
      cases ha
      exact hx
    · cases ha
  obtain ⟨l', g1, G, F, κ, ht, -⟩ := hs p q
  rw [hfile] at g1
  cases g1
  exact contractAll_all h hconj ht (hf p q l hfile) hD hQ hDq hQq hv'

end

end Shgpy
