import Verif.Proofs.Formgen3
import Verif.Proofs.FourierTransform

/-!
# Lemmas: the formulas of `formgen` are sums of products of cosines and sines of `phi`
-/

namespace Shgpy
open Spec
open scoped ComplexConjugate

set_option linter.unusedSectionVars false
set_option linter.unusedSimpArgs false

/-! ## Graded properties through the tensor algebra -/

/-- A family of properties, kept by sums and graded by products. -/
structure GradedOps {α : Type} (O : Ops α) (Q : ℕ → α → Prop) : Prop where
  zero : ∀ d, Q d O.zero
  add : ∀ d a b, Q d a → Q d b → Q d (O.add a b)
  mul : ∀ d e a b, Q d a → Q e b → Q (d + e) (O.mul a b)

section
variable {α : Type} {O : Ops α} {Q : ℕ → α → Prop}

theorem GradedOps.sum (h : GradedOps O Q) (d n : ℕ) (f : ℕ → α) (hf : ∀ i < n, Q d (f i)) : Q d (O.sum n f) := by
  have key : ∀ (l : List ℕ) (a : α), Q d a → (∀ i ∈ l, Q d (f i)) → Q d (l.foldl (fun acc i => O.add acc (f i)) a) := by
    intro l
    induction l with
    | nil => intro a ha _; exact ha
    | cons i l ih => intro a ha hl; exact ih _ (h.add d _ _ ha (hl i (by simp))) (fun j hj => hl j (by simp [hj]))
  exact key _ _ (h.zero d) (fun i hi => hf i (List.mem_range.1 hi))

theorem graded_tensordot0 (hO : GradedOps O Q) {d e : ℕ} {a b : Nd α} (ha : AllIn (Q d) a) (hb : AllIn (Q e) b) :
    AllIn (Q (d + e)) (Nd.tensordot0 O a b) := by
  intro idx h
  have h' : List.Forall₂ (fun i d => i < d) idx (a.shape ++ b.shape) := h
  have h1 := List.forall₂_take_append _ _ _ h'
  have h2 := List.forall₂_drop_append _ _ _ h'
  exact hO.mul _ _ _ _ (ha _ h1) (hb _ h2)

theorem graded_trace (hO : GradedOps O Q) {d : ℕ} {a y : Nd α} {p q : ℕ} (ha : AllIn (Q d) a)
    (hy : Nd.trace O a p q = .ok y) : AllIn (Q d) y := by
  unfold Nd.trace at hy
  split_ifs at hy with h
  cases hy
  intro idx hidx
  exact hO.sum _ _ _ (fun i hi => ha _ (inRange_insert2 hidx h.1 h.2.1 h.2.2 hi))

theorem graded_tensorProduct (hO : GradedOps O Q) : ∀ {ts : List (Nd α)} {ds : List ℕ} {y : Nd α},
    List.Forall₂ (fun t d => AllIn (Q d) t) ts ds → tensorProduct O ts = .ok y → AllIn (Q ds.sum) y := by
  intro ts
  induction ts with
  | nil => intro ds y _ h; simp [Shgpy.tensorProduct] at h
  | cons a rest ih =>
    intro ds y hts h
    cases hts with
    | @cons _ d _ ds' h1 hr =>
      rcases rest with _ | ⟨b, _ | ⟨c, r⟩⟩
      · simp [Shgpy.tensorProduct] at h
      · simp only [Shgpy.tensorProduct, Except.ok.injEq] at h
        subst h
        cases hr with
        | cons h2 hr =>
          cases hr
          simpa using graded_tensordot0 hO h1 h2
      · rw [Shgpy.tensorProduct] at h
        · cases hrr : Shgpy.tensorProduct O (b :: c :: r) with
          | error e => rw [hrr, error_bind] at h; cases h
          | ok z =>
            rw [hrr, ok_bind] at h
            cases h
            rw [List.sum_cons]
            exact graded_tensordot0 hO h1 (ih hr hrr)
        · simp
        · simp

theorem graded_contractLoop (hO : GradedOps O Q) {d : ℕ} {ι : Type} [DecidableEq ι] : ∀ {pairs : List (List ι)} {a y : Nd α}
    {labels : List ι}, AllIn (Q d) a → contractLoop O pairs a labels = .ok y → AllIn (Q d) y := by
  intro pairs
  induction pairs with
  | nil => intro a y labels ha h; cases h; exact ha
  | cons pair rest ih =>
    intro a y labels ha h
    rw [Shgpy.contractLoop] at h
    obtain ⟨new, _, h⟩ := bind_ok h
    obtain ⟨p, _, h⟩ := bind_ok h
    obtain ⟨q, _, h⟩ := bind_ok h
    obtain ⟨z, h4, h⟩ := bind_ok h
    obtain ⟨l', _, h⟩ := bind_ok h
    exact ih (graded_trace hO ha h4) h

theorem graded_contractProduct (hO : GradedOps O Q) {ts : List (Nd α)} {ds : List ℕ} {pairs : List (List ℤ)} {y : Nd α}
    (hts : List.Forall₂ (fun t d => AllIn (Q d) t) ts ds) (h : contractProduct O ts pairs = .ok y) :
    AllIn (Q ds.sum) y := by
  unfold Shgpy.contractProduct at h
  obtain ⟨P, hp, h⟩ := bind_ok h
  exact graded_contractLoop hO (graded_tensorProduct hO hts hp) h

end

/-! ## Graded properties through `formgen` -/

/-- What a family of properties of expressions must satisfy to be carried through `formgen`. -/
structure GradedFormgen (S : Sympy) (ex : Rewriting) (theta : Expr) (Q : ℕ → Expr → Prop) : Prop where
  num : ∀ d q, Q d (.num q)
  I : Q 0 .I
  mono : ∀ {d e x}, d ≤ e → Q d x → Q e x
  norm : ∀ {d x}, Q d x → Q d (S.norm x)
  run : ∀ {d x}, Q d x → Q d (ex.run x)
  add2 : ∀ {d a b}, Q d a → Q d b → Q d (.add [a, b])
  mul2 : ∀ {d e a b}, Q d a → Q e b → Q (d + e) (.mul [a, b])
  conjE : ∀ {d x}, Q d x → Q d x.conj
  costh : Q 0 (.cos theta)
  sinth : Q 0 (.sin theta)
  cosphi : Q 1 (.cos (.sym phi))
  sinphi : Q 1 (.sin (.sym phi))

section
variable {S : Sympy} {ex : Rewriting} {theta : Expr} {Q : ℕ → Expr → Prop} (H : GradedFormgen S ex theta Q)
include H

theorem GradedFormgen.addS {d : ℕ} {a b : Expr} (ha : Q d a) (hb : Q d b) : Q d (S.add a b) := H.norm (H.add2 ha hb)
theorem GradedFormgen.mulS {d e : ℕ} {a b : Expr} (ha : Q d a) (hb : Q e b) : Q (d + e) (S.mul a b) := H.norm (H.mul2 ha hb)
theorem GradedFormgen.neg2 {d : ℕ} {a : Expr} (ha : Q d a) : Q d (.mul [.num (-1), a]) := by
  have := H.mul2 (H.num 0 (-1)) ha
  rwa [zero_add] at this
theorem GradedFormgen.negS {d : ℕ} {a : Expr} (ha : Q d a) : Q d (S.neg a) := H.norm (H.neg2 ha)
theorem GradedFormgen.subS {d : ℕ} {a b : Expr} (ha : Q d a) (hb : Q d b) : Q d (S.sub a b) :=
  H.norm (H.add2 ha (H.neg2 hb))

theorem GradedFormgen.ops : GradedOps (exprOps S) Q :=
  ⟨fun d => H.num d 0, fun _ _ _ => H.addS, fun _ _ _ _ => H.mulS⟩

theorem graded_vec3 {d : ℕ} {a b c : Expr} (ha : Q d a) (hb : Q d b) (hc : Q d c) : AllIn (Q d) (vec3 a b c) := by
  intro idx _
  show Q d ([a, b, c].getD _ _)
  generalize idx.getD 0 0 = n
  match n with
  | 0 => exact ha
  | 1 => exact hb
  | 2 => exact hc
  | n + 3 => exact H.num d 0

theorem graded_rotR : AllIn (Q 1) (rotR S) := by
  have hc : Q 1 (S.cos (.sym phi)) := H.norm H.cosphi
  have hs : Q 1 (S.sin (.sym phi)) := H.norm H.sinphi
  intro idx _
  unfold rotR
  dsimp only
  generalize idx.getD 0 0 = n
  generalize idx.getD 1 0 = m
  match n, m with
  | 0, 0 => exact hc
  | 0, 1 => exact H.negS hs
  | 0, m + 2 =>
    match m with
    | 0 => exact H.num 1 0
    | m + 1 => exact H.num 1 0
  | 1, 0 => exact hs
  | 1, 1 => exact hc
  | 1, m + 2 =>
    match m with
    | 0 => exact H.num 1 0
    | m + 1 => exact H.num 1 0
  | 2, 0 => exact H.num 1 0
  | 2, 1 => exact H.num 1 0
  | 2, 2 => exact H.num 1 1
  | 2, m + 3 => exact H.num 1 0
  | n + 3, m => exact H.num 1 0

theorem graded_levi : AllIn (Q 0) genLeviCivita := by
  intro idx _
  unfold genLeviCivita
  dsimp only
  split_ifs <;> exact H.num 0 _

theorem graded_run {d : ℕ} {t : Nd Expr} (h : AllIn (Q d) t) : AllIn (Q d) (t.map ex.run) :=
  AllIn.map (fun _ => H.run) h

theorem gradedGet_add {d : ℕ} {a b : Nd Expr} (ha : AllGet (Q d) a) (hb : AllGet (Q d) b) :
    AllGet (Q d) (ndAdd S a b) := fun i hi => H.addS (ha i hi) (hb i hi)

theorem gradedGet_run {d : ℕ} {a : Nd Expr} (ha : AllGet (Q d) a) : AllGet (Q d) (a.map ex.run) :=
  fun i hi => H.run (ha i hi)

theorem gradedGet_mono {d e : ℕ} (hde : d ≤ e) {a : Nd Expr} (ha : AllGet (Q d) a) : AllGet (Q e) a :=
  fun i hi => H.mono hde (ha i hi)

theorem gradedGet_scaleI {d : ℕ} {a : Nd Expr} (ha : AllGet (Q d) a) : AllGet (Q d) (ndScale S .I a) := fun i hi => by
  have := H.mulS H.I (ha i hi)
  rwa [zero_add] at this

theorem gradedGet_project {d : ℕ} {k v : Nd Expr} (hk : AllGet (Q 0) k) (hks : k.shape = [3]) (hv : AllGet (Q d) v) :
    AllGet (Q d) (projectOut S k v) := by
  intro i hi
  have hd : Q d (npDot S k v) := by
    unfold npDot
    rw [hks]
    refine H.ops.sum _ _ _ (fun j hj => ?_)
    have := H.mulS (hk j hj) (hv j hj)
    rwa [zero_add] at this
  exact H.subS (hv i hi) (H.mulS hd (hk i hi))

theorem graded_modSq {d : ℕ} {v : Nd Expr} {i : ℕ} (hi : i < 3) (h : AllGet (Q d) v) : Q (d + d) (modSq S v i) :=
  H.mulS (h i hi) (H.norm (H.conjE (h i hi)))

theorem graded_kin : AllIn (Q 0) (kinVec S theta) := graded_vec3 H (H.norm H.sinth) (H.num 0 0) (H.norm H.costh)
theorem graded_kout : AllIn (Q 0) (koutVec S theta) := graded_vec3 H (H.norm H.sinth) (H.num 0 0) (H.negS (H.norm H.costh))
theorem graded_fp : AllIn (Q 0) (fpVec S theta) := graded_vec3 H (H.negS (H.norm H.costh)) (H.num 0 0) (H.norm H.sinth)
theorem graded_fs : AllIn (Q 0) fsVec := graded_vec3 H (H.num 0 0) (H.num 0 1) (H.num 0 0)

/-- The two vectors have three elements of degree `d`. -/
def GradedPair (Q : ℕ → Expr → Prop) (d : ℕ) (x : Nd Expr × Nd Expr) : Prop := AllGet (Q d) x.1 ∧ AllGet (Q d) x.2

theorem addDipole_graded {d : ℕ} (hd : 3 ≤ d) {t : Nd Expr} {acc acc' : Nd Expr × Nd Expr}
    (hshape : IsTensor 3 3 t) (ht : AllIn (Q 0) t) (ha : GradedPair Q d acc)
    (h : addDipole S ex theta t acc = .ok acc') : GradedPair Q d acc' := by
  obtain ⟨_, _, h⟩ := bind_ok h
  obtain ⟨rt, hrt, h⟩ := bind_ok h
  obtain ⟨Ps, hs, h⟩ := bind_ok h
  obtain ⟨Pp, hp, h⟩ := bind_ok h
  cases h
  obtain ⟨rt', e1, e2, _⟩ := rotated3_ok S hshape
  rw [hrt] at e1; cases e1
  have hR := graded_rotR H
  have hrt' := graded_run H (graded_contractProduct H.ops (.cons hR (.cons hR (.cons hR (.cons ht .nil)))) hrt)
  obtain ⟨v, f1, f2, _⟩ := dipoleMoment_ok S (rt := rt.map ex.run) (F := fsVec) e2 rfl
  rw [hs] at f1; cases f1
  obtain ⟨v, g1, g2, _⟩ := dipoleMoment_ok S (rt := rt.map ex.run) (F := fpVec S theta) e2 rfl
  rw [hp] at g1; cases g1
  have hF := graded_fp H
  have hF' := graded_fs H
  exact ⟨gradedGet_add H ha.1 (gradedGet_mono H hd (gradedGet_run H (allGet_of
      (graded_contractProduct H.ops (.cons hrt' (.cons hF (.cons hF .nil))) hp) g2))),
    gradedGet_add H ha.2 (gradedGet_mono H hd (gradedGet_run H (allGet_of
      (graded_contractProduct H.ops (.cons hrt' (.cons hF' (.cons hF' .nil))) hs) f2)))⟩

theorem addMagnetic_graded {d : ℕ} (hd : 3 ≤ d) {t : Nd Expr} {acc acc' : Nd Expr × Nd Expr}
    (hshape : IsTensor 3 3 t) (ht : AllIn (Q 0) t) (ha : GradedPair Q d acc)
    (h : addMagnetic S ex theta t acc = .ok acc') : GradedPair Q d acc' := by
  obtain ⟨_, _, h⟩ := bind_ok h
  obtain ⟨rt, hrt, h⟩ := bind_ok h
  obtain ⟨Ps, hs, h⟩ := bind_ok h
  obtain ⟨Pp, hp, h⟩ := bind_ok h
  cases h
  obtain ⟨rt', e1, e2, _⟩ := rotated3_ok S hshape
  rw [hrt] at e1; cases e1
  have hR := graded_rotR H
  have hrt' := graded_run H (graded_contractProduct H.ops (.cons hR (.cons hR (.cons hR (.cons ht .nil)))) hrt)
  obtain ⟨v, f1, f2, _⟩ := magneticMoment_ok S (rt := rt.map ex.run) (kin := kinVec S theta) (F := fsVec) e2 rfl rfl
  rw [hs] at f1; cases f1
  obtain ⟨v, g1, g2, _⟩ := magneticMoment_ok S (rt := rt.map ex.run) (kin := kinVec S theta) (F := fpVec S theta) e2 rfl rfl
  rw [hp] at g1; cases g1
  have hF := graded_fp H
  have hF' := graded_fs H
  have hk := graded_kin H
  have hl := graded_levi H
  exact ⟨gradedGet_add H ha.1 (gradedGet_mono H hd (gradedGet_run H (allGet_of
      (graded_contractProduct H.ops (.cons hl (.cons hk (.cons hrt' (.cons hF (.cons hF .nil))))) hp) g2))),
    gradedGet_add H ha.2 (gradedGet_mono H hd (gradedGet_run H (allGet_of
      (graded_contractProduct H.ops (.cons hl (.cons hk (.cons hrt' (.cons hF' (.cons hF' .nil))))) hs) f2)))⟩

theorem addQuadrupole_graded {d : ℕ} (hd : 4 ≤ d) {t : Nd Expr} {acc acc' : Nd Expr × Nd Expr}
    (hshape : IsTensor 3 4 t) (ht : AllIn (Q 0) t) (ha : GradedPair Q d acc)
    (h : addQuadrupole S ex theta t acc = .ok acc') : GradedPair Q d acc' := by
  obtain ⟨_, _, h⟩ := bind_ok h
  obtain ⟨rt, hrt, h⟩ := bind_ok h
  obtain ⟨Ps, hs, h⟩ := bind_ok h
  obtain ⟨Pp, hp, h⟩ := bind_ok h
  cases h
  obtain ⟨rt', e1, e2, _⟩ := rotated4_ok S hshape
  rw [hrt] at e1; cases e1
  have hR := graded_rotR H
  have hrt' := graded_run H (graded_contractProduct H.ops (.cons hR (.cons hR (.cons hR (.cons hR (.cons ht .nil))))) hrt)
  obtain ⟨v, f1, f2, _⟩ := quadrupoleMoment_ok S (rt := rt.map ex.run) (kin := kinVec S theta) (F := fsVec) e2 rfl rfl
  rw [hs] at f1; cases f1
  obtain ⟨v, g1, g2, _⟩ := quadrupoleMoment_ok S (rt := rt.map ex.run) (kin := kinVec S theta) (F := fpVec S theta) e2 rfl rfl
  rw [hp] at g1; cases g1
  have hF := graded_fp H
  have hF' := graded_fs H
  have hk := graded_kin H
  exact ⟨gradedGet_add H ha.1 (gradedGet_mono H hd (gradedGet_run H (gradedGet_scaleI H (allGet_of
      (graded_contractProduct H.ops (.cons hrt' (.cons hk (.cons hF (.cons hF .nil)))) hp) g2)))),
    gradedGet_add H ha.2 (gradedGet_mono H hd (gradedGet_run H (gradedGet_scaleI H (allGet_of
      (graded_contractProduct H.ops (.cons hrt' (.cons hk (.cons hF' (.cons hF' .nil)))) hs) f2))))⟩

theorem genS_graded {eee mee qee : Option (Nd Expr)} {d : ℕ} (hd : d = 4 ∨ d = 3 ∧ qee = none)
    (hs : RightShapes eee mee qee) (ht : ∀ t, (eee = some t ∨ mee = some t ∨ qee = some t) → AllIn (Q 0) t)
    {x : Nd Expr × Nd Expr} (h : genS S ex theta eee mee qee = .ok x) : GradedPair Q d x := by
  have hd3 : 3 ≤ d := by omega
  unfold genS at h
  split_ifs at h with hc
  obtain ⟨a1, h1, h⟩ := bind_ok h
  obtain ⟨a2, h2, h⟩ := bind_ok h
  obtain ⟨a3, h3, h⟩ := bind_ok h
  cases h
  have z : GradedPair Q d (zeroVec, zeroVec) :=
    ⟨allGet_of (graded_vec3 H (H.num d 0) (H.num d 0) (H.num d 0)) rfl,
      allGet_of (graded_vec3 H (H.num d 0) (H.num d 0) (H.num d 0)) rfl⟩
  have s1 : GradedPair Q d a1 := by
    cases he : eee with
    | none => rw [he] at h1; cases h1; exact z
    | some t =>
      rw [he] at h1
      exact addDipole_graded H hd3 (hs.eee3 t he) (ht t (by simp [he])) z h1
  have s2 : GradedPair Q d a2 := by
    cases he : mee with
    | none => rw [he] at h2; cases h2; exact s1
    | some t =>
      rw [he] at h2
      exact addMagnetic_graded H hd3 (hs.mee3 t he) (ht t (by simp [he])) s1 h2
  have s3 : GradedPair Q d a3 := by
    cases he : qee with
    | none => rw [he] at h3; cases h3; exact s2
    | some t =>
      rw [he] at h3
      have hd4 : 4 ≤ d := by
        rcases hd with h | ⟨_, h⟩
        · omega
        · rw [he] at h; cases h
      exact addQuadrupole_graded H hd4 (hs.qee4 t he) (ht t (by simp [he])) s2 h3
  have hk : AllGet (Q 0) (koutVec S theta) := allGet_of (graded_kout H) rfl
  exact ⟨gradedGet_run H (gradedGet_project H hk rfl s3.1), gradedGet_run H (gradedGet_project H hk rfl s3.2)⟩

theorem formgen_graded {eee mee qee : Option (Nd Expr)} {d : ℕ} (hd : d = 4 ∨ d = 3 ∧ qee = none)
    (hs : RightShapes eee mee qee) (ht : ∀ t, (eee = some t ∨ mee = some t ∨ qee = some t) → AllIn (Q 0) t)
    {c : FormContainer} (h : formgen S ex theta eee mee qee = .ok c) {k : Key} {e : Expr} (hk : c.getPc k = .ok e) :
    (∃ x, Q (d + d) x ∧ e = ex.run x) ∨ ∃ x y, Q (d + d) x ∧ Q (d + d) y ∧ e = S.add (ex.run x) (ex.run y) := by
  obtain ⟨x, h1, h⟩ := bind_ok h
  obtain ⟨hp, hss⟩ := genS_graded H hd hs ht h1
  dsimp only at h
  rw [fourForms_ok] at h
  cases h
  have hm := Dict.mem_of_get? (Dict.get_ok_iff.1 hk)
  simp only [List.mem_cons, List.not_mem_nil, or_false, Prod.mk.injEq] at hm
  have g0 : ∀ {v i}, i < 3 → AllGet (Q d) v → Q (d + d) (modSq S v i) := fun hi h => graded_modSq H hi h
  rcases hm with ⟨_, rfl⟩ | ⟨_, rfl⟩ | ⟨_, rfl⟩ | ⟨_, rfl⟩
  · exact .inr ⟨_, _, g0 (by omega) hp, g0 (by omega) hp, rfl⟩
  · exact .inl ⟨_, g0 (by omega) hp, rfl⟩
  · exact .inr ⟨_, _, g0 (by omega) hss, g0 (by omega) hss, rfl⟩
  · exact .inl ⟨_, g0 (by omega) hss, rfl⟩

end

/-! ## Sums of products -/

theorem TrigProduct.append {l m : List Expr} {a b a' b' : ℕ} (h : TrigProduct l a b) (h' : TrigProduct m a' b') :
    TrigProduct (l ++ m) (a + a') (b + b') := by
  induction h with
  | nil => simpa using h'
  | coeff hc _ ih => exact .coeff hc ih
  | trig hf _ ih =>
    have := TrigProduct.trig hf ih
    simpa [add_assoc] using this

theorem trigSum_congr {d : ℕ} {e e' : Expr} (h : TrigSum d e) (he : ∀ σ : Valuation, e'.eval σ = e.eval σ) : TrigSum d e' := by
  obtain ⟨ts, h1, h2⟩ := h
  exact ⟨ts, h1, fun σ => by rw [h2, he]⟩

theorem trigSum_const {e : Expr} (h : phi ∉ e.free) (d : ℕ) : TrigSum d e := by
  refine ⟨[.mul [e]], ?_, fun σ => by simp [Expr.eval, Expr.evalSum, Expr.evalProd]⟩
  intro t ht
  rw [List.mem_singleton] at ht
  exact ⟨[e], 0, 0, ht, .coeff h .nil, by omega⟩

theorem trigSum_mono {d d' : ℕ} (hd : d ≤ d') {e : Expr} (h : TrigSum d e) : TrigSum d' e := by
  obtain ⟨ts, h1, h2⟩ := h
  refine ⟨ts, fun t ht => ?_, h2⟩
  obtain ⟨l, a, b, r1, r2, r3⟩ := h1 t ht
  exact ⟨l, a, b, r1, r2, by omega⟩

theorem trigSum_add {d : ℕ} {e e' : Expr} (h : TrigSum d e) (h' : TrigSum d e') : TrigSum d (.add [e, e']) := by
  obtain ⟨ts, h1, h2⟩ := h
  obtain ⟨ts', h1', h2'⟩ := h'
  refine ⟨ts ++ ts', fun t ht => (List.mem_append.1 ht).elim (h1 t) (h1' t), fun σ => ?_⟩
  have e1 := h2 σ
  have e2 := h2' σ
  simp only [Expr.eval, Expr.evalSum_eq, List.map_append, List.sum_append, List.map_cons, List.map_nil, List.sum_cons,
    List.sum_nil, add_zero] at e1 e2 ⊢
  rw [e1, e2]

theorem evalProd_append2 (σ : Valuation) (l m : List Expr) :
    Expr.evalProd σ (l ++ m) = Expr.evalProd σ l * Expr.evalProd σ m := by
  simp [Expr.evalProd_eq]

theorem trigSum_mul {d d' : ℕ} {e e' : Expr} (h : TrigSum d e) (h' : TrigSum d' e') : TrigSum (d + d') (.mul [e, e']) := by
  obtain ⟨ts, h1, h2⟩ := h
  obtain ⟨ts', h1', h2'⟩ := h'
  refine ⟨ts.flatMap (fun t => ts'.map (fun t' => .mul (t.args ++ t'.args))), ?_, fun σ => ?_⟩
  · intro u hu
    obtain ⟨t, ht, hu⟩ := List.mem_flatMap.1 hu
    obtain ⟨t', ht', rfl⟩ := List.mem_map.1 hu
    obtain ⟨l, a, b, rfl, r2, r3⟩ := h1 t ht
    obtain ⟨l', a', b', rfl, r2', r3'⟩ := h1' t' ht'
    exact ⟨_, _, _, rfl, TrigProduct.append r2 r2', by omega⟩
  · have e2 := h2' σ
    have e1 := h2 σ
    simp only [Expr.eval, Expr.evalSum_eq] at e1 e2
    simp only [Expr.eval, Expr.evalProd, mul_one, ← e1, ← e2, Expr.evalSum_eq]
    clear e1 e2 h2 h2'
    induction ts with
    | nil => simp
    | cons t ts ih =>
      rw [List.flatMap_cons, List.map_append, List.sum_append, ih (fun u hu => h1 u (by simp [hu])), List.map_cons,
        List.sum_cons, add_mul]
      congr 1
      obtain ⟨l, a, b, rfl, _⟩ := h1 t (by simp)
      rw [List.map_map, ← List.sum_map_mul_left]
      congr 1
      refine List.map_congr_left (fun t' ht' => ?_)
      obtain ⟨l', a', b', rfl, _⟩ := h1' t' ht'
      simp [Expr.eval, Expr.args, evalProd_append2]

theorem eval_conj_all (σ : Valuation) (e : Expr) : e.conj.eval σ = conj (e.eval (fun s => conj (σ s))) := by
  induction e using Expr.ind with
  | num q => simp [Expr.conj, Expr.eval]
  | hI => simp [Expr.conj, Expr.eval, Expr.evalProd]
  | sym s => simp [Expr.conj, Expr.eval]
  | add l ih =>
    simp only [Expr.conj, Expr.eval, Expr.evalSum_eq, conjL_eq, List.map_map, map_list_sum]
    congr 1
    exact List.map_congr_left (fun e he => ih e he)
  | mul l ih =>
    simp only [Expr.conj, Expr.eval, Expr.evalProd_eq, conjL_eq, List.map_map, map_list_prod]
    congr 1
    exact List.map_congr_left (fun e he => ih e he)
  | pow b n ih => simp [Expr.conj, Expr.eval, ih]
  | cos e ih => simp [Expr.conj, Expr.eval, ih, Complex.cos_conj]
  | sin e ih => simp [Expr.conj, Expr.eval, ih, Complex.sin_conj]

theorem trigProduct_conj {l : List Expr} {a b : ℕ} (h : TrigProduct l a b) : TrigProduct (Expr.conjL l) a b := by
  induction h with
  | nil => exact .nil
  | coeff hc _ ih => exact .coeff (fun h => hc (free_conj _ _ h)) ih
  | @trig f r a b a' b' hf _ ih =>
    refine .trig ?_ ih
    cases hf <;> constructor

theorem trigSum_conj {d : ℕ} {e : Expr} (h : TrigSum d e) : TrigSum d e.conj := by
  obtain ⟨ts, h1, h2⟩ := h
  refine ⟨Expr.conjL ts, ?_, fun σ => ?_⟩
  · intro u hu
    rw [conjL_eq] at hu
    obtain ⟨t, ht, rfl⟩ := List.mem_map.1 hu
    obtain ⟨l, a, b, rfl, r2, r3⟩ := h1 t ht
    exact ⟨_, a, b, rfl, trigProduct_conj r2, r3⟩
  · rw [eval_conj_all σ e, ← h2, ← eval_conj_all]
    rfl

theorem graded_trigSum (S : Sympy) (ex : Rewriting) {theta : Expr} (hth : phi ∉ theta.free) :
    GradedFormgen S ex theta TrigSum where
  num d q := trigSum_const (by simp [Expr.free]) d
  I := trigSum_const (by simp [Expr.free]) 0
  mono h h' := trigSum_mono h h'
  norm h := trigSum_congr h (fun σ => S.eval_norm σ _)
  run h := trigSum_congr h (fun σ => ex.eval_run σ _)
  add2 := trigSum_add
  mul2 := trigSum_mul
  conjE := trigSum_conj
  costh := trigSum_const (by simpa [Expr.free] using hth) 0
  sinth := trigSum_const (by simpa [Expr.free] using hth) 0
  cosphi := ⟨[.mul [.cos (.sym phi)]], fun t ht => ⟨_, _, _, List.mem_singleton.1 ht, .trig .cos .nil, by omega⟩,
    fun σ => by simp [Expr.eval, Expr.evalSum, Expr.evalProd]⟩
  sinphi := ⟨[.mul [.sin (.sym phi)]], fun t ht => ⟨_, _, _, List.mem_singleton.1 ht, .trig .sin .nil, by omega⟩,
    fun σ => by simp [Expr.eval, Expr.evalSum, Expr.evalProd]⟩

/-! ## An expansion without new symbols -/

theorem trigProduct_subst {s : Sym} (hs : s ≠ phi) {l : List Expr} {a b : ℕ} (h : TrigProduct l a b) :
    TrigProduct (Expr.substL s (.num 0) l) a b := by
  induction h with
  | nil => exact .nil
  | coeff hc _ ih =>
    refine .coeff (fun h => ?_) ih
    rcases Expr.free_subst _ h with ⟨h, _⟩ | ⟨_, h⟩
    · exact hc h
    · simp [Expr.free] at h
  | @trig f r a b a' b' hf _ ih =>
    refine .trig ?_ ih
    have : phi ≠ s := fun h => hs h.symm
    cases hf <;> simp only [Expr.subst, if_neg this] <;> constructor

/-- `e` has the value of the sum of products `e'`, and `e'` has no symbols except those in `L`. -/
theorem expanded_subst : ∀ (L : List Sym) (e e' : Expr), (∀ s ∈ L, s ≠ phi ∧ s ∉ e.free) → ExpandedSum e' →
    (∀ σ : Valuation, e'.eval σ = e.eval σ) → ∃ e'', ExpandedSum e'' ∧ (∀ σ : Valuation, e''.eval σ = e.eval σ) ∧
      ∀ s ∈ e''.free, s ∈ e'.free ∧ s ∉ L := by
  intro L
  induction L with
  | nil => intro e e' _ h1 h2; exact ⟨e', h1, h2, fun s hs => ⟨hs, by simp⟩⟩
  | cons s L ih =>
    intro e e' hL h1 h2
    obtain ⟨hs, hse⟩ := hL s (by simp)
    obtain ⟨ts, rfl, ht⟩ := h1
    have := ih e (Expr.subst s (.num 0) (.add ts)) (fun u hu => hL u (by simp [hu])) ?_ ?_
    · obtain ⟨e'', g1, g2, g3⟩ := this
      refine ⟨e'', g1, g2, fun u hu => ?_⟩
      obtain ⟨k1, k2⟩ := g3 u hu
      rcases Expr.free_subst _ k1 with ⟨k3, k4⟩ | ⟨_, k3⟩
      · exact ⟨k3, by simp [k4, k2]⟩
      · simp [Expr.free] at k3
    · refine ⟨_, rfl, fun u hu => ?_⟩
      rw [Expr.substL_eq] at hu
      obtain ⟨t, ht', rfl⟩ := List.mem_map.1 hu
      obtain ⟨l, a, b, rfl, r2, r3⟩ := ht t ht'
      exact ⟨_, a, b, rfl, trigProduct_subst hs r2, r3⟩
    · intro σ
      rw [Expr.eval_subst, h2]
      refine Expr.eval_congr _ (fun u hu => ?_)
      have : u ≠ s := fun h => hse (h ▸ hu)
      simp [assign, this]

theorem expanded_of_trigSum {e : Expr} (h : TrigSum 8 e) (hphi : phi ∈ e.free) :
    ∃ e', ExpandedSum e' ∧ (∀ σ : Valuation, e'.eval σ = e.eval σ) ∧ ∀ s ∈ e'.free, s ∈ e.free := by
  obtain ⟨ts, h1, h2⟩ := h
  have hL : ∀ s ∈ (Expr.add ts).free.filter (fun s => s ∉ e.free), s ≠ phi ∧ s ∉ e.free := by
    intro s hs
    have : s ∉ e.free := by simpa using (List.mem_filter.1 hs).2
    exact ⟨fun h => this (h ▸ hphi), this⟩
  obtain ⟨e'', g1, g2, g3⟩ := expanded_subst _ e (.add ts) hL ⟨ts, rfl, h1⟩ h2
  refine ⟨e'', g1, g2, fun s hs => ?_⟩
  obtain ⟨k1, k2⟩ := g3 s hs
  by_contra hc
  exact k2 (List.mem_filter.2 ⟨k1, by simpa using hc⟩)

open Classical in
/-- A rewriting that expands whatever can be expanded. -/
noncomputable def expandAll (e : Expr) : Expr :=
  if h : TrigSum 8 e ∧ phi ∈ e.free then (expanded_of_trigSum h.1 h.2).choose else e

theorem expandAll_eval (σ : Valuation) (e : Expr) : (expandAll e).eval σ = e.eval σ := by
  unfold expandAll
  split_ifs with h
  · exact (expanded_of_trigSum h.1 h.2).choose_spec.2.1 σ
  · rfl

theorem expandAll_free (e : Expr) (s : Sym) (hs : s ∈ (expandAll e).free) : s ∈ e.free := by
  unfold expandAll at hs
  split_ifs at hs with h
  · exact (expanded_of_trigSum h.1 h.2).choose_spec.2.2 s hs
  · exact hs

theorem expandAll_supported {e : Expr} (h : TrigSum 8 e) : Supported (expandAll e) := by
  unfold expandAll
  split_ifs with hc
  · exact .sum (expanded_of_trigSum hc.1 hc.2).choose_spec.1
  · exact .const (fun hp => hc ⟨h, hp⟩)

/-- A sympy that keeps its expressions expanded. -/
noncomputable def expandingSympy : Sympy := { Sympy.plain with
  norm := expandAll
  eval_norm := expandAll_eval
  free_norm := expandAll_free }

/-- `sp.expand(sp.expand_trig(...))`, idealized. -/
noncomputable def expanding : Rewriting := ⟨expandAll, expandAll_eval, expandAll_free⟩

theorem tensors_trigSum {eee mee qee : Option (Nd Expr)} (hphi : ¬ OccursInSome eee mee qee phi) (t : Nd Expr)
    (ht : eee = some t ∨ mee = some t ∨ qee = some t) : AllIn (TrigSum 0) t :=
  fun idx h => trigSum_const (fun hp => hphi ⟨t, ht, idx, h, hp⟩) 0

end Shgpy
