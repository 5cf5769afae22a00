import Verif.Proofs.Formgen2
import Verif.Proofs.NdAll
import Verif.Proofs.Intensity

/-!
# Lemmas: transformed tensors, input checks and free symbols of `formgen`
-/

namespace Shgpy
open Spec
open scoped ComplexConjugate

set_option linter.unusedSectionVars false
set_option linter.unusedSimpArgs false

section
variable (S : Sympy) (ex : Rewriting)

theorem transform3_ok {t A : Nd Expr} (hA : IsMatrix 3 3 A) (ht : IsTensor 3 3 t) :
    ∃ y, transform (exprOps S) t A = .ok y ∧ IsTensor 3 3 y ∧ ∀ σ : Valuation,
      value3 y σ = rot3 (fun i a => (A.get [i.val, a.val]).eval σ) (value3 t σ) := by
  have hr : t.rank = 3 := by
    unfold Nd.rank
    rw [show t.shape = _ from ht]
    rfl
  obtain ⟨y, h1, h2⟩ := contractProduct_ok S [A, A, A, t] [[1, 6], [3, 7], [5, 8]]
    (P := fun σ y => y.shape = [3, 3, 3] ∧ ∀ i j k, y.get [i, j, k] = ∑ a : Fin 3, ∑ b : Fin 3, ∑ c : Fin 3,
        (A.get [i, a.val]).eval σ * (A.get [j, b.val]).eval σ * (A.get [k, c.val]).eval σ *
          (t.get [a.val, b.val, c.val]).eval σ)
    (fun σ => contract_rot3 (A := evalNd σ A) (t := evalNd σ t) hA ht)
  refine ⟨y, ?_, (h2 (fun _ => 0)).1, fun σ => funext fun i => funext fun j => funext fun k => (h2 σ).2 i j k⟩
  rw [← h1]
  unfold transform contractProduct
  rw [hr]
  rfl

theorem transform4_ok {t A : Nd Expr} (hA : IsMatrix 3 3 A) (ht : IsTensor 3 4 t) :
    ∃ y, transform (exprOps S) t A = .ok y ∧ IsTensor 3 4 y ∧ ∀ σ : Valuation,
      value4 y σ = rot4 (fun i a => (A.get [i.val, a.val]).eval σ) (value4 t σ) := by
  have hr : t.rank = 4 := by
    unfold Nd.rank
    rw [show t.shape = _ from ht]
    rfl
  obtain ⟨y, h1, h2⟩ := contractProduct_ok S [A, A, A, A, t] [[1, 8], [3, 9], [5, 10], [7, 11]]
    (P := fun σ y => y.shape = [3, 3, 3, 3] ∧ ∀ i j k l, y.get [i, j, k, l] =
      ∑ a : Fin 3, ∑ b : Fin 3, ∑ c : Fin 3, ∑ d : Fin 3,
        (A.get [i, a.val]).eval σ * (A.get [j, b.val]).eval σ * (A.get [k, c.val]).eval σ *
          (A.get [l, d.val]).eval σ * (t.get [a.val, b.val, c.val, d.val]).eval σ)
    (fun σ => contract_rot4 (A := evalNd σ A) (t := evalNd σ t) hA ht)
  refine ⟨y, ?_, (h2 (fun _ => 0)).1,
    fun σ => funext fun i => funext fun j => funext fun k => funext fun l => (h2 σ).2 i j k l⟩
  rw [← h1]
  unfold transform contractProduct
  rw [hr]
  rfl

theorem occursIn_transform {t A y : Nd Expr} (h : transform (exprOps S) t A = .ok y) {s : Sym} (hs : OccursIn y s) :
    OccursIn t s ∨ OccursIn A s := by
  have := AllIn.transform (closed_freeIn S (F := fun s => OccursIn t s ∨ OccursIn A s)) (t := t) (A := A)
    (fun idx hidx s hs => Or.inl ⟨idx, hidx, hs⟩) (fun idx hidx s hs => Or.inr ⟨idx, hidx, hs⟩) h
  obtain ⟨idx, hidx, hs⟩ := hs
  exact this idx hidx s hs

/-! ## Values do not depend on symbols that do not occur -/

theorem inRange3 (i j k : Fin 3) : Nd.InRange (List.replicate 3 3) [i.val, j.val, k.val] :=
  .cons i.2 (.cons j.2 (.cons k.2 .nil))
theorem inRange4 (i j k l : Fin 3) : Nd.InRange (List.replicate 4 3) [i.val, j.val, k.val, l.val] :=
  .cons i.2 (.cons j.2 (.cons k.2 (.cons l.2 .nil)))

theorem value3_congr {t : Nd Expr} (ht : IsTensor 3 3 t) {σ τ : Valuation} (h : ∀ s, OccursIn t s → σ s = τ s) :
    value3 t σ = value3 t τ := by
  funext i j k
  refine Expr.eval_congr _ (fun s hs => h s ⟨_, ?_, hs⟩)
  rw [show t.shape = _ from ht]
  exact inRange3 i j k

theorem value4_congr {t : Nd Expr} (ht : IsTensor 3 4 t) {σ τ : Valuation} (h : ∀ s, OccursIn t s → σ s = τ s) :
    value4 t σ = value4 t τ := by
  funext i j k l
  refine Expr.eval_congr _ (fun s hs => h s ⟨_, ?_, hs⟩)
  rw [show t.shape = _ from ht]
  exact inRange4 i j k l

theorem crystalOf_congr {eee mee qee : Option (Nd Expr)} (hr : RightShapes eee mee qee) {σ τ : Valuation}
    (h : ∀ s, OccursInSome eee mee qee s → σ s = τ s) : crystalOf eee mee qee σ = crystalOf eee mee qee τ := by
  unfold crystalOf
  congr 1
  · cases eee with
    | none => rfl
    | some t => exact value3_congr (hr.eee3 t rfl) (fun s hs => h s ⟨t, by simp, hs⟩)
  · cases mee with
    | none => rfl
    | some t => exact value3_congr (hr.mee3 t rfl) (fun s hs => h s ⟨t, by simp, hs⟩)
  · cases qee with
    | none => rfl
    | some t => exact value4_congr (hr.qee4 t rfl) (fun s hs => h s ⟨t, by simp, hs⟩)

theorem Spec.ValidTensors.shapes {eee mee qee : Option (Nd Expr)} (h : ValidTensors eee mee qee) : RightShapes eee mee qee :=
  ⟨h.eee3, h.mee3, h.qee4⟩

theorem crystalOf_withPhi {eee mee qee : Option (Nd Expr)} (hr : RightShapes eee mee qee)
    (h : ¬ OccursInSome eee mee qee phi) (r : Sym → ℝ) (x : ℝ) :
    crystalOf eee mee qee (realVal (withPhi r x)) = crystalOf eee mee qee (realVal r) := by
  refine crystalOf_congr hr (fun s hs => ?_)
  have : s ≠ phi := fun e => h (e ▸ hs)
  simp [realVal, withPhi, this]

theorem eval_withPhi {e : Expr} (h : phi ∉ e.free) (r : Sym → ℝ) (x : ℝ) :
    e.eval (realVal (withPhi r x)) = e.eval (realVal r) := by
  refine Expr.eval_congr _ (fun s hs => ?_)
  have : s ≠ phi := fun e => h (e ▸ hs)
  simp [realVal, withPhi, this]

/-! ## Input checks -/

theorem ifGiven_ok {f : Nd Expr → Nd Expr × Nd Expr → Except Err (Nd Expr × Nd Expr)} {t : Option (Nd Expr)}
    {acc acc' : Nd Expr × Nd Expr} (hf : ∀ t acc acc', f t acc = .ok acc' → assertRealParams t = .ok ())
    (h : ifGiven t f acc = .ok acc') : ∀ u, t = some u → ∀ s, OccursIn u s → s.isReal = some true := by
  intro u hu s hs
  subst hu
  by_contra hc
  have h1 := hf u acc acc' h
  rw [assertRealParams_error hs hc] at h1
  cases h1

theorem bind_ok {α β : Type} {x : Except Err α} {f : α → Except Err β} {b : β} (h : x >>= f = .ok b) :
    ∃ a, x = .ok a ∧ f a = .ok b := by
  cases x with
  | error e => rw [error_bind] at h; cases h
  | ok a => exact ⟨a, rfl, by rwa [ok_bind] at h⟩

theorem addDipole_real {theta : Expr} (t : Nd Expr) (acc acc' : Nd Expr × Nd Expr)
    (h : addDipole S ex theta t acc = .ok acc') : assertRealParams t = .ok () := by
  obtain ⟨_, h1, _⟩ := bind_ok h; exact h1
theorem addMagnetic_real {theta : Expr} (t : Nd Expr) (acc acc' : Nd Expr × Nd Expr)
    (h : addMagnetic S ex theta t acc = .ok acc') : assertRealParams t = .ok () := by
  obtain ⟨_, h1, _⟩ := bind_ok h; exact h1
theorem addQuadrupole_real {theta : Expr} (t : Nd Expr) (acc acc' : Nd Expr × Nd Expr)
    (h : addQuadrupole S ex theta t acc = .ok acc') : assertRealParams t = .ok () := by
  obtain ⟨_, h1, _⟩ := bind_ok h; exact h1

/-- What success tells about the arguments. -/
theorem genS_real {theta : Expr} {eee mee qee : Option (Nd Expr)} {x : Nd Expr × Nd Expr}
    (h : genS S ex theta eee mee qee = .ok x) :
    ¬ (eee = none ∧ mee = none ∧ qee = none) ∧
    ∀ t, eee = some t ∨ mee = some t ∨ qee = some t → ∀ s, OccursIn t s → s.isReal = some true := by
  unfold genS at h
  split_ifs at h with hc
  obtain ⟨a1, h1, h⟩ := bind_ok h
  obtain ⟨a2, h2, h⟩ := bind_ok h
  obtain ⟨a3, h3, h⟩ := bind_ok h
  refine ⟨?_, ?_⟩
  · rintro ⟨rfl, rfl, rfl⟩
    exact hc rfl
  · rintro t (ht | ht | ht)
    · exact ifGiven_ok (addDipole_real S ex) h1 t ht
    · exact ifGiven_ok (addMagnetic_real S ex) h2 t ht
    · exact ifGiven_ok (addQuadrupole_real S ex) h3 t ht

/-- With tensors of the right shapes the only exception is `ValueError`. -/
theorem genS_error {theta : Expr} {eee mee qee : Option (Nd Expr)} (hs : RightShapes eee mee qee)
    (h : ¬ ValidTensors eee mee qee) : genS S ex theta eee mee qee = .error .valueError := by
  have step : ∀ {t : Option (Nd Expr)} {f : Nd Expr → Nd Expr × Nd Expr → Except Err (Nd Expr × Nd Expr)}
      (acc : Nd Expr × Nd Expr), (∀ t acc, assertRealParams t = .error .valueError → f t acc = .error .valueError) →
      (∃ u s, t = some u ∧ OccursIn u s ∧ s.isReal ≠ some true) → ifGiven t f acc = .error .valueError := by
    rintro t f acc hf ⟨u, s, rfl, h1, h2⟩
    exact hf u acc (assertRealParams_error h1 h2)
  have d1 : ∀ t acc, assertRealParams t = .error .valueError → addDipole S ex theta t acc = .error .valueError := by
    intro t acc h; unfold addDipole; rw [h]; rfl
  have d2 : ∀ t acc, assertRealParams t = .error .valueError → addMagnetic S ex theta t acc = .error .valueError := by
    intro t acc h; unfold addMagnetic; rw [h]; rfl
  have d3 : ∀ t acc, assertRealParams t = .error .valueError → addQuadrupole S ex theta t acc = .error .valueError := by
    intro t acc h; unfold addQuadrupole; rw [h]; rfl
  by_cases hn : eee = none ∧ mee = none ∧ qee = none
  · obtain ⟨rfl, rfl, rfl⟩ := hn
    rfl
  unfold genS
  rw [if_neg (by simp only [Bool.and_eq_true, Option.isNone_iff_eq_none]; tauto)]
  by_cases h1 : ∃ u s, eee = some u ∧ OccursIn u s ∧ s.isReal ≠ some true
  · rw [step _ d1 h1]; rfl
  have e1 : ∃ acc, ifGiven eee (addDipole S ex theta) (zeroVec, zeroVec) = .ok acc ∧ acc.1.shape = [3] ∧
      acc.2.shape = [3] ∧ ∃ X : Valuation → Crystal, (∀ σ, (X σ).mee = 0) ∧ (∀ σ, (X σ).qee = 0) ∧
        Collected acc theta X := by
    cases he : eee with
    | none => exact ⟨_, rfl, rfl, rfl, _, fun _ => rfl, fun _ => rfl, collected_zero theta⟩
    | some t =>
      obtain ⟨acc, h, c⟩ := addDipole_ok S ex (hs.eee3 t he) (fun s hs => by
        by_contra hc; exact h1 ⟨t, s, he, hs, hc⟩) (fun _ => rfl) (collected_zero theta)
      exact ⟨acc, h, c.1, c.2.1, _, fun _ => rfl, fun _ => rfl, c⟩
  obtain ⟨a1, e1, _, _, X, hX1, hX2, c1⟩ := e1
  rw [e1, ok_bind]
  by_cases h2 : ∃ u s, mee = some u ∧ OccursIn u s ∧ s.isReal ≠ some true
  · rw [step _ d2 h2]; rfl
  have e2 : ∃ acc, ifGiven mee (addMagnetic S ex theta) a1 = .ok acc := by
    cases he : mee with
    | none => exact ⟨_, rfl⟩
    | some t =>
      obtain ⟨acc, h, _⟩ := addMagnetic_ok S ex (hs.mee3 t he) (fun s hs => by
        by_contra hc; exact h2 ⟨t, s, he, hs, hc⟩) hX1 c1
      exact ⟨acc, h⟩
  obtain ⟨a2, e2⟩ := e2
  rw [e2, ok_bind]
  have h3 : ∃ u s, qee = some u ∧ OccursIn u s ∧ s.isReal ≠ some true := by
    by_contra h3
    refine h ⟨hs.eee3, hs.mee3, hs.qee4, hn, ?_⟩
    rintro t (ht | ht | ht) s hs
    · by_contra hc; exact h1 ⟨t, s, ht, hs, hc⟩
    · by_contra hc; exact h2 ⟨t, s, ht, hs, hc⟩
    · by_contra hc; exact h3 ⟨t, s, ht, hs, hc⟩
  rw [step _ d3 h3]
  rfl

/-! ## Free symbols -/

variable {F : Sym → Prop}

theorem freeIn_cosS {e : Expr} (h : FreeIn F e) : FreeIn F (S.cos e) := FreeIn.norm S h
theorem freeIn_sinS {e : Expr} (h : FreeIn F e) : FreeIn F (S.sin e) := FreeIn.norm S h

theorem freeIn_subS {a b : Expr} (ha : FreeIn F a) (hb : FreeIn F b) : FreeIn F (S.sub a b) :=
  FreeIn.norm S (fun s hs => by
    rcases (by simpa [Expr.free, Expr.freeL] using hs) with h | h
    · exact ha s h
    · exact hb s h)

theorem free_conj (e : Expr) : ∀ s ∈ e.conj.free, s ∈ e.free := by
  induction e using Expr.ind with
  | num q => intro s h; simp [Expr.conj, Expr.free] at h
  | hI => intro s h; simp [Expr.conj, Expr.free, Expr.freeL] at h
  | sym s => intro u h; exact h
  | add l ih =>
    intro s h
    simp only [Expr.conj, Expr.free, conjL_eq, Expr.mem_freeL, List.mem_map] at h ⊢
    obtain ⟨_, ⟨e, he, rfl⟩, hs⟩ := h
    exact ⟨e, he, ih e he s hs⟩
  | mul l ih =>
    intro s h
    simp only [Expr.conj, Expr.free, conjL_eq, Expr.mem_freeL, List.mem_map] at h ⊢
    obtain ⟨_, ⟨e, he, rfl⟩, hs⟩ := h
    exact ⟨e, he, ih e he s hs⟩
  | pow b n ih => intro s h; exact ih s h
  | cos e ih => intro s h; exact ih s h
  | sin e ih => intro s h; exact ih s h

theorem freeIn_conjS {e : Expr} (h : FreeIn F e) : FreeIn F (S.conj e) :=
  FreeIn.norm S (fun s hs => h s (free_conj e s hs))

theorem allIn_vec3 {a b c : Expr} (ha : FreeIn F a) (hb : FreeIn F b) (hc : FreeIn F c) : AllIn (FreeIn F) (vec3 a b c) := by
  intro idx _
  show FreeIn F ([a, b, c].getD _ _)
  generalize idx.getD 0 0 = n
  match n with
  | 0 => exact ha
  | 1 => exact hb
  | 2 => exact hc
  | n + 3 => exact FreeIn.num 0

theorem allIn_rotR (hphi : F phi) : AllIn (FreeIn F) (rotR S) := by
  have hp : FreeIn F (.sym phi) := by intro s hs; simp only [Expr.free, List.mem_singleton] at hs; exact hs ▸ hphi
  have hc := freeIn_cosS S hp
  have hs := freeIn_sinS S hp
  intro idx _
  unfold rotR
  dsimp only
  generalize idx.getD 0 0 = n
  generalize idx.getD 1 0 = m
  match n, m with
  | 0, 0 => exact hc
  | 0, 1 => exact FreeIn.negS S hs
  | 0, m + 2 =>
    match m with
    | 0 => exact FreeIn.num 0
    | m + 1 => exact FreeIn.num 0
  | 1, 0 => exact hs
  | 1, 1 => exact hc
  | 1, m + 2 =>
    match m with
    | 0 => exact FreeIn.num 0
    | m + 1 => exact FreeIn.num 0
  | 2, 0 => exact FreeIn.num 0
  | 2, 1 => exact FreeIn.num 0
  | 2, 2 => exact FreeIn.num 1
  | 2, m + 3 => exact FreeIn.num 0
  | n + 3, m => exact FreeIn.num 0

theorem allIn_levi : AllIn (FreeIn F) genLeviCivita := by
  intro idx _
  unfold genLeviCivita
  dsimp only
  split_ifs <;> exact FreeIn.num _

theorem allIn_run {t : Nd Expr} (h : AllIn (FreeIn F) t) : AllIn (FreeIn F) (t.map ex.run) :=
  AllIn.map (fun _ => freeIn_run ex) h

/-- All reads of a vector, in range or not, have the property. -/
def AllGet (Q : Expr → Prop) (t : Nd Expr) : Prop := ∀ i < 3, Q (t.get [i])

theorem allGet_of {Q : Expr → Prop} {t : Nd Expr} (h : AllIn Q t) (hs : t.shape = [3]) : AllGet Q t := by
  intro i hi
  refine h _ ?_
  rw [hs]
  exact .cons hi .nil

theorem allGet_add {a b : Nd Expr} (ha : AllGet (FreeIn F) a) (hb : AllGet (FreeIn F) b) :
    AllGet (FreeIn F) (ndAdd S a b) := fun i hi => FreeIn.addS S (ha i hi) (hb i hi)

theorem allGet_run {a : Nd Expr} (ha : AllGet (FreeIn F) a) : AllGet (FreeIn F) (a.map ex.run) :=
  fun i hi => freeIn_run ex (ha i hi)

theorem allGet_scaleI {a : Nd Expr} (ha : AllGet (FreeIn F) a) : AllGet (FreeIn F) (ndScale S .I a) :=
  fun i hi => FreeIn.mulS S FreeIn.I (ha i hi)

theorem allGet_project {k v : Nd Expr} (hk : AllGet (FreeIn F) k) (hks : k.shape = [3]) (hv : AllGet (FreeIn F) v) :
    AllGet (FreeIn F) (projectOut S k v) := by
  intro i hi
  refine freeIn_subS S (hv i hi) (FreeIn.mulS S ?_ (hk i hi))
  unfold npDot
  rw [hks]
  exact (closed_freeIn S).sum _ _ (fun j hj => FreeIn.mulS S (hk j hj) (hv j hj))

theorem freeIn_modSq {v : Nd Expr} {i : ℕ} (hi : i < 3) (h : AllGet (FreeIn F) v) : FreeIn F (modSq S v i) :=
  FreeIn.mulS S (h i hi) (freeIn_conjS S (h i hi))

theorem rotated3_free (hphi : F phi) {t rt : Nd Expr} (ht : AllIn (FreeIn F) t) (h : rotated3 S t = .ok rt) :
    AllIn (FreeIn F) rt := by
  refine AllIn.contractProduct (closed_freeIn S) ?_ h
  intro u hu
  simp only [List.mem_cons, List.not_mem_nil, or_false] at hu
  rcases hu with rfl | rfl | rfl | rfl
  · exact allIn_rotR S hphi
  · exact allIn_rotR S hphi
  · exact allIn_rotR S hphi
  · exact ht

theorem rotated4_free (hphi : F phi) {t rt : Nd Expr} (ht : AllIn (FreeIn F) t) (h : rotated4 S t = .ok rt) :
    AllIn (FreeIn F) rt := by
  refine AllIn.contractProduct (closed_freeIn S) ?_ h
  intro u hu
  simp only [List.mem_cons, List.not_mem_nil, or_false] at hu
  rcases hu with rfl | rfl | rfl | rfl | rfl
  · exact allIn_rotR S hphi
  · exact allIn_rotR S hphi
  · exact allIn_rotR S hphi
  · exact allIn_rotR S hphi
  · exact ht

theorem dipoleMoment_free {rt f v : Nd Expr} (h1 : AllIn (FreeIn F) rt) (h2 : AllIn (FreeIn F) f)
    (h : dipoleMoment S rt f = .ok v) : AllIn (FreeIn F) v := by
  refine AllIn.contractProduct (closed_freeIn S) ?_ h
  intro u hu
  simp only [List.mem_cons, List.not_mem_nil, or_false] at hu
  rcases hu with rfl | rfl | rfl
  · exact h1
  · exact h2
  · exact h2

theorem magneticMoment_free {rt k f v : Nd Expr} (h1 : AllIn (FreeIn F) rt) (hk : AllIn (FreeIn F) k)
    (h2 : AllIn (FreeIn F) f) (h : magneticMoment S rt k f = .ok v) : AllIn (FreeIn F) v := by
  refine AllIn.contractProduct (closed_freeIn S) ?_ h
  intro u hu
  simp only [List.mem_cons, List.not_mem_nil, or_false] at hu
  rcases hu with rfl | rfl | rfl | rfl | rfl
  · exact allIn_levi
  · exact hk
  · exact h1
  · exact h2
  · exact h2

theorem quadrupoleMoment_free {rt k f v : Nd Expr} (h1 : AllIn (FreeIn F) rt) (hk : AllIn (FreeIn F) k)
    (h2 : AllIn (FreeIn F) f) (h : quadrupoleMoment S rt k f = .ok v) : AllIn (FreeIn F) v := by
  refine AllIn.contractProduct (closed_freeIn S) ?_ h
  intro u hu
  simp only [List.mem_cons, List.not_mem_nil, or_false] at hu
  rcases hu with rfl | rfl | rfl | rfl
  · exact h1
  · exact hk
  · exact h2
  · exact h2

variable {theta : Expr}

theorem kin_free (h : FreeIn F theta) : AllIn (FreeIn F) (kinVec S theta) :=
  allIn_vec3 (freeIn_sinS S h) (FreeIn.num 0) (freeIn_cosS S h)
theorem kout_free (h : FreeIn F theta) : AllIn (FreeIn F) (koutVec S theta) :=
  allIn_vec3 (freeIn_sinS S h) (FreeIn.num 0) (FreeIn.negS S (freeIn_cosS S h))
theorem fp_free (h : FreeIn F theta) : AllIn (FreeIn F) (fpVec S theta) :=
  allIn_vec3 (FreeIn.negS S (freeIn_cosS S h)) (FreeIn.num 0) (freeIn_sinS S h)
theorem fs_free : AllIn (FreeIn F) fsVec := allIn_vec3 (FreeIn.num 0) (FreeIn.num 1) (FreeIn.num 0)

/-- The two vectors have three elements with free symbols in `F`. -/
def FreePair (F : Sym → Prop) (x : Nd Expr × Nd Expr) : Prop := AllGet (FreeIn F) x.1 ∧ AllGet (FreeIn F) x.2

theorem addDipole_free (hphi : F phi) (hth : FreeIn F theta) {t : Nd Expr} {acc acc' : Nd Expr × Nd Expr}
    (hshape : IsTensor 3 3 t) (ht : AllIn (FreeIn F) t) (ha : FreePair F acc)
    (h : addDipole S ex theta t acc = .ok acc') : FreePair F acc' := by
  obtain ⟨_, _, h⟩ := bind_ok h
  obtain ⟨rt, hrt, h⟩ := bind_ok h
  obtain ⟨Ps, hs, h⟩ := bind_ok h
  obtain ⟨Pp, hp, h⟩ := bind_ok h
  cases h
  obtain ⟨rt', e1, e2, _⟩ := rotated3_ok S hshape
  rw [hrt] at e1; cases e1
  have hrt' := allIn_run ex (rotated3_free S hphi ht hrt)
  obtain ⟨v, f1, f2, _⟩ := dipoleMoment_ok S (rt := rt.map ex.run) (F := fsVec) e2 rfl
  rw [hs] at f1; cases f1
  obtain ⟨v, g1, g2, _⟩ := dipoleMoment_ok S (rt := rt.map ex.run) (F := fpVec S theta) e2 rfl
  rw [hp] at g1; cases g1
  exact ⟨allGet_add S ha.1 (allGet_run ex (allGet_of (dipoleMoment_free S hrt' (fp_free S hth) hp) g2)),
    allGet_add S ha.2 (allGet_run ex (allGet_of (dipoleMoment_free S hrt' fs_free hs) f2))⟩

theorem addMagnetic_free (hphi : F phi) (hth : FreeIn F theta) {t : Nd Expr} {acc acc' : Nd Expr × Nd Expr}
    (hshape : IsTensor 3 3 t) (ht : AllIn (FreeIn F) t) (ha : FreePair F acc)
    (h : addMagnetic S ex theta t acc = .ok acc') : FreePair F acc' := by
  obtain ⟨_, _, h⟩ := bind_ok h
  obtain ⟨rt, hrt, h⟩ := bind_ok h
  obtain ⟨Ps, hs, h⟩ := bind_ok h
  obtain ⟨Pp, hp, h⟩ := bind_ok h
  cases h
  obtain ⟨rt', e1, e2, _⟩ := rotated3_ok S hshape
  rw [hrt] at e1; cases e1
  have hrt' := allIn_run ex (rotated3_free S hphi ht hrt)
  obtain ⟨v, f1, f2, _⟩ := magneticMoment_ok S (rt := rt.map ex.run) (kin := kinVec S theta) (F := fsVec) e2 rfl rfl
  rw [hs] at f1; cases f1
  obtain ⟨v, g1, g2, _⟩ := magneticMoment_ok S (rt := rt.map ex.run) (kin := kinVec S theta) (F := fpVec S theta) e2 rfl rfl
  rw [hp] at g1; cases g1
  exact ⟨allGet_add S ha.1 (allGet_run ex (allGet_of (magneticMoment_free S hrt' (kin_free S hth) (fp_free S hth) hp) g2)),
    allGet_add S ha.2 (allGet_run ex (allGet_of (magneticMoment_free S hrt' (kin_free S hth) fs_free hs) f2))⟩

theorem addQuadrupole_free (hphi : F phi) (hth : FreeIn F theta) {t : Nd Expr} {acc acc' : Nd Expr × Nd Expr}
    (hshape : IsTensor 3 4 t) (ht : AllIn (FreeIn F) t) (ha : FreePair F acc)
    (h : addQuadrupole S ex theta t acc = .ok acc') : FreePair F acc' := by
  obtain ⟨_, _, h⟩ := bind_ok h
  obtain ⟨rt, hrt, h⟩ := bind_ok h
  obtain ⟨Ps, hs, h⟩ := bind_ok h
  obtain ⟨Pp, hp, h⟩ := bind_ok h
  cases h
  obtain ⟨rt', e1, e2, _⟩ := rotated4_ok S hshape
  rw [hrt] at e1; cases e1
  have hrt' := allIn_run ex (rotated4_free S hphi ht hrt)
  obtain ⟨v, f1, f2, _⟩ := quadrupoleMoment_ok S (rt := rt.map ex.run) (kin := kinVec S theta) (F := fsVec) e2 rfl rfl
  rw [hs] at f1; cases f1
  obtain ⟨v, g1, g2, _⟩ := quadrupoleMoment_ok S (rt := rt.map ex.run) (kin := kinVec S theta) (F := fpVec S theta) e2 rfl rfl
  rw [hp] at g1; cases g1
  exact ⟨allGet_add S ha.1 (allGet_run ex (allGet_scaleI S
      (allGet_of (quadrupoleMoment_free S hrt' (kin_free S hth) (fp_free S hth) hp) g2))),
    allGet_add S ha.2 (allGet_run ex (allGet_scaleI S
      (allGet_of (quadrupoleMoment_free S hrt' (kin_free S hth) fs_free hs) f2)))⟩

theorem genS_free {eee mee qee : Option (Nd Expr)} (hs : RightShapes eee mee qee) (hphi : F phi) (hth : FreeIn F theta)
    (ht : ∀ s, OccursInSome eee mee qee s → F s) {x : Nd Expr × Nd Expr}
    (h : genS S ex theta eee mee qee = .ok x) : FreePair F x := by
  unfold genS at h
  split_ifs at h with hc
  obtain ⟨a1, h1, h⟩ := bind_ok h
  obtain ⟨a2, h2, h⟩ := bind_ok h
  obtain ⟨a3, h3, h⟩ := bind_ok h
  cases h
  have z : FreePair F (zeroVec, zeroVec) :=
    ⟨allGet_of (allIn_vec3 (FreeIn.num 0) (FreeIn.num 0) (FreeIn.num 0)) rfl,
      allGet_of (allIn_vec3 (FreeIn.num 0) (FreeIn.num 0) (FreeIn.num 0)) rfl⟩
  have s1 : FreePair F a1 := by
    cases he : eee with
    | none => rw [he] at h1; cases h1; exact z
    | some t =>
      rw [he] at h1
      exact addDipole_free S ex hphi hth (hs.eee3 t he) (fun idx hidx s hs => ht s ⟨t, by simp [he], idx, hidx, hs⟩) z h1
  have s2 : FreePair F a2 := by
    cases he : mee with
    | none => rw [he] at h2; cases h2; exact s1
    | some t =>
      rw [he] at h2
      exact addMagnetic_free S ex hphi hth (hs.mee3 t he) (fun idx hidx s hs => ht s ⟨t, by simp [he], idx, hidx, hs⟩) s1 h2
  have s3 : FreePair F a3 := by
    cases he : qee with
    | none => rw [he] at h3; cases h3; exact s2
    | some t =>
      rw [he] at h3
      exact addQuadrupole_free S ex hphi hth (hs.qee4 t he) (fun idx hidx s hs => ht s ⟨t, by simp [he], idx, hidx, hs⟩) s2 h3
  have hk : AllGet (FreeIn F) (koutVec S theta) := allGet_of (kout_free S hth) rfl
  exact ⟨allGet_run ex (allGet_project S hk rfl s3.1), allGet_run ex (allGet_project S hk rfl s3.2)⟩

theorem formgen_free {eee mee qee : Option (Nd Expr)} (hs : RightShapes eee mee qee) (hphi : F phi) (hth : FreeIn F theta)
    (ht : ∀ s, OccursInSome eee mee qee s → F s) {c : FormContainer} (h : formgen S ex theta eee mee qee = .ok c) :
    ∀ s, Occurs c s → F s := by
  obtain ⟨x, h1, h⟩ := bind_ok h
  obtain ⟨hp, hss⟩ := genS_free S ex hs hphi hth ht h1
  dsimp only at h
  rw [fourForms_ok] at h
  cases h
  rintro s ⟨k, e, hk, hse⟩
  have hm := Dict.mem_of_get? (Dict.get_ok_iff.1 hk)
  simp only [List.mem_cons, List.not_mem_nil, or_false, Prod.mk.injEq] at hm
  have g0 : ∀ {v i}, i < 3 → AllGet (FreeIn F) v → FreeIn F (ex.run (modSq S v i)) :=
    fun hi h => freeIn_run ex (freeIn_modSq S hi h)
  rcases hm with ⟨_, rfl⟩ | ⟨_, rfl⟩ | ⟨_, rfl⟩ | ⟨_, rfl⟩
  · exact FreeIn.addS S (g0 (by omega) hp) (g0 (by omega) hp) s hse
  · exact g0 (by omega) hp s hse
  · exact FreeIn.addS S (g0 (by omega) hss) (g0 (by omega) hss) s hse
  · exact g0 (by omega) hss s hse

end

end Shgpy
