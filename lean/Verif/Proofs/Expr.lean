import Verif.Spec.Form

/-!
# Lemmas about expressions
-/

set_option linter.unusedSectionVars false
set_option linter.unusedSimpArgs false

namespace Shgpy
open Spec

namespace Expr

theorem evalSum_eq (σ : Sym → ℂ) (l : List Expr) : evalSum σ l = (l.map (eval σ)).sum := by
  induction l with
  | nil => simp [evalSum]
  | cons a l ih => simp [evalSum, ih]

theorem evalProd_eq (σ : Sym → ℂ) (l : List Expr) : evalProd σ l = (l.map (eval σ)).prod := by
  induction l with
  | nil => simp [evalProd]
  | cons a l ih => simp [evalProd, ih]

theorem mem_freeL {s : Sym} {l : List Expr} : s ∈ freeL l ↔ ∃ e ∈ l, s ∈ e.free := by
  induction l with
  | nil => simp [freeL]
  | cons a l ih => simp [freeL, ih]

theorem substL_eq (s : Sym) (t : Expr) (l : List Expr) : substL s t l = l.map (subst s t) := by
  induction l with
  | nil => simp [substL]
  | cons a l ih => simp [substL, ih]

theorem eval_congr {σ τ : Sym → ℂ} (e : Expr) (h : ∀ s ∈ e.free, σ s = τ s) : e.eval σ = e.eval τ := by
  induction e using ind with
  | num q => simp [eval]
  | hI => simp [eval]
  | sym s => simpa [eval] using h s (by simp [free])
  | add l ih =>
    simp only [eval, evalSum_eq]
    congr 1
    refine List.map_congr_left (fun e he => ih e he (fun s hs => h s ?_))
    simp only [free]
    exact mem_freeL.2 ⟨e, he, hs⟩
  | mul l ih =>
    simp only [eval, evalProd_eq]
    congr 1
    refine List.map_congr_left (fun e he => ih e he (fun s hs => h s ?_))
    simp only [free]
    exact mem_freeL.2 ⟨e, he, hs⟩
  | pow b n ih => simp only [eval]; rw [ih (by simpa [free] using h)]
  | cos e ih => simp only [eval]; rw [ih (by simpa [free] using h)]
  | sin e ih => simp only [eval]; rw [ih (by simpa [free] using h)]

theorem eval_subst (σ : Sym → ℂ) (s : Sym) (t e : Expr) :
    (subst s t e).eval σ = e.eval (assign σ s (t.eval σ)) := by
  induction e using ind with
  | num q => simp [subst, eval]
  | hI => simp [subst, eval]
  | sym u =>
    by_cases h : u = s
    · simp [subst, eval, assign, h]
    · simp [subst, eval, assign, h]
  | add l ih =>
    simp only [subst, eval, evalSum_eq, substL_eq, List.map_map]
    congr 1
    exact List.map_congr_left ih
  | mul l ih =>
    simp only [subst, eval, evalProd_eq, substL_eq, List.map_map]
    congr 1
    exact List.map_congr_left ih
  | pow b n ih => simp only [subst, eval, ih]
  | cos e ih => simp only [subst, eval, ih]
  | sin e ih => simp only [subst, eval, ih]

theorem free_subst {u s : Sym} {t : Expr} (e : Expr) (h : u ∈ (subst s t e).free) :
    (u ∈ e.free ∧ u ≠ s) ∨ (s ∈ e.free ∧ u ∈ t.free) := by
  induction e using ind with
  | num q => simp [subst, free] at h
  | hI => simp [subst, free] at h
  | sym v =>
    by_cases hv : v = s
    · subst hv
      simp only [subst, if_true] at h
      exact Or.inr ⟨by simp [free], h⟩
    · simp only [subst, if_neg hv, free, List.mem_singleton] at h
      subst h
      exact Or.inl ⟨by simp [free], hv⟩
  | add l ih =>
    simp only [subst, free, substL_eq] at h ⊢
    obtain ⟨e', he', hu⟩ := mem_freeL.1 h
    obtain ⟨e, he, rfl⟩ := List.mem_map.1 he'
    rcases ih e he hu with ⟨h1, h2⟩ | ⟨h1, h2⟩
    · exact Or.inl ⟨mem_freeL.2 ⟨e, he, h1⟩, h2⟩
    · exact Or.inr ⟨mem_freeL.2 ⟨e, he, h1⟩, h2⟩
  | mul l ih =>
    simp only [subst, free, substL_eq] at h ⊢
    obtain ⟨e', he', hu⟩ := mem_freeL.1 h
    obtain ⟨e, he, rfl⟩ := List.mem_map.1 he'
    rcases ih e he hu with ⟨h1, h2⟩ | ⟨h1, h2⟩
    · exact Or.inl ⟨mem_freeL.2 ⟨e, he, h1⟩, h2⟩
    · exact Or.inr ⟨mem_freeL.2 ⟨e, he, h1⟩, h2⟩
  | pow b n ih => simp only [subst, free] at h ⊢; exact ih h
  | cos e ih => simp only [subst, free] at h ⊢; exact ih h
  | sin e ih => simp only [subst, free] at h ⊢; exact ih h

end Expr

namespace Sympy
variable (S : Sympy)

theorem eval_mul (σ : Sym → ℂ) (a b : Expr) : (S.mul a b).eval σ = a.eval σ * b.eval σ := by
  simp [Sympy.mul, S.eval_norm, Expr.eval, Expr.evalProd]

theorem eval_add (σ : Sym → ℂ) (a b : Expr) : (S.add a b).eval σ = a.eval σ + b.eval σ := by
  simp [Sympy.add, S.eval_norm, Expr.eval, Expr.evalSum]

theorem eval_cos (σ : Sym → ℂ) (a : Expr) : (S.cos a).eval σ = Complex.cos (a.eval σ) := by
  simp [Sympy.cos, S.eval_norm, Expr.eval]

theorem eval_sin (σ : Sym → ℂ) (a : Expr) : (S.sin a).eval σ = Complex.sin (a.eval σ) := by
  simp [Sympy.sin, S.eval_norm, Expr.eval]

theorem eval_subs (σ : Sym → ℂ) (pairs : List (Sym × Expr)) (e : Expr) :
    (S.subs pairs e).eval σ = e.eval (assigned pairs σ) := by
  unfold Sympy.subs
  induction pairs generalizing e with
  | nil => simp [assigned]
  | cons p r ih =>
    simp only [List.foldl_cons, assigned]
    rw [ih, S.eval_norm, Expr.eval_subst]

theorem free_mul {a b : Expr} {s : Sym} (h : s ∈ (S.mul a b).free) : s ∈ a.free ∨ s ∈ b.free := by
  have := S.free_norm _ _ h
  simpa [Expr.free, Expr.freeL] using this

theorem free_add {a b : Expr} {s : Sym} (h : s ∈ (S.add a b).free) : s ∈ a.free ∨ s ∈ b.free := by
  have := S.free_norm _ _ h
  simpa [Expr.free, Expr.freeL] using this

theorem free_cos {a : Expr} {s : Sym} (h : s ∈ (S.cos a).free) : s ∈ a.free := by
  have := S.free_norm _ _ h
  simpa [Expr.free] using this

theorem free_sin {a : Expr} {s : Sym} (h : s ∈ (S.sin a).free) : s ∈ a.free := by
  have := S.free_norm _ _ h
  simpa [Expr.free] using this

theorem mem_sortSyms {l : List Sym} {s : Sym} : s ∈ S.sortSyms l ↔ s ∈ l := by
  unfold Sympy.sortSyms
  rw [List.mem_mergeSort, (S.setOrder_perm l).mem_iff, List.mem_dedup]

theorem sortSyms_nodup (l : List Sym) : (S.sortSyms l).Nodup := by
  unfold Sympy.sortSyms
  rw [(List.mergeSort_perm _ _).nodup_iff, (S.setOrder_perm l).nodup_iff]
  exact List.nodup_dedup l

theorem sortSyms_sorted (l : List Sym) : (S.sortSyms l).Pairwise (fun a b => a.name ≤ b.name) := by
  unfold Sympy.sortSyms
  have := List.pairwise_mergeSort (le := fun a b : Sym => decide (a.name ≤ b.name))
    (fun a b c h1 h2 => by simp only [decide_eq_true_eq] at *; exact List.le_trans h1 h2)
    (fun a b => by simp only [Bool.or_eq_true, decide_eq_true_eq]; exact List.le_total _ _) (S.setOrder l)
  simpa using this

end Sympy

theorem PyObj.eval_sympify (S : Sympy) (σ : Sym → ℂ) (o : PyObj) : (o.sympify S).eval σ = objValue σ o := by
  cases o with
  | native re im =>
    by_cases h : im = 0
    · simp [PyObj.sympify, h, Expr.eval, objValue]
    · simp [PyObj.sympify, h, Expr.eval, objValue, S.eval_norm, Expr.evalSum, Expr.evalProd]
  | sy e => rfl

end Shgpy
