import Verif.Proofs.TableMore

/-!
# C55, C56, C68, C69: the tables of tensors
-/

namespace Shgpy
open Spec.PG TensorDef

set_option linter.unusedSectionVars false
set_option linter.unusedSimpArgs false

/-! ## C55 -/

/-- The dipole table has one entry for each of the 32 point groups, and the entry describes exactly the tensors of rank 3
that are invariant under the group. -/
theorem C55_dipole (S : Sympy) :
    ((dipole S).map Prod.fst).Perm (pointGroups.map Prod.fst) ∧
    ∀ g gens, (g, gens) ∈ pointGroups → ∃ t, Dict.get (dipole S) g = .ok t ∧ Describes 3 t (generated gens) := by
  refine ⟨?_, fun g gens h => ?_⟩
  · have h : (dipole S).map Prod.fst = dipoleTable.map Prod.fst := rfl
    have h2 : dipoleTable.map Prod.fst = pointGroups.map Prod.fst := rfl
    rw [h, h2]
  · obtain ⟨t, h1, h2⟩ := checked_spec (checked_dipole _ h) S []
    exact ⟨t, h1, h2⟩

/-- The surface table has one entry for each of the 32 point groups, and the entry describes exactly the tensors of rank 3
that are invariant under the group. -/
theorem C55_surface (S : Sympy) :
    ((surface S).map Prod.fst).Perm (pointGroups.map Prod.fst) ∧
    ∀ g gens, (g, gens) ∈ pointGroups → ∃ t, Dict.get (surface S) g = .ok t ∧ Describes 3 t (generated gens) := by
  refine ⟨?_, fun g gens h => ?_⟩
  · have h : (surface S).map Prod.fst = surfaceTable.map Prod.fst := rfl
    have h2 : pointGroups.map Prod.fst = dipoleTable.map Prod.fst := rfl
    rw [h, h2]
    have h3 : (surfaceTable.map Prod.fst).isPerm (dipoleTable.map Prod.fst) = true := by decide +kernel
    exact List.isPerm_iff.1 h3
  · obtain ⟨t, h1, h2⟩ := checked_spec (checked_surface _ h) S ['s']
    exact ⟨t, h1, h2⟩

/-- The quadrupole table has one entry for each of `quadrupoleGroups` and one entry `Isotropic`; the entries describe exactly
the tensors of rank 4 that are invariant under the group, and under all rotations, respectively. -/
theorem C55_quadrupole (S : Sympy) :
    ((quadrupole S).map Prod.fst).Perm
      (['I', 's', 'o', 't', 'r', 'o', 'p', 'i', 'c'] :: quadrupoleGroups.map Prod.fst) ∧
    (∀ g gens, (g, gens) ∈ quadrupoleGroups →
      ∃ t, Dict.get (quadrupole S) g = .ok t ∧ Describes 4 t (generated gens)) ∧
    ∃ t, Dict.get (quadrupole S) ['I', 's', 'o', 't', 'r', 'o', 'p', 'i', 'c'] = .ok t ∧ Describes 4 t allRotations := by
  refine ⟨?_, fun g gens h => ?_, tensorArray S [] 4 quadrupole_Isotropic, rfl, rfl, fun T => ⟨fun h => ?_, ?_⟩⟩
  · have h : (quadrupole S).map Prod.fst = quadrupoleTable.map Prod.fst := rfl
    have h2 : quadrupoleGroups.map Prod.fst =
        (dipoleTable.map Prod.fst).filter (fun k => decide (k ∉ ([['S', '_', '2'], ['C', '_', '3', 'v'],
          ['D', '_', '3', 'd'], ['D', '_', '3']] : List Key))) ++ [['C', '_', '3', 'v'], ['D', '_', '3', 'd'],
          ['D', '_', '3']] := by
      have h3 : dipoleTable.map Prod.fst = pointGroups.map Prod.fst := rfl
      rw [h3, quadrupoleGroups, List.map_append, List.filter_map]
      rfl
    rw [h, h2]
    refine List.isPerm_iff.1 ?_
    decide +kernel
  · have hc : Checked 4 quadrupoleTable (g, gens) := by
      rcases List.mem_append.1 h with h | h
      · obtain ⟨h1, h2⟩ := List.mem_filter.1 h
        simp only [List.mem_cons, List.not_mem_nil, or_false, not_or, decide_eq_true_eq] at h2
        exact checked_quadrupole _ h1 h2.1 h2.2.1 h2.2.2.1 h2.2.2.2
      · exact checked_turned _ h
    obtain ⟨t, h1, h2⟩ := checked_spec hc S []
    exact ⟨t, h1, h2⟩
  · refine ⟨_, (checkTable_spec check_quadrupole_Isotropic S [] T).2 (fun g hg => h _ ?_)⟩
    simp only [List.mem_cons, List.not_mem_nil, or_false] at hg
    have hz : ∀ a : ℝ, rotZ a ∈ allRotations := by
      intro a
      constructor
      · have := Real.sin_sq_add_cos_sq a
        ext i j
        fin_cases i <;> fin_cases j <;>
          simp [rotZ, Matrix.mul_apply, Fin.sum_univ_three] <;> nlinarith
      · have := Real.sin_sq_add_cos_sq a
        rw [Matrix.det_fin_three]
        simp [rotZ]
        nlinarith
    rcases hg with rfl | rfl | rfl
    · exact hz _
    · constructor
      · ext i j
        fin_cases i <;> fin_cases j <;>
          simp [Gen.op, threefoldDiagonal, Matrix.mul_apply, Fin.sum_univ_three]
      · rw [Matrix.det_fin_three]; simp [Gen.op, threefoldDiagonal]
    · exact hz _
  · rintro ⟨σ, rfl⟩ A hA
    obtain ⟨α, β, γ, h⟩ := iso_value S σ
    exact iso_act A hA.1 _ α β γ h

/-- Two entries of different kinds: the only parameter of a polar uniaxial crystal with `C_6v` along its axis is allowed, and
an `O_h` crystal has no dipole response. -/
example (S : Sympy) : ∃ t, Dict.get (dipole S) ['O', '_', 'h'] = .ok t ∧
    Describes 3 t (generated [fourfoldZ, threefoldDiagonal, inversion]) :=
  (C55_dipole S).2 _ _ (by simp [pointGroups])

example (S : Sympy) : ∃ t, Dict.get (quadrupole S) ['D', '_', '3'] = .ok t ∧
    Describes 4 t (generated [threefoldZ, twofoldY]) :=
  (C55_quadrupole S).2.1 _ _ (by simp [quadrupoleGroups, turnedGroups])

/-! ## C56 -/

/-- The surface table has the groups of the dipole table, and every element of a surface tensor is the element of the dipole
tensor with `s` put in front of the name of every parameter. -/
theorem C56_surface (S : Sympy) :
    ((surface S).map Prod.fst).Perm ((dipole S).map Prod.fst) ∧
    ∀ g td, Dict.get (dipole S) g = .ok td → ∃ ts, Dict.get (surface S) g = .ok ts ∧ ts.shape = td.shape ∧
      ∀ σ (i : Fin 3 → Fin 3), valueOf 3 ts σ i = valueOf 3 td (fun s => σ ⟨'s' :: s.name, s.tag⟩) i := by
  refine ⟨(C55_surface S).1.trans (C55_dipole S).1.symm, fun g td h => ?_⟩
  obtain ⟨flat, -, rfl, hm⟩ := get_mapVals_ok h
  have hs : ∀ kv ∈ dipoleTable, Dict.get? surfaceTable kv.1 = some kv.2 := by decide +kernel
  have h2 : Dict.get surfaceTable g = .ok flat := by
    unfold Dict.get; rw [hs _ hm]
  exact ⟨_, get_mapVals _ h2, rfl, fun σ i => by rw [valueOf_tensorArray, valueOf_tensorArray]; rfl⟩

/-- It applies to every entry, for example the `C_3v` one. -/
example (S : Sympy) : ∃ td ts, Dict.get (dipole S) ['C', '_', '3', 'v'] = .ok td ∧
    Dict.get (surface S) ['C', '_', '3', 'v'] = .ok ts ∧ valueOf 3 ts (fun s => if s.name = ['s', 'z', 'z', 'z'] then 1 else 0) ![2, 2, 2] = 1 := by
  refine ⟨_, _, rfl, rfl, ?_⟩
  rw [valueOf_tensorArray]
  have : surface_C_3v.getD (position (List.ofFn (fun k => ((![2, 2, 2] : Fin 3 → Fin 3) k).val))) [] = [27] := rfl
  rw [this]
  simp [elementTerms, LF.val, Z3.val, tensorSym, digits3, axisName]

/-! ## C68 -/

/-- In all three tables, a parameter that occurs in a tensor is named after an element of that tensor (with `s` in front for
the surface), and that element is the parameter itself. -/
theorem C68_names (S : Sympy) {r : ℕ} {pre : Key} {table : Dict Key (Nd Expr)}
    (htable : (r = 3 ∧ pre = [] ∧ table = dipole S) ∨ (r = 3 ∧ pre = ['s'] ∧ table = surface S) ∨
      (r = 4 ∧ pre = [] ∧ table = quadrupole S))
    {g : Key} {t : Nd Expr} (ht : Dict.get table g = .ok t) (i : Fin r → Fin 3) {s : Sym}
    (hs : s ∈ (t.get (List.ofFn (fun k => (i k).val))).free) :
    ∃ j : Fin r → Fin 3, s = ⟨pre ++ List.ofFn (fun k => letter (j k)), 0⟩ ∧
      t.get (List.ofFn (fun k => (j k).val)) = .sym s := by
  have hl : ∀ a : Fin 3, letter a = axisName a.val := by decide
  simp only [hl]
  rcases htable with ⟨rfl, rfl, rfl⟩ | ⟨rfl, rfl, rfl⟩ | ⟨rfl, rfl, rfl⟩
  · obtain ⟨flat, -, rfl, hm⟩ := get_mapVals_ok ht
    exact checkNames_spec (names_dipole _ hm) S [] i hs
  · obtain ⟨flat, -, rfl, hm⟩ := get_mapVals_ok ht
    exact checkNames_spec (names_surface _ hm) S ['s'] i hs
  · obtain ⟨flat, -, rfl, hm⟩ := get_mapVals_ok ht
    exact checkNames_spec (names_quadrupole _ hm) S [] i hs

/-- The element `zxx` of `dipole['C_3v']` holds the parameter `zyy`, which is the element `zyy`. -/
example (S : Sympy) : ∃ t, Dict.get (dipole S) ['C', '_', '3', 'v'] = .ok t ∧
    t.get (List.ofFn (fun k => ((![2, 0, 0] : Fin 3 → Fin 3) k).val)) = .sym ⟨['z', 'y', 'y'], 0⟩ := ⟨_, rfl, rfl⟩

/-- A tensor of a table determines the values of its parameters: different values give different tensors. -/
theorem C68_parameters (S : Sympy) {r : ℕ} {pre : Key} {table : Dict Key (Nd Expr)}
    (htable : (r = 3 ∧ pre = [] ∧ table = dipole S) ∨ (r = 3 ∧ pre = ['s'] ∧ table = surface S) ∨
      (r = 4 ∧ pre = [] ∧ table = quadrupole S))
    {g : Key} {t : Nd Expr} (ht : Dict.get table g = .ok t) {σ τ : Sym → ℂ} (h : valueOf r t σ = valueOf r t τ)
    (i : Fin r → Fin 3) {s : Sym} (hs : s ∈ (t.get (List.ofFn (fun k => (i k).val))).free) : σ s = τ s := by
  obtain ⟨j, -, hj⟩ := C68_names S htable ht i hs
  have := congrFun h j
  unfold valueOf at this
  rw [hj] at this
  simpa [Expr.eval] using this

/-! ## C69 -/

/-- For every group in both tables, except `C_3v` and `D_3`, the dipole and the quadrupole entry are for the same orientation
of the crystal: the group of `pointGroups`, or the turned group for `D_3d`.  Missing: `C_3v` and `D_3`, where the claim is
false (see `C69_C_3v_broken`, `C69_D_3_broken`). -/
theorem C69_same_setting_partial (S : Sympy) {g : Key} {t3 t4 : Nd Expr} (h3 : Dict.get (dipole S) g = .ok t3)
    (h4 : Dict.get (quadrupole S) g = .ok t4) (hg : g ≠ ['C', '_', '3', 'v']) (hg' : g ≠ ['D', '_', '3']) :
    SameSetting t3 t4 := by
  have hort : ∀ (gens : List Gen), ∀ A ∈ generated (gens.map Gen.op), A * A.transpose = 1 := by
    intro gens A hA
    refine Submonoid.closure_induction (motive := fun A _ => A * A.transpose = 1) (fun A hA => ?_) (by simp)
      (fun A B _ _ hA hB => ?_) hA
    · obtain ⟨g, -, rfl⟩ := List.mem_map.1 hA
      have hz : ∀ a : ℝ, rotZ a * (rotZ a).transpose = 1 := by
        intro a
        have := Real.sin_sq_add_cos_sq a
        ext i j
        fin_cases i <;> fin_cases j <;> simp [rotZ, Matrix.mul_apply, Fin.sum_univ_three] <;> nlinarith
      cases g
      case C3z => exact hz _
      case C4z => exact hz _
      case C6z => exact hz _
      case S4z =>
        show (-rotZ _) * (-rotZ _).transpose = 1
        rw [Matrix.transpose_neg, neg_mul_neg]; exact hz _
      all_goals
        ext i j
        fin_cases i <;> fin_cases j <;> simp [Gen.op, inversion, twofoldX, twofoldY, twofoldZ, mirrorX, mirrorY, mirrorZ,
          threefoldDiagonal, Matrix.mul_apply, Fin.sum_univ_three]
    · rw [Matrix.transpose_mul]
      calc A * B * (B.transpose * A.transpose) = A * (B * B.transpose) * A.transpose := by
            simp only [Matrix.mul_assoc]
        _ = 1 := by rw [hB, Matrix.mul_one, hA]
  have main : ∀ gens : List SymOp, Checked 3 dipoleTable (g, gens) → Checked 4 quadrupoleTable (g, gens) →
      SameSetting t3 t4 := by
    intro gens hc3 hc4
    obtain ⟨u3, h3', h3s⟩ := checked_spec hc3 S []
    obtain ⟨u4, h4', h4s⟩ := checked_spec hc4 S []
    have e3 : u3 = t3 := by
      have : (Except.ok u3 : Except Err (Nd Expr)) = .ok t3 := h3'.symm.trans h3
      cases this; rfl
    have e4 : u4 = t4 := by
      have : (Except.ok u4 : Except Err (Nd Expr)) = .ok t4 := h4'.symm.trans h4
      cases this; rfl
    subst e3 e4
    obtain ⟨gg, -, -, hgg, -⟩ := hc3
    refine ⟨generated gens, ?_, h3s, h4s⟩
    have : gens = gg.map Gen.op := hgg
    rw [this]
    exact hort gg
  obtain ⟨flat3, -, -, hm3⟩ := get_mapVals_ok h3
  have hkey : g ∈ pointGroups.map Prod.fst := by
    have h : pointGroups.map Prod.fst = dipoleTable.map Prod.fst := rfl
    rw [h]; exact List.mem_map.2 ⟨_, hm3, rfl⟩
  obtain ⟨⟨g', gens⟩, hmem, rfl⟩ := List.mem_map.1 hkey
  have hS2 : g' ≠ ['S', '_', '2'] := by
    rintro rfl
    have : Dict.get (quadrupole S) ['S', '_', '2'] = .error .keyError := rfl
    rw [this] at h4; cases h4
  by_cases hd : g' = ['D', '_', '3', 'd']
  · subst hd
    exact main [threefoldZ, twofoldY, inversion]
      ⟨[.C3z, .C2y, .inv], dipole_D_3d, cert_dipole_D_3d_turned, rfl, rfl, check_dipole_D_3d_turned⟩
      (checked_turned _ (by simp [turnedGroups]))
  · exact main gens (checked_dipole _ hmem) (checked_quadrupole _ hmem hS2 hg hd hg')

/-- It applies for example to `T_d`. -/
example (S : Sympy) : ∃ t3 t4, Dict.get (dipole S) ['T', '_', 'd'] = .ok t3 ∧
    Dict.get (quadrupole S) ['T', '_', 'd'] = .ok t4 ∧ SameSetting t3 t4 :=
  ⟨_, _, rfl, rfl, C69_same_setting_partial S (g := ['T', '_', 'd']) rfl rfl (by decide) (by decide)⟩

/-- For `C_3v` the two tables are for different orientations: no set of orthogonal maps has both as its invariants. -/
theorem C69_C_3v_broken (S : Sympy) : ∃ t3 t4, Dict.get (dipole S) ['C', '_', '3', 'v'] = .ok t3 ∧
    Dict.get (quadrupole S) ['C', '_', '3', 'v'] = .ok t4 ∧ ¬SameSetting t3 t4 := by
  refine ⟨_, _, rfl, rfl, ?_⟩
  rintro ⟨G, -, ⟨-, h3⟩, ⟨-, h4⟩⟩
  have hr : checkRange 3 dipole_C_3v = true := by decide +kernel
  have hz : InvariantUnder G (valueOf 3 (tensorArray S [] 3 dipole_C_3v) (intParams [] (fun n => if n = 26 then 1 else 0))) :=
    (h3 _).2 ⟨_, rfl⟩
  have hT : InvariantUnder G (valueOf 3 (tensorArray S [] 3 dipole_C_3v) (intParams [] (fun n => if n = 3 then 1 else 0))) :=
    (h3 _).2 ⟨_, rfl⟩
  have hzv : ∀ a b c : Fin 3, valueOf 3 (tensorArray S [] 3 dipole_C_3v) (intParams [] (fun n => if n = 26 then 1 else 0))
      ![a, b, c] = if a = 2 ∧ b = 2 ∧ c = 2 then 1 else 0 := by
    intro a b c
    rw [valueOf_intParams S [] 3 _ hr]
    have : ∀ a b c : Fin 3, intVal (fun n => if n = 26 then 1 else 0)
        (dipole_C_3v.getD (position (List.ofFn (fun k => ((![a, b, c] : Fin 3 → Fin 3) k).val))) []) =
        if a = 2 ∧ b = 2 ∧ c = 2 then 1 else 0 := by decide +kernel
    rw [this]; split <;> simp
  have hcol : ∀ A ∈ G, ∀ i, (A i 2 : ℂ) = if i = 2 then 1 else 0 := by
    intro A hA
    have h1 : ∀ i, (A i 2 : ℂ) * A 2 2 * A 2 2 = if i = 2 then 1 else 0 := by
      intro i
      have := congrFun (hz A hA) ![i, 2, 2]
      rw [act3] at this
      simp only [hzv, Fin.sum_univ_three] at this
      simpa using this
    have h22 : A 2 2 = 1 := by
      have := h1 2
      rw [if_pos rfl] at this
      have h : A 2 2 * A 2 2 * A 2 2 = 1 := by exact_mod_cast this
      nlinarith [sq_nonneg (A 2 2 - 1), sq_nonneg (A 2 2 + 1), sq_nonneg (A 2 2)]
    intro i
    have := h1 i
    rw [h22] at this
    simpa using this
  generalize hTd : valueOf 3 (tensorArray S [] 3 dipole_C_3v) (intParams [] (fun n => if n = 3 then 1 else 0)) = T at hT
  have hU : InvariantUnder G (vecTimes (fun i => if i = 2 then 1 else 0) T) := by
    intro A hA
    funext i
    rw [act_vecTimes, hT A hA]
    unfold vecTimes
    congr 1
    show _ = (if i 0 = 2 then (1 : ℂ) else 0)
    rw [← hcol A hA (i 0), Fin.sum_univ_three]
    simp
  obtain ⟨σ, hσ⟩ := (h4 _).1 hU
  have e := congrFun hσ ![2, 0, 0, 1]
  rw [valueOf_tensorArray] at e
  have : quadrupole_C_3v.getD (position (List.ofFn (fun k => ((![2, 0, 0, 1] : Fin 4 → Fin 3) k).val))) [] = [] := rfl
  rw [this] at e
  have e2 : T ![0, 0, 1] = 1 := by
    rw [← hTd, valueOf_intParams S [] 3 _ hr]
    have : intVal (fun n => if n = 3 then 1 else 0)
        (dipole_C_3v.getD (position (List.ofFn (fun k => ((![0, 0, 1] : Fin 3 → Fin 3) k).val))) []) = 1 := by decide +kernel
    rw [this]; simp
  have e3 : vecTimes (fun i => if i = 2 then 1 else 0) T ![2, 0, 0, 1] = T ![0, 0, 1] := by
    unfold vecTimes
    have : (fun k : Fin 3 => (![2, 0, 0, 1] : Fin 4 → Fin 3) k.succ) = ![0, 0, 1] := by
      funext k; fin_cases k <;> rfl
    rw [this]; simp
  rw [e3, e2] at e
  simp [elementTerms, LF.val] at e

/-- For `D_3` the two tables are for different orientations: no set of orthogonal maps has both as its invariants. -/
theorem C69_D_3_broken (S : Sympy) : ∃ t3 t4, Dict.get (dipole S) ['D', '_', '3'] = .ok t3 ∧
    Dict.get (quadrupole S) ['D', '_', '3'] = .ok t4 ∧ ¬SameSetting t3 t4 := by
  refine ⟨_, _, rfl, rfl, ?_⟩
  rintro ⟨G, hG, ⟨-, h3⟩, ⟨-, h4⟩⟩
  have hr : checkRange 3 dipole_D_3 = true := by decide +kernel
  have hE : InvariantUnder G (valueOf 3 (tensorArray S [] 3 dipole_D_3) (intParams [] (fun n => if n = 15 then 1 else 0))) :=
    (h3 _).2 ⟨_, rfl⟩
  have hT : InvariantUnder G (valueOf 3 (tensorArray S [] 3 dipole_D_3) (intParams [] (fun n => if n = 10 then 1 else 0))) :=
    (h3 _).2 ⟨_, rfl⟩
  have hR : InvariantUnder G (contract33 _ _) := fun A hA => act_contract33 A (hG A hA) _ _ (hE A hA) (hT A hA)
  obtain ⟨σ, hσ⟩ := (h4 _).1 hR
  have e := congrFun hσ ![1, 2, 0, 0]
  rw [valueOf_tensorArray] at e
  have : quadrupole_D_3.getD (position (List.ofFn (fun k => ((![1, 2, 0, 0] : Fin 4 → Fin 3) k).val))) [] = [] := rfl
  rw [this] at e
  have e1 : ∀ m : Fin 3, valueOf 3 (tensorArray S [] 3 dipole_D_3) (intParams [] (fun n => if n = 15 then 1 else 0))
      ![1, 2, m] = if m = 0 then 1 else 0 := by
    intro m
    rw [valueOf_intParams S [] 3 _ hr]
    have : ∀ m : Fin 3, intVal (fun n => if n = 15 then 1 else 0)
        (dipole_D_3.getD (position (List.ofFn (fun k => ((![1, 2, m] : Fin 3 → Fin 3) k).val))) []) =
        if m = 0 then 1 else 0 := by decide +kernel
    rw [this]; split <;> simp
  have e2 : valueOf 3 (tensorArray S [] 3 dipole_D_3) (intParams [] (fun n => if n = 10 then 1 else 0)) ![0, 0, 0] = -1 := by
    rw [valueOf_intParams S [] 3 _ hr]
    have : intVal (fun n => if n = 10 then 1 else 0)
        (dipole_D_3.getD (position (List.ofFn (fun k => ((![0, 0, 0] : Fin 3 → Fin 3) k).val))) []) = -1 := by decide +kernel
    rw [this]; simp
  have e3 : contract33 (valueOf 3 (tensorArray S [] 3 dipole_D_3) (intParams [] (fun n => if n = 15 then 1 else 0)))
      (valueOf 3 (tensorArray S [] 3 dipole_D_3) (intParams [] (fun n => if n = 10 then 1 else 0))) ![1, 2, 0, 0] = -1 := by
    show ∑ m, valueOf 3 _ _ ![1, 2, m] * valueOf 3 _ _ ![m, 0, 0] = _
    simp only [e1, Fin.sum_univ_three, e2]
    simp
  rw [e3] at e
  simp [elementTerms, LF.val] at e

end Shgpy
