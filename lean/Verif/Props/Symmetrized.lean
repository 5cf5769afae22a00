import Verif.Props.Lowered

/-!
# C105: `particularize` loses no pattern

Intensities depend on the symmetric parts of the tensors only, and `particularize` describes exactly the symmetric invariant tensors, so
formulas with the fewer parameters of `particularize` make the same patterns, and their cost functions take the same values.
-/

namespace Shgpy
open Spec PG Expr

section
variable (S : Sympy) (ex : Rewriting) (R : Repr) (C : Compiler)

/-- **C105, parameters.**  The parameters of the result of `particularize` are parameters of the tensor. -/
theorem C105_symbols {solve : Solver} (hs : SolverReduced solve) (exclude : List Sym) (permuteAll : Bool) {n : ℕ} {t u : Nd Expr}
    (hsh : IsTensor 3 (n + 2) t) (hp : particularize S solve exclude permuteAll t = .ok u) (s : Sym) (hu : OccursIn u s) :
    OccursIn t s :=
  particularize_symbols S hs hsh hp hu

theorem ofTable_rank {n : ℕ} {t : Nd Expr} {G : Set SymOp} (h : OfTable S n t G) : ∃ m, n = m + 2 := by
  cases h <;> exact ⟨_, rfl⟩

theorem symmetrized_lowered {n : ℕ} (hn : n = 3 ∨ n = 4) {t u : Option (Nd Expr)} {P : Sym → Prop} (h : Symmetrized S n t u P) :
    (∃ Q, Lowered S n t u Q ∧ ∀ s, Q s → P s) ∧ ∃ Q, Lowered S n u t Q ∧ ∀ s, Q s → P s := by
  induction h with
  | none => exact ⟨⟨_, .same (by simp), fun _ h => h⟩, _, .same (by simp), fun _ h => h⟩
  | real h1 h2 h3 =>
    exact ⟨⟨_, .real (.entry h1) (.particularized h1 h2 h3) (Set.Subset.refl _), fun _ h => .inr h⟩,
      _, .real (.particularized h1 h2 h3) (.entry h1) (Set.Subset.refl _), fun _ h => .inl h⟩
  | complex h1 h2 h3 h4 =>
    refine ⟨⟨_, .complex (.entry h1) (.complex _ _ _ _) (.particularized h1 h2 h3) (Set.Subset.refl _) (fun s s' hs hs' => ?_),
      fun _ h => .inr h⟩,
      _, .complex (.particularized h1 h2 h3) (.complex _ _ _ _) (.entry h1) (Set.Subset.refl _) h4, fun _ h => .inl h⟩
    obtain ⟨m, rfl⟩ := ofTable_rank S h1
    have hsh := (ofTable_facts h1).1
    exact h4 s s' (particularize_symbols S h2.reduced hsh h3 hs) (particularize_symbols S h2.reduced hsh h3 hs')
  | turned _ hA hP h3 h4 ih =>
    obtain ⟨⟨Q, i1, i2⟩, Q', i3, i4⟩ := ih
    exact ⟨⟨Q, .turned i1 hA (fun s hs hq => hP s hs (i2 s hq)) h3 h4, i2⟩,
      Q', .turned i3 hA (fun s hs hq => hP s hs (i4 s hq)) h4 h3, i4⟩

theorem Spec.SeparateParameters.mono {theta : Expr} {eee qee : Option (Nd Expr)} {P3 P4 Q3 Q4 : Sym → Prop}
    (h : SeparateParameters theta eee qee P3 P4) (h3 : ∀ s, Q3 s → P3 s) (h4 : ∀ s, Q4 s → P4 s) :
    SeparateParameters theta eee qee Q3 Q4 :=
  ⟨fun t s ht hs hq => h.eee t s ht hs (h4 s hq), fun t s ht hs hq => h.qee t s ht hs (h3 s hq),
    fun s hs => ⟨fun hq => (h.theta s hs).1 (h3 s hq), fun hq => (h.theta s hs).2 (h4 s hq)⟩⟩

theorem Spec.FourierPair.symm {S : Sympy} {ex : Rewriting} {R : Repr} {theta : Expr} {eee qee eee' qee' : Option (Nd Expr)}
    {c c' : FFormContainer} (h : FourierPair S ex R theta eee qee c eee' qee' c') : FourierPair S ex R theta eee' qee' c' eee qee c := by
  cases h with
  | easy h1 h2 a1 a2 a3 b1 b2 b3 => exact .easy h1 h2 b1 b2 b3 a1 a2 a3
  | hard h1 h2 => exact .hard h2 h1

/-- **C105, patterns.**  The formulas of `formgen` for tensors that were made symmetric by `particularize` make exactly the patterns
that are made by the formulas for the tensors of the tables, at all azimuths and in all combinations of polarizations. -/
theorem C105_patterns {theta : Expr} {eee qee eee' qee' : Option (Nd Expr)} {P3 P4 : Sym → Prop} (h3 : Symmetrized S 3 eee eee' P3)
    (h4 : Symmetrized S 4 qee qee' P4) (hs : SeparateParameters theta eee qee P3 P4) (hs' : SeparateParameters theta eee' qee' P3 P4)
    (hv : ValidTensors eee none qee) (hv' : ValidTensors eee' none qee') (hphi : ¬ OccursInSome eee none qee phi)
    (hphi' : ¬ OccursInSome eee' none qee' phi) (hth : phi ∉ theta.free) :
    ∃ c c', formgen S ex theta eee none qee = .ok c ∧ formgen S ex theta eee' none qee' = .ok c' ∧
      (∀ (r : Sym → ℝ) (θ : ℝ), theta.eval (realVal r) = (θ : ℂ) → ∃ r' : Sym → ℝ, (∀ s, ¬ P3 s → ¬ P4 s → r' s = r s) ∧
        ∀ φ p q, Related c c' (withPhi r φ) (withPhi r' φ) p q p q (· = ·)) ∧
      ∀ (r' : Sym → ℝ) (θ : ℝ), theta.eval (realVal r') = (θ : ℂ) → ∃ r : Sym → ℝ, (∀ s, ¬ P3 s → ¬ P4 s → r s = r' s) ∧
        ∀ φ p q, Related c c' (withPhi r φ) (withPhi r' φ) p q p q (· = ·) := by
  obtain ⟨⟨Q3, a1, a2⟩, Q3', b1, b2⟩ := symmetrized_lowered S (.inl rfl) h3
  obtain ⟨⟨Q4, a3, a4⟩, Q4', b3, b4⟩ := symmetrized_lowered S (.inr rfl) h4
  obtain ⟨c, c', e1, e2, e3⟩ := C104_patterns S ex a1 a3 (hs'.mono a2 a4) hv hv' hphi hphi' hth
  obtain ⟨d', d, f1, f2, f3⟩ := C104_patterns S ex b1 b3 (hs.mono b2 b4) hv' hv hphi' hphi hth
  rw [e1] at f2; cases f2
  rw [e2] at f1; cases f1
  refine ⟨c, c', e1, e2, fun r θ h => ?_, fun r θ h => ?_⟩
  · obtain ⟨r', g1, g2⟩ := e3 r θ h
    exact ⟨r', fun s n3 n4 => g1 s (fun hq => n3 (a2 s hq)) (fun hq => n4 (a4 s hq)), g2⟩
  · obtain ⟨r', g1, g2⟩ := f3 r θ h
    refine ⟨r', fun s n3 n4 => g1 s (fun hq => n3 (b2 s hq)) (fun hq => n4 (b4 s hq)), fun φ p q => ?_⟩
    obtain ⟨e, e', k1, k2, k3⟩ := g2 φ p q
    exact ⟨e', e, k2, k1, k3.symm⟩

/-- **C105, fits.**  For all data, the cost function of the tensors made symmetric by `particularize` takes exactly the values that the
cost function of the tensors of the tables takes. -/
theorem C105_cost {theta : Expr} {eee qee eee' qee' : Option (Nd Expr)} {P3 P4 : Sym → Prop} {c c' : FFormContainer}
    (h3 : Symmetrized S 3 eee eee' P3) (h4 : Symmetrized S 4 qee qee' P4) (hs : SeparateParameters theta eee qee P3 P4)
    (hs' : SeparateParameters theta eee' qee' P3 P4) (hv : ValidTensors eee none qee) (hv' : ValidTensors eee' none qee')
    (hphi : ¬ OccursInSome eee none qee phi) (hphi' : ¬ OccursInSome eee' none qee' phi)
    (hc : FourierPair S ex R theta eee qee c eee' qee' c') {fdat : FDataContainer} {D : Key → ℤ → ℂ} (hM : fdat.getM = 16)
    (hD : DataIs c fdat D) {arguments arguments' : Option (List Sym)} {l l' : List Sym} (hl : ArgumentOrder S c arguments l)
    (hl' : ArgumentOrder S c' arguments' l') (d d' : Disk) (chunk chunk' : Bool) (save save' : Option Key) :
    ∃ f f' e e', genCostFunc S C d c fdat arguments chunk save = .ok (f, e) ∧
      genCostFunc S C d' c' fdat arguments' chunk' save' = .ok (f', e') ∧
      {y | ∃ x, x.length = l.length ∧ f x = y} = {y | ∃ x, x.length = l'.length ∧ f' x = y} := by
  obtain ⟨⟨Q3, a1, a2⟩, Q3', b1, b2⟩ := symmetrized_lowered S (.inl rfl) h3
  obtain ⟨⟨Q4, a3, a4⟩, Q4', b3, b4⟩ := symmetrized_lowered S (.inr rfl) h4
  obtain ⟨⟨hcr, hk, hcM⟩, ⟨hcr', hk', hcM'⟩, -⟩ := pair_components S ex R hc hv hv' hphi hphi'
  have hD' : DataIs c' fdat D := by
    intro k hkk m h1 h2
    rw [hk', ← hk] at hkk
    rw [hcM', ← hcM] at h1 h2
    exact hD k hkk m h1 h2
  obtain ⟨f, f', e, e', e1, e2, e3⟩ := C104_cost S ex R C a1 a3 (hs'.mono a2 a4) hv hv' hphi hphi' hc hM hD hl hl' d d' chunk chunk'
    save save'
  obtain ⟨g', g, _, _, f1, f2, f3⟩ := C104_cost S ex R C b1 b3 (hs.mono b2 b4) hv' hv hphi' hphi hc.symm hM hD' hl' hl d' d chunk' chunk
    save' save
  rw [e1] at f2; cases f2
  rw [e2] at f1; cases f1
  have nodup : ∀ {c : FFormContainer} {arguments : Option (List Sym)} {l : List Sym}, c.Reachable S → ArgumentOrder S c arguments l →
      l.Nodup := by
    intro c arguments l hr hl
    rcases hl with ⟨-, h⟩ | ⟨-, h⟩
    · exact h.1
    · exact (getFreeSymbols_lists hr.good h).2.1
  refine ⟨f, f', e, e', e1, e2, Set.ext fun y => ⟨?_, ?_⟩⟩
  · rintro ⟨x, hx, rfl⟩
    obtain ⟨r, rfl⟩ := exists_map_eq (nodup hcr hl) hx
    obtain ⟨r', -, h⟩ := e3 r
    exact ⟨l'.map r', by simp, h⟩
  · rintro ⟨x, hx, rfl⟩
    obtain ⟨r, rfl⟩ := exists_map_eq (nodup hcr' hl') hx
    obtain ⟨r', -, h⟩ := f3 r
    exact ⟨l.map r', by simp, h⟩

end

/-! ## A concrete case -/

/-- The hypotheses of the theorems C105 are met by `dipole['T']`, which has two parameters; `particularize` leaves one. -/
example : ∃ (t u : Nd Expr) (c c' : FFormContainer) (fdat : FDataContainer) (P3 : Sym → Prop),
    Symmetrized expandingSympy 3 (some t) (some u) P3 ∧ Symmetrized expandingSympy 4 none none (fun _ => False) ∧
    SeparateParameters (.num (1 / 2)) (some t) none P3 (fun _ => False) ∧
    SeparateParameters (.num (1 / 2)) (some u) none P3 (fun _ => False) ∧
    ValidTensors (some t) none none ∧ ValidTensors (some u) none none ∧
    ¬ OccursInSome (some t) none none phi ∧ ¬ OccursInSome (some u) none none phi ∧
    FourierPair expandingSympy expanding exRepr (.num (1 / 2)) (some t) none c (some u) none c' ∧
    fdat.getM = 16 ∧ DataIs c fdat (fun _ _ => 0) ∧ (∃ l, ArgumentOrder expandingSympy c none l) ∧
    (∃ l, ArgumentOrder expandingSympy c' none l) ∧
    ∃ σ, valueOf 3 t σ ∉ {T : Tens 3 | SymmetricTensor T} := by
  have hT : ((['T'] : Key), [twofoldZ, threefoldDiagonal]) ∈ pointGroups := by simp [pointGroups]
  have oT : OfTable expandingSympy 3 (tensorArray expandingSympy [] 3 TensorDef.dipole_T) _ := OfTable.dipole hT rfl
  have hp := particularizeT expandingSympy
  have hg := solverT_good expandingSympy
  have fT : FromTable expandingSympy 3 _ _ := .particularized oT hg hp
  have hft : Tabulated expandingSympy 1 (some (makeTensorReal expandingSympy _)) none :=
    fromTables_tabulated expandingSympy ⟨by rintro t ⟨⟩; exact ⟨_, _, .entry oT, .real⟩, by simp⟩
  have hft' : Tabulated expandingSympy 1 (some (makeTensorReal expandingSympy _)) none :=
    fromTables_tabulated expandingSympy ⟨by rintro t ⟨⟩; exact ⟨_, _, fT, .real⟩, by simp⟩
  obtain ⟨hv, hphi, _⟩ := tabulated_facts hft (by simp)
  obtain ⟨hv', hphi', _⟩ := tabulated_facts hft' (by simp)
  have hth : phi ∉ (Expr.num (1 / 2)).free := by simp [Expr.free]
  obtain ⟨form, c, f1, f2, f3, f4, f5, f6⟩ := expanding_formulas (theta := .num (1 / 2)) hv hphi hth
  obtain ⟨form', c', g1, g2, g3, g4, g5, g6⟩ := expanding_formulas (theta := .num (1 / 2)) hv' hphi' hth
  obtain ⟨fdat, d1, d2⟩ := zero_data f4 f5
  refine ⟨_, _, c, c', fdat, _, .real oT hg hp, .none, ⟨by simp, by simp, by simp [Expr.free]⟩, ⟨by simp, by simp, by simp [Expr.free]⟩, hv, hv',
    hphi, hphi', .easy hth (fun r => ⟨((1 / 2 : ℚ) : ℝ), by simp [Expr.eval]⟩) f1 f2 f3 g1 g2 g3, d1, d2, f6, g6,
    fun s => if s.name = ['z', 'y', 'x'] then 1 else 0, fun hsym => ?_⟩
  have h1 := hsym ![0, 1, 2] ![0, 2, 1] [0] 1 2 (by simp [List.ofFn_succ]) (by simp [List.ofFn_succ])
  have hpl : PlainSymbols (tensorArray expandingSympy [] 3 TensorDef.dipole_T) := fun s hs _ => ((ofTable_facts oT).2.2 s hs).1
  have hin : ∀ i : Fin 3 → Fin 3, Nd.InRange (tensorArray expandingSympy [] 3 TensorDef.dipole_T).shape (List.ofFn fun k => (i k).val) :=
    fun i => inRange_index i
  unfold valueOf at h1
  rw [(C43_real expandingSympy _ hpl).2.1 _ (hin _), (C43_real expandingSympy _ hpl).2.1 _ (hin _)] at h1
  have e1 := elements_T expandingSympy 0 1 2
  have e2 := elements_T expandingSympy 0 2 1
  simp only [Fin.val_zero, Fin.val_one, Fin.val_two] at e1 e2
  simp [List.ofFn_succ, e1, e2, elementT, Expr.eval, realified, realSym, Sym.isReal] at h1

end Shgpy
