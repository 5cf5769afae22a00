import Verif.Spec.Simulated
import Verif.Props.Convert
import Verif.Props.FormConvert
import Verif.Props.FFormFitCases

/-!
# Fits of simulated data: C83
-/

set_option linter.unusedSectionVars false
set_option linter.unusedSimpArgs false
set_option linter.unusedVariables false

namespace Shgpy
open Spec

section
variable (S : Sympy) (C : Compiler) {fform : FFormContainer} {F : Key → ℤ → Valuation → ℂ} {subs : Dict Sym Expr} {r : Sym → ℝ}

theorem fformToFdat_eq_iff (hc : fform.Reachable S) (hn : Symbolic fform) (hM : fform.getM = 16) (hF : FormulaIs fform F)
    (hv : Values fform subs r) {subs' : Dict Sym Expr} {r' : Sym → ℝ} (hv' : Values fform subs' r') :
    fformToFdat S fform subs' = fformToFdat S fform subs ↔
      ∀ k ∈ fform.getKeys, ∀ m : ℤ, -(fform.getM : ℤ) ≤ m → m ≤ fform.getM → F k m (realVal r') = F k m (realVal r) := by
  obtain ⟨d, h1, _, _, _, h2⟩ := C29_values S hc hn hM hv.numeric hv.covers
  obtain ⟨d', h1', _, _, _, h2'⟩ := C29_values S hc hn hM hv'.numeric hv'.covers
  constructor
  · intro h k hk m hm1 hm2
    rw [h1, h1'] at h
    cases h
    obtain ⟨v, e1, e2⟩ := h2 _ hv.agrees k m _ (hF k hk m hm1 hm2)
    obtain ⟨v', e1', e2'⟩ := h2' _ hv'.agrees k m _ (hF k hk m hm1 hm2)
    rw [e1] at e1'; cases e1'
    exact Option.some.inj (e2'.2.symm.trans e2.2)
  · intro h
    have hg := hc.good
    have hn' := (FFormContainer.symbolic_iff hg).1 hn
    rw [fformToFdat_ok S hg hn' (Or.inl hM) hv.numeric hv.covers hv.agrees,
      fformToFdat_ok S hg hn' (Or.inl hM) hv'.numeric hv'.covers hv'.agrees]
    congr 2
    unfold Dict.mapVals
    refine List.map_congr_left (fun it hit => ?_)
    congr 1
    refine List.map_congr_left (fun o ho => ?_)
    obtain ⟨k, a⟩ := it
    obtain ⟨i, hi⟩ := List.mem_iff_getElem?.1 ho
    have hk : fform.getPc k = .ok a := get_of_mem hg.wf hit
    have hlen := hg.len _ hit
    have hil : i < a.objs.length := (List.getElem?_eq_some_iff.1 hi).1
    have hol : a.objs.length = 2 * fform.getM + 1 := hlen
    obtain ⟨a', o', ha', ⟨_, ho'⟩, hval⟩ := hF k (Dict.mem_keys_of_mem hit) ((i : ℤ) - fform.getM) (by omega) (by omega)
    rw [hk] at ha'; cases ha'
    have hidx : ((i : ℤ) - fform.getM + fform.getM).toNat = i := by omega
    rw [hidx, hi] at ho'
    cases ho'
    rw [hval, hval]
    exact h k (Dict.mem_keys_of_mem hit) _ (by omega) (by omega)

/-- C83.  If Fourier data are simulated with `fform_to_fdat(fform, subs)`, the cost function for these data is zero at the
parameters of the simulation, nowhere negative, and zero exactly at the parameters whose simulation gives the same data. -/
theorem C83_simulated (d : Disk) (hc : fform.Reachable S) (hn : Symbolic fform) (hM : fform.getM = 16) (hF : FormulaIs fform F)
    (hv : Values fform subs r)
    (hq : ∀ k ∈ fform.getKeys, ∀ m : ℤ, -(fform.getM : ℤ) ≤ m → m ≤ fform.getM → MachineNumber (F k m (realVal r)))
    {arguments : Option (List Sym)} {l : List Sym} (hl : ArgumentOrder S fform arguments l)
    (chunk : Bool) (hne : chunk = true → fform.getKeys ≠ []) (save : Option Key) :
    ∃ fdat f d', fformToFdat S fform subs = .ok fdat ∧
      genCostFunc S C d fform fdat arguments chunk save = .ok (f, d') ∧
      f (l.map r) = 0 ∧
      ∀ r', 0 ≤ f (l.map r') ∧
        ∀ subs', Values fform subs' r' → (f (l.map r') = 0 ↔ fformToFdat S fform subs' = .ok fdat) := by
  obtain ⟨fdat, h1, _, _, h3, h2⟩ := C29_values S hc hn hM hv.numeric hv.covers
  have hD : DataIs fform fdat (fun k m => F k m (realVal r)) := by
    intro k hk m hm1 hm2
    refine ⟨?_, hq k hk m hm1 hm2⟩
    obtain ⟨v, e1, e2⟩ := h2 _ hv.agrees k m _ (hF k hk m hm1 hm2)
    exact ⟨v, e1, by rw [h3]; exact e2⟩
  obtain ⟨f, d', g1, g2⟩ := C57_cost S C d hc hl (by rw [h3, hM]) hF hD chunk hne save
  refine ⟨fdat, f, d', h1, g1, ?_, fun r' => ⟨?_, fun subs' hv' => ?_⟩⟩
  · rw [g2, (C57_zero_iff _ _ _ _ r).2]
    exact fun _ _ _ _ _ => rfl
  · rw [g2]; exact (C57_zero_iff _ _ _ _ r').1
  · rw [g2, (C57_zero_iff _ _ _ _ r').2, ← h1, fformToFdat_eq_iff S hc hn hM hF hv hv']

/-- C83, with sampling.  The same holds if the data are simulated as a function of the angle with `fform_to_dat(fform, subs, N)`,
with `N` at least 33, and transformed with `dat_to_fdat(dat, M=16)`, as measured data are. -/
theorem C83_sampled (d : Disk) (hc : fform.Reachable S) (hn : Symbolic fform) (hM : fform.getM = 16) (hF : FormulaIs fform F)
    (hv : Values fform subs r)
    (hq : ∀ k ∈ fform.getKeys, ∀ m : ℤ, -(fform.getM : ℤ) ≤ m → m ≤ fform.getM → MachineNumber (F k m (realVal r)))
    (hreal : ∀ k ∈ fform.getKeys, ∀ m : ℤ, -(fform.getM : ℤ) ≤ m → m ≤ fform.getM →
      F k (-m) (realVal r) = (starRingEnd ℂ) (F k m (realVal r)))
    {N : ℕ} (hN : 33 ≤ N) {interp : Interp}
    (hi : ∀ dat w, fformToDat S fform subs N = .ok (dat, w) → ∀ k pts, dat.getPc k sRadians = .ok pts → Reproduces interp pts)
    {arguments : Option (List Sym)} {l : List Sym} (hl : ArgumentOrder S fform arguments l)
    (chunk : Bool) (hne : chunk = true → fform.getKeys ≠ []) (save : Option Key) :
    ∃ dat fdat f d', fformToDat S fform subs N = .ok (dat, []) ∧ datToFdat interp dat 16 = .ok fdat ∧
      genCostFunc S C d fform fdat arguments chunk save = .ok (f, d') ∧
      f (l.map r) = 0 ∧
      ∀ r', 0 ≤ f (l.map r') ∧
        ∀ subs', Values fform subs' r' → (f (l.map r') = 0 ↔ fformToFdat S fform subs' = fformToFdat S fform subs) := by
  obtain ⟨c, h1, hcr, hck, h3, h2⟩ := C29_values S hc hn hM hv.numeric hv.covers
  obtain ⟨dat, k1, k2, k3⟩ := C20_inverse_sampling hcr (N := N) (by omega)
  have hfd : fformToDat S fform subs N = .ok (dat, []) := by
    unfold fformToDat
    rw [h1]
    exact k1
  have hi' : ∀ k v, c.getPc k = .ok v → Reproduces interp (sampled N (fun x => (series v c.getM x).re)) :=
    fun k v hkv => hi dat [] hfd k _ (k3 k v hkv)
  have hre : ∀ k v m z z', c.getPc k = .ok v → Component v c.getM m z → Component v c.getM (-m) z' →
      z' = (starRingEnd ℂ) z := by
    intro k v m z z' hkv hz hz'
    have hk : k ∈ fform.getKeys := by rw [← hck]; exact Dict.mem_keys_of_mem (Dict.mem_of_get? (Dict.get_ok_iff.1 hkv))
    rw [h3] at hz hz'
    have hm := hz.1
    have hM' : (fform.getM : ℤ) = (16 : ℕ) := by rw [hM]
    obtain ⟨v1, e1, e2⟩ := h2 _ hv.agrees k m _ (hF k hk m (by omega) (by omega))
    obtain ⟨v2, e3, e4⟩ := h2 _ hv.agrees k (-m) _ (hF k hk (-m) (by omega) (by omega))
    rw [hkv] at e1 e3; cases e1; cases e3
    have q1 := Option.some.inj (hz.2.symm.trans e2.2)
    have q2 := Option.some.inj (hz'.2.symm.trans e4.2)
    rw [q1, q2]
    exact hreal k hk m (by omega) (by omega)
  obtain ⟨dat', fdat, a1, a2, a3, a4⟩ := C21_real_round_trip hcr (N := N) (by omega) (by rw [h3]; omega) hi' hre
  obtain ⟨dat'', fdat', b1, b2, _, b3, _⟩ := C21_aliasing hcr (N := N) (by omega) hi' c.getM
  rw [a1] at k1 b1; cases k1; cases b1
  rw [a2] at b2; cases b2
  have hD : DataIs fform fdat (fun k m => F k m (realVal r)) := by
    intro k hk m hm1 hm2
    refine ⟨?_, hq k hk m hm1 hm2⟩
    obtain ⟨v, e1, e2⟩ := h2 _ hv.agrees k m _ (hF k hk m hm1 hm2)
    exact ⟨v, by rw [a4, e1], by rw [b3, h3]; exact e2⟩
  obtain ⟨f, d', g1, g2⟩ := C57_cost S C d hc hl (by rw [b3, h3, hM]) hF hD chunk hne save
  refine ⟨dat, fdat, f, d', hfd, by rw [h3] at a2; exact a2, g1, ?_, fun r' => ⟨?_, fun subs' hv' => ?_⟩⟩
  · rw [g2, (C57_zero_iff _ _ _ _ r).2]
    exact fun _ _ _ _ _ => rfl
  · rw [g2]; exact (C57_zero_iff _ _ _ _ r').1
  · rw [g2, (C57_zero_iff _ _ _ _ r').2, fformToFdat_eq_iff S hc hn hM hF hv hv']

end

/-! ## A concrete case -/

namespace SimCase
open FitCases

/-- A Fourier formula for 33 frequencies: `b` at the frequencies `±16`, `a` at the frequency `0`. -/
def wide : FFormContainer :=
  ⟨[(kPP, .obj (.sym symB :: (List.replicate 15 (.num 0) ++ .sym symA :: (List.replicate 15 (.num 0) ++ [.sym symB]))))], 16⟩

/-- Its components. -/
noncomputable def wideF : Key → ℤ → Valuation → ℂ := fun _ m σ => if m = 0 then σ symA else if m = 16 ∨ m = -16 then σ symB else 0

/-- The parameters of the simulation. -/
noncomputable def truth : Sym → ℝ := fun s => if s = symA then 3 else if s = symB then 1 / 2 else 0

/-- The same as a dictionary. -/
def truthDict : Dict Sym Expr := [(symA, .num 3), (symB, .num (1 / 2))]

theorem wide_reachable : wide.Reachable Sympy.plain :=
  ⟨[(.str kPP, .objArr (.sy (.sym symB) :: (List.replicate 15 (.native 0 0) ++ .sy (.sym symA) ::
    (List.replicate 15 (.native 0 0) ++ [.sy (.sym symB)]))))], 16, _, [], rfl, rfl⟩

theorem wide_symbolic : Symbolic wide := by
  rw [FFormContainer.symbolic_iff wide_reachable.good]
  intro it hit
  simp only [wide, List.mem_singleton] at hit
  subst hit; rfl

theorem wide_key {k : Key} (hk : k ∈ wide.getKeys) : k = kPP := by
  simpa [wide, FFormContainer.getKeys, Dict.keys] using hk

theorem wideIs : FormulaIs wide wideF := by
  intro k hk m h1 h2
  cases wide_key hk
  have h1' : -16 ≤ m := h1
  have h2' : m ≤ 16 := h2
  refine ⟨_, .sy (if m = 0 then .sym symA else if m = 16 ∨ m = -16 then .sym symB else .num 0), rfl, ⟨⟨h1, h2⟩, ?_⟩, fun σ => ?_⟩
  · have : ∀ i : Fin 33, (FArr.objs (.obj (.sym symB :: (List.replicate 15 (.num 0) ++ .sym symA ::
        (List.replicate 15 (.num 0) ++ [.sym symB])))))[i.val]? =
        some (.sy (if i.val = 16 then .sym symA else if i.val = 32 ∨ i.val = 0 then .sym symB else .num 0)) := by
      intro i
      fin_cases i <;> rfl
    have h3 := this ⟨(m + 16).toNat, by omega⟩
    have e1 : (m + 16).toNat = 16 ↔ m = 0 := by omega
    have e2 : ((m + 16).toNat = 32 ∨ (m + 16).toNat = 0) ↔ (m = 16 ∨ m = -16) := by omega
    simp only [e1, e2] at h3
    exact h3
  · simp only [objValue, wideF]
    split_ifs <;> simp [Expr.eval]

theorem wide_occurs {s : Sym} (h : FOccurs wide s) : s = symA ∨ s = symB := by
  obtain ⟨k, v, e, h1, h2, h3⟩ := FFormContainer.occurs_mem wide_reachable.good
    ((FFormContainer.symbolic_iff wide_reachable.good).1 wide_symbolic) h
  simp only [wide, List.mem_singleton, Prod.mk.injEq, FArr.obj.injEq] at h1
  obtain ⟨_, rfl⟩ := h1
  simp only [List.mem_cons, List.mem_append, List.mem_replicate, List.not_mem_nil, or_false] at h2
  rcases h2 with rfl | ⟨_, rfl⟩ | rfl | ⟨_, rfl⟩ | rfl <;> simp [Expr.free] at h3 <;> simp [h3]

theorem truth_values : Values wide truthDict truth := by
  refine ⟨?_, ?_, ?_⟩
  · intro p hp
    simp only [truthDict, List.mem_cons, List.not_mem_nil, or_false] at hp
    rcases hp with rfl | rfl <;> rfl
  · intro s hs
    rcases wide_occurs hs with rfl | rfl <;> decide
  · intro s v h
    have := Dict.mem_of_get? (Dict.get_ok_iff.1 h)
    simp only [truthDict, List.mem_cons, List.not_mem_nil, or_false, Prod.mk.injEq] at this
    rcases this with ⟨rfl, rfl⟩ | ⟨rfl, rfl⟩
    · simp [realVal, truth, Expr.eval]
    · have : symB ≠ symA := by decide
      simp [realVal, truth, Expr.eval, this]

theorem wide_order : ArgumentOrder Sympy.plain wide (some [symB, symA]) [symB, symA] := by
  refine .inl ⟨rfl, by decide, fun s hs => ?_⟩
  rcases wide_occurs hs with rfl | rfl <;> simp

theorem wide_numbers (k : Key) (m : ℤ) : wideF k m (realVal truth) = ((if m = 0 then 3 else if m = 16 ∨ m = -16 then 1 / 2 else 0 : ℚ) : ℂ) := by
  have : symB ≠ symA := by decide
  unfold wideF
  split_ifs <;> simp [realVal, truth, this]

theorem wide_machine (k : Key) (m : ℤ) : MachineNumber (wideF k m (realVal truth)) := by
  rw [wide_numbers]
  exact ⟨if m = 0 then 3 else if m = 16 ∨ m = -16 then 1 / 2 else 0, 0, by push_cast; simp⟩

/-- The hypotheses of `C83_simulated` are met; the fit has only one solution. -/
example (d : Disk) : ∃ fdat f d', fformToFdat Sympy.plain wide truthDict = .ok fdat ∧
    genCostFunc Sympy.plain compiler d wide fdat (some [symB, symA]) false none = .ok (f, d') ∧ f [1 / 2, 3] = 0 := by
  obtain ⟨fdat, f, d', h1, h2, h3, _⟩ := C83_simulated Sympy.plain compiler d wide_reachable wide_symbolic rfl wideIs truth_values
    (fun k _ m _ _ => wide_machine k m) wide_order false (by simp) none
  refine ⟨fdat, f, d', h1, h2, ?_⟩
  have : symB ≠ symA := by decide
  simpa [truth, this] using h3

/-- The hypotheses of `C83_sampled` are met. -/
example (d : Disk) : ∃ dat fdat f d', fformToDat Sympy.plain wide truthDict 40 = .ok (dat, []) ∧
    datToFdat lookupInterp dat 16 = .ok fdat ∧
    genCostFunc Sympy.plain compiler d wide fdat (some [symB, symA]) false none = .ok (f, d') ∧ f [1 / 2, 3] = 0 := by
  obtain ⟨dat, fdat, f, d', h1, h2, h3, h4, _⟩ := C83_sampled Sympy.plain compiler d wide_reachable wide_symbolic rfl wideIs
    truth_values (fun k _ m _ _ => wide_machine k m) (fun k _ m _ _ => by
      rw [wide_numbers, wide_numbers, map_ratCast]
      congr 1
      have e1 : -m = 0 ↔ m = 0 := by omega
      have e2 : (-m = 16 ∨ -m = -16) ↔ (m = 16 ∨ m = -16) := by omega
      simp only [e1, e2]) (N := 40) (by norm_num) (interp := lookupInterp) (fun dat w h k pts hk => by
        obtain ⟨c, g1, g2, g3, g4, _⟩ := C29_values Sympy.plain wide_reachable wide_symbolic rfl truth_values.numeric truth_values.covers
        obtain ⟨dat', k1, k2, k3⟩ := C20_inverse_sampling g2 (N := 40) (by norm_num)
        unfold fformToDat at h
        rw [g1] at h
        have h' : fdatToDat c 40 = .ok (dat, w) := h
        rw [k1] at h'
        cases h'
        have hkk : k ∈ c.getKeys := by
          rw [← k2]
          exact Dict.mem_keys_of_mem (Dict.mem_of_get? (Dict.get_ok_iff.1 (by rw [getPc_radians] at hk; exact hk)))
        obtain ⟨v, hv⟩ := Dict.mem_keys.1 hkk
        rw [k3 k v (get_of_mem g2.good.wf hv)] at hk
        cases hk
        exact lookupInterp_reproduces (sampled_nodup (by norm_num) _)) wide_order false (by simp) none
  refine ⟨dat, fdat, f, d', h1, h2, h3, ?_⟩
  have : symB ≠ symA := by decide
  simpa [truth, this] using h4

end SimCase

end Shgpy
