import Verif.Proofs.TableCert
import Verif.Proofs.Dict
import Mathlib.LinearAlgebra.Matrix.Kronecker

/-!
# From the certificates to the tables (partly generated)
-/

namespace Shgpy
open Spec.PG

set_option linter.unusedSectionVars false
set_option linter.unusedSimpArgs false

namespace TensorDef

/-- A table with a certificate. -/
def Checked (r : ℕ) (tab : Dict Key (List (List ℤ))) (kv : Key × List SymOp) : Prop :=
  ∃ gens flat certs, kv.2 = gens.map Gen.op ∧ Dict.get tab kv.1 = .ok flat ∧ checkTable r gens flat certs = true

theorem checked_dipole : ∀ kv ∈ pointGroups, Checked 3 dipoleTable kv := by
  unfold pointGroups
  simp only [List.forall_mem_cons]
  refine ⟨⟨[.inv], dipole_S_2, cert_dipole_S_2, rfl, rfl, check_dipole_S_2⟩,
    ⟨[.C2y, .inv], dipole_C_2h, cert_dipole_C_2h, rfl, rfl, check_dipole_C_2h⟩,
    ⟨[.C2x, .C2y, .inv], dipole_D_2h, cert_dipole_D_2h, rfl, rfl, check_dipole_D_2h⟩,
    ⟨[.C4z, .inv], dipole_C_4h, cert_dipole_C_4h, rfl, rfl, check_dipole_C_4h⟩,
    ⟨[.C4z, .C2x, .inv], dipole_D_4h, cert_dipole_D_4h, rfl, rfl, check_dipole_D_4h⟩,
    ⟨[.C2z, .C3d, .inv], dipole_T_h, cert_dipole_T_h, rfl, rfl, check_dipole_T_h⟩,
    ⟨[.C4z, .C3d, .inv], dipole_O_h, cert_dipole_O_h, rfl, rfl, check_dipole_O_h⟩,
    ⟨[.C3z, .inv], dipole_S_6, cert_dipole_S_6, rfl, rfl, check_dipole_S_6⟩,
    ⟨[.C3z, .C2x, .inv], dipole_D_3d, cert_dipole_D_3d, rfl, rfl, check_dipole_D_3d⟩,
    ⟨[.C6z, .inv], dipole_C_6h, cert_dipole_C_6h, rfl, rfl, check_dipole_C_6h⟩,
    ⟨[.C6z, .C2x, .inv], dipole_D_6h, cert_dipole_D_6h, rfl, rfl, check_dipole_D_6h⟩,
    ⟨[.C2y], dipole_C_2, cert_dipole_C_2, rfl, rfl, check_dipole_C_2⟩,
    ⟨[.my], dipole_C_1h, cert_dipole_C_1h, rfl, rfl, check_dipole_C_1h⟩,
    ⟨[.C2x, .C2y], dipole_D_2, cert_dipole_D_2, rfl, rfl, check_dipole_D_2⟩,
    ⟨[.mx, .my], dipole_C_2v, cert_dipole_C_2v, rfl, rfl, check_dipole_C_2v⟩,
    ⟨[.C4z], dipole_C_4, cert_dipole_C_4, rfl, rfl, check_dipole_C_4⟩,
    ⟨[.S4z], dipole_S_4, cert_dipole_S_4, rfl, rfl, check_dipole_S_4⟩,
    ⟨[.C4z, .C2x], dipole_D_4, cert_dipole_D_4, rfl, rfl, check_dipole_D_4⟩,
    ⟨[.C4z, .mx], dipole_C_4v, cert_dipole_C_4v, rfl, rfl, check_dipole_C_4v⟩,
    ⟨[.S4z, .C2x], dipole_D_2d, cert_dipole_D_2d, rfl, rfl, check_dipole_D_2d⟩,
    ⟨[.C4z, .C3d], dipole_O, cert_dipole_O, rfl, rfl, check_dipole_O⟩,
    ⟨[.S4z, .C3d], dipole_T_d, cert_dipole_T_d, rfl, rfl, check_dipole_T_d⟩,
    ⟨[.C2z, .C3d], dipole_T, cert_dipole_T, rfl, rfl, check_dipole_T⟩,
    ⟨[.C3z, .C2x], dipole_D_3, cert_dipole_D_3, rfl, rfl, check_dipole_D_3⟩,
    ⟨[.C3z], dipole_C_3, cert_dipole_C_3, rfl, rfl, check_dipole_C_3⟩,
    ⟨[.C3z, .mx], dipole_C_3v, cert_dipole_C_3v, rfl, rfl, check_dipole_C_3v⟩,
    ⟨[.C6z], dipole_C_6, cert_dipole_C_6, rfl, rfl, check_dipole_C_6⟩,
    ⟨[.C3z, .mz], dipole_C_3h, cert_dipole_C_3h, rfl, rfl, check_dipole_C_3h⟩,
    ⟨[.C6z, .mx], dipole_C_6v, cert_dipole_C_6v, rfl, rfl, check_dipole_C_6v⟩,
    ⟨[.C6z, .C2x], dipole_D_6, cert_dipole_D_6, rfl, rfl, check_dipole_D_6⟩,
    ⟨[.C3z, .mz, .mx], dipole_D_3h, cert_dipole_D_3h, rfl, rfl, check_dipole_D_3h⟩,
    ⟨[], dipole_C_1, cert_dipole_C_1, rfl, rfl, check_dipole_C_1⟩, by simp⟩

theorem checked_surface : ∀ kv ∈ pointGroups, Checked 3 surfaceTable kv := by
  unfold pointGroups
  simp only [List.forall_mem_cons]
  refine ⟨⟨[.inv], surface_S_2, cert_dipole_S_2, rfl, rfl, check_dipole_S_2⟩,
    ⟨[.C2y, .inv], surface_C_2h, cert_dipole_C_2h, rfl, rfl, check_dipole_C_2h⟩,
    ⟨[.C2x, .C2y, .inv], surface_D_2h, cert_dipole_D_2h, rfl, rfl, check_dipole_D_2h⟩,
    ⟨[.C4z, .inv], surface_C_4h, cert_dipole_C_4h, rfl, rfl, check_dipole_C_4h⟩,
    ⟨[.C4z, .C2x, .inv], surface_D_4h, cert_dipole_D_4h, rfl, rfl, check_dipole_D_4h⟩,
    ⟨[.C2z, .C3d, .inv], surface_T_h, cert_dipole_T_h, rfl, rfl, check_dipole_T_h⟩,
    ⟨[.C4z, .C3d, .inv], surface_O_h, cert_dipole_O_h, rfl, rfl, check_dipole_O_h⟩,
    ⟨[.C3z, .inv], surface_S_6, cert_dipole_S_6, rfl, rfl, check_dipole_S_6⟩,
    ⟨[.C3z, .C2x, .inv], surface_D_3d, cert_dipole_D_3d, rfl, rfl, check_dipole_D_3d⟩,
    ⟨[.C6z, .inv], surface_C_6h, cert_dipole_C_6h, rfl, rfl, check_dipole_C_6h⟩,
    ⟨[.C6z, .C2x, .inv], surface_D_6h, cert_dipole_D_6h, rfl, rfl, check_dipole_D_6h⟩,
    ⟨[.C2y], surface_C_2, cert_dipole_C_2, rfl, rfl, check_dipole_C_2⟩,
    ⟨[.my], surface_C_1h, cert_dipole_C_1h, rfl, rfl, check_dipole_C_1h⟩,
    ⟨[.C2x, .C2y], surface_D_2, cert_dipole_D_2, rfl, rfl, check_dipole_D_2⟩,
    ⟨[.mx, .my], surface_C_2v, cert_dipole_C_2v, rfl, rfl, check_dipole_C_2v⟩,
    ⟨[.C4z], surface_C_4, cert_dipole_C_4, rfl, rfl, check_dipole_C_4⟩,
    ⟨[.S4z], surface_S_4, cert_dipole_S_4, rfl, rfl, check_dipole_S_4⟩,
    ⟨[.C4z, .C2x], surface_D_4, cert_dipole_D_4, rfl, rfl, check_dipole_D_4⟩,
    ⟨[.C4z, .mx], surface_C_4v, cert_dipole_C_4v, rfl, rfl, check_dipole_C_4v⟩,
    ⟨[.S4z, .C2x], surface_D_2d, cert_dipole_D_2d, rfl, rfl, check_dipole_D_2d⟩,
    ⟨[.C4z, .C3d], surface_O, cert_dipole_O, rfl, rfl, check_dipole_O⟩,
    ⟨[.S4z, .C3d], surface_T_d, cert_dipole_T_d, rfl, rfl, check_dipole_T_d⟩,
    ⟨[.C2z, .C3d], surface_T, cert_dipole_T, rfl, rfl, check_dipole_T⟩,
    ⟨[.C3z, .C2x], surface_D_3, cert_dipole_D_3, rfl, rfl, check_dipole_D_3⟩,
    ⟨[.C3z], surface_C_3, cert_dipole_C_3, rfl, rfl, check_dipole_C_3⟩,
    ⟨[.C3z, .mx], surface_C_3v, cert_dipole_C_3v, rfl, rfl, check_dipole_C_3v⟩,
    ⟨[.C6z], surface_C_6, cert_dipole_C_6, rfl, rfl, check_dipole_C_6⟩,
    ⟨[.C3z, .mz], surface_C_3h, cert_dipole_C_3h, rfl, rfl, check_dipole_C_3h⟩,
    ⟨[.C6z, .mx], surface_C_6v, cert_dipole_C_6v, rfl, rfl, check_dipole_C_6v⟩,
    ⟨[.C6z, .C2x], surface_D_6, cert_dipole_D_6, rfl, rfl, check_dipole_D_6⟩,
    ⟨[.C3z, .mz, .mx], surface_D_3h, cert_dipole_D_3h, rfl, rfl, check_dipole_D_3h⟩,
    ⟨[], surface_C_1, cert_dipole_C_1, rfl, rfl, check_dipole_C_1⟩, by simp⟩

theorem checked_quadrupole : ∀ kv ∈ pointGroups, kv.1 ≠ ['S', '_', '2'] → kv.1 ≠ ['C', '_', '3', 'v'] →
    kv.1 ≠ ['D', '_', '3', 'd'] → kv.1 ≠ ['D', '_', '3'] → Checked 4 quadrupoleTable kv := by
  unfold pointGroups
  simp only [List.forall_mem_cons]
  refine ⟨fun h => absurd rfl h,
    fun _ _ _ _ => ⟨[.C2y, .inv], quadrupole_C_2h, cert_quadrupole_C_2h, rfl, rfl, check_quadrupole_C_2h⟩,
    fun _ _ _ _ => ⟨[.C2x, .C2y, .inv], quadrupole_D_2h, cert_quadrupole_D_2h, rfl, rfl, check_quadrupole_D_2h⟩,
    fun _ _ _ _ => ⟨[.C4z, .inv], quadrupole_C_4h, cert_quadrupole_C_4h, rfl, rfl, check_quadrupole_C_4h⟩,
    fun _ _ _ _ => ⟨[.C4z, .C2x, .inv], quadrupole_D_4h, cert_quadrupole_D_4h, rfl, rfl, check_quadrupole_D_4h⟩,
    fun _ _ _ _ => ⟨[.C2z, .C3d, .inv], quadrupole_T_h, cert_quadrupole_T_h, rfl, rfl, check_quadrupole_T_h⟩,
    fun _ _ _ _ => ⟨[.C4z, .C3d, .inv], quadrupole_O_h, cert_quadrupole_O_h, rfl, rfl, check_quadrupole_O_h⟩,
    fun _ _ _ _ => ⟨[.C3z, .inv], quadrupole_S_6, cert_quadrupole_S_6, rfl, rfl, check_quadrupole_S_6⟩,
    fun _ _ h => absurd rfl h,
    fun _ _ _ _ => ⟨[.C6z, .inv], quadrupole_C_6h, cert_quadrupole_C_6h, rfl, rfl, check_quadrupole_C_6h⟩,
    fun _ _ _ _ => ⟨[.C6z, .C2x, .inv], quadrupole_D_6h, cert_quadrupole_D_6h, rfl, rfl, check_quadrupole_D_6h⟩,
    fun _ _ _ _ => ⟨[.C2y], quadrupole_C_2, cert_quadrupole_C_2, rfl, rfl, check_quadrupole_C_2⟩,
    fun _ _ _ _ => ⟨[.my], quadrupole_C_1h, cert_quadrupole_C_1h, rfl, rfl, check_quadrupole_C_1h⟩,
    fun _ _ _ _ => ⟨[.C2x, .C2y], quadrupole_D_2, cert_quadrupole_D_2, rfl, rfl, check_quadrupole_D_2⟩,
    fun _ _ _ _ => ⟨[.mx, .my], quadrupole_C_2v, cert_quadrupole_C_2v, rfl, rfl, check_quadrupole_C_2v⟩,
    fun _ _ _ _ => ⟨[.C4z], quadrupole_C_4, cert_quadrupole_C_4, rfl, rfl, check_quadrupole_C_4⟩,
    fun _ _ _ _ => ⟨[.S4z], quadrupole_S_4, cert_quadrupole_S_4, rfl, rfl, check_quadrupole_S_4⟩,
    fun _ _ _ _ => ⟨[.C4z, .C2x], quadrupole_D_4, cert_quadrupole_D_4, rfl, rfl, check_quadrupole_D_4⟩,
    fun _ _ _ _ => ⟨[.C4z, .mx], quadrupole_C_4v, cert_quadrupole_C_4v, rfl, rfl, check_quadrupole_C_4v⟩,
    fun _ _ _ _ => ⟨[.S4z, .C2x], quadrupole_D_2d, cert_quadrupole_D_2d, rfl, rfl, check_quadrupole_D_2d⟩,
    fun _ _ _ _ => ⟨[.C4z, .C3d], quadrupole_O, cert_quadrupole_O, rfl, rfl, check_quadrupole_O⟩,
    fun _ _ _ _ => ⟨[.S4z, .C3d], quadrupole_T_d, cert_quadrupole_T_d, rfl, rfl, check_quadrupole_T_d⟩,
    fun _ _ _ _ => ⟨[.C2z, .C3d], quadrupole_T, cert_quadrupole_T, rfl, rfl, check_quadrupole_T⟩,
    fun _ _ _ h => absurd rfl h,
    fun _ _ _ _ => ⟨[.C3z], quadrupole_C_3, cert_quadrupole_C_3, rfl, rfl, check_quadrupole_C_3⟩,
    fun _ h => absurd rfl h,
    fun _ _ _ _ => ⟨[.C6z], quadrupole_C_6, cert_quadrupole_C_6, rfl, rfl, check_quadrupole_C_6⟩,
    fun _ _ _ _ => ⟨[.C3z, .mz], quadrupole_C_3h, cert_quadrupole_C_3h, rfl, rfl, check_quadrupole_C_3h⟩,
    fun _ _ _ _ => ⟨[.C6z, .mx], quadrupole_C_6v, cert_quadrupole_C_6v, rfl, rfl, check_quadrupole_C_6v⟩,
    fun _ _ _ _ => ⟨[.C6z, .C2x], quadrupole_D_6, cert_quadrupole_D_6, rfl, rfl, check_quadrupole_D_6⟩,
    fun _ _ _ _ => ⟨[.C3z, .mz, .mx], quadrupole_D_3h, cert_quadrupole_D_3h, rfl, rfl, check_quadrupole_D_3h⟩,
    fun _ _ _ _ => ⟨[], quadrupole_C_1, cert_quadrupole_C_1, rfl, rfl, check_quadrupole_C_1⟩, by simp⟩

theorem checked_turned : ∀ kv ∈ turnedGroups, Checked 4 quadrupoleTable kv := by
  unfold turnedGroups
  simp only [List.forall_mem_cons]
  refine ⟨⟨[.C3z, .my], quadrupole_C_3v, cert_quadrupole_C_3v, rfl, rfl, check_quadrupole_C_3v⟩,
    ⟨[.C3z, .C2y, .inv], quadrupole_D_3d, cert_quadrupole_D_3d, rfl, rfl, check_quadrupole_D_3d⟩,
    ⟨[.C3z, .C2y], quadrupole_D_3, cert_quadrupole_D_3, rfl, rfl, check_quadrupole_D_3⟩, by simp⟩

/-- For `dipole['D_3d']` with the secondary axes along y. -/
def cert_dipole_D_3d_turned : List Cert :=
  [(16, [(1, 0, 1, 0)]),
   (16, [(2, 1, 1, 0)]),
   (16, [(1, 2, 1, 0)]),
   (16, [(2, 3, 1, 0)]),
   (16, [(1, 4, 1, 0)]),
   (16, [(2, 5, 1, 0)]),
   (16, [(1, 6, 1, 0)]),
   (16, [(2, 7, 1, 0)]),
   (16, [(1, 8, 1, 0)]),
   (16, [(2, 9, 1, 0)]),
   (16, [(1, 10, 1, 0)]),
   (16, [(2, 11, 1, 0)]),
   (16, [(1, 12, 1, 0)]),
   (16, [(2, 13, 1, 0)]),
   (16, [(1, 14, 1, 0)]),
   (16, [(2, 15, 1, 0)]),
   (16, [(1, 16, 1, 0)]),
   (16, [(2, 17, 1, 0)]),
   (16, [(1, 18, 1, 0)]),
   (16, [(2, 19, 1, 0)]),
   (16, [(1, 20, 1, 0)]),
   (16, [(2, 21, 1, 0)]),
   (16, [(1, 22, 1, 0)]),
   (16, [(2, 23, 1, 0)]),
   (16, [(1, 24, 1, 0)]),
   (16, [(2, 25, 1, 0)]),
   (16, [(1, 26, 1, 0)])]

theorem check_dipole_D_3d_turned : checkTable 3 [.C3z, .C2y, .inv] dipole_D_3d cert_dipole_D_3d_turned = true := by
  decide +kernel


/-! ## Meaning -/

theorem act_mul {r : ℕ} (A B : SymOp) (T : Tens r) : act A (act B T) = act (A * B) T := by
  funext i
  unfold act
  simp only [Finset.mul_sum]
  rw [Finset.sum_comm]
  refine Finset.sum_congr rfl (fun j _ => ?_)
  have h : (∏ k, (((A * B) (i k) (j k) : ℝ) : ℂ)) = ∑ m : Fin r → Fin 3, ∏ k, ((A (i k) (m k) : ℂ) * (B (m k) (j k) : ℂ)) := by
    simp only [Matrix.mul_apply, Complex.ofReal_sum, Complex.ofReal_mul]
    rw [Finset.prod_univ_sum, Fintype.piFinset_univ]
  rw [h, Finset.sum_mul]
  refine Finset.sum_congr rfl (fun m _ => ?_)
  rw [Finset.prod_mul_distrib]; ring

theorem act_one {r : ℕ} (T : Tens r) : act 1 T = T := by
  funext i
  unfold act
  rw [Finset.sum_eq_single i]
  · simp
  · intro j _ hj
    obtain ⟨k, hk⟩ := Function.ne_iff.1 hj
    have : ((1 : SymOp) (i k) (j k) : ℂ) = 0 := by rw [Matrix.one_apply_ne (Ne.symm hk)]; simp
    rw [Finset.prod_eq_zero (Finset.mem_univ k) this, zero_mul]
  · intro h; exact absurd (Finset.mem_univ i) h

theorem invariant_generated {r : ℕ} {gens : List SymOp} {T : Tens r} :
    InvariantUnder (generated gens) T ↔ ∀ A ∈ gens, act A T = T := by
  constructor
  · intro h A hA
    exact h A (Submonoid.subset_closure hA)
  · intro h A hA
    refine Submonoid.closure_induction (motive := fun A _ => act A T = T) (fun A hA => h A hA) (act_one T)
      (fun A B _ _ hA hB => ?_) hA
    rw [← act_mul, hB, hA]

theorem checked_spec {r : ℕ} {tab : Dict Key (List (List ℤ))} {kv : Key × List SymOp} (h : Checked r tab kv) (S : Sympy)
    (pre : Key) :
    ∃ t, Dict.get (Dict.mapVals (tensorArray S pre r) tab) kv.1 = .ok t ∧ t.shape = List.replicate r 3 ∧
      ∀ T : Tens r, InvariantUnder (generated kv.2) T ↔ ∃ σ, T = valueOf r t σ := by
  obtain ⟨gens, flat, certs, hg, hf, hc⟩ := h
  refine ⟨tensorArray S pre r flat, ?_, rfl, fun T => ?_⟩
  · have := Dict.get?_mapVals (tensorArray S pre r) tab kv.1
    unfold Dict.get at hf ⊢
    rw [this]
    cases h0 : Dict.get? tab kv.1 with
    | none => rw [h0] at hf; cases hf
    | some v => rw [h0] at hf; cases hf; rfl
  · rw [invariant_generated, hg]
    have hs := checkTable_spec hc S pre
    constructor
    · intro h
      exact ⟨_, (hs T).2 (fun g hgm => h _ (List.mem_map_of_mem hgm))⟩
    · rintro ⟨σ, rfl⟩ A hA
      obtain ⟨g, hgm, rfl⟩ := List.mem_map.1 hA
      exact (hs (fun _ => 0)).1 σ g hgm

end TensorDef
end Shgpy
