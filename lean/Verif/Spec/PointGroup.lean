import Verif.Py.Nd
import Verif.Py.Expr
import Mathlib.Analysis.SpecialFunctions.Trigonometric.Basic
import Mathlib.Data.Matrix.Basic
import Mathlib.LinearAlgebra.Matrix.Notation
import Mathlib.LinearAlgebra.Matrix.Determinant.Basic
import Mathlib.Algebra.Group.Submonoid.Basic

/-!
# Specification vocabulary for the tables of tensors: symmetry operations, point groups, invariant tensors
-/

namespace Shgpy.Spec.PG

/-- A linear map of space. -/
abbrev SymOp := Matrix (Fin 3) (Fin 3) ℝ

/-- A tensor of rank `r` in three dimensions: one number for every index tuple. -/
abbrev Tens (r : ℕ) := (Fin r → Fin 3) → ℂ

/-- The tensor in the rotated frame: `T'_{i...} = sum over j... of A_{i j} ... T_{j...}`. -/
noncomputable def act {r : ℕ} (A : SymOp) (T : Tens r) : Tens r :=
  fun i => ∑ j : Fin r → Fin 3, (∏ k, (A (i k) (j k) : ℂ)) * T j

/-- The tensor is unchanged by all operations of a set. -/
def InvariantUnder {r : ℕ} (G : Set SymOp) (T : Tens r) : Prop := ∀ A ∈ G, act A T = T

/-- The group generated by some operations of finite order. -/
def generated (gens : List SymOp) : Set SymOp := Submonoid.closure {A | A ∈ gens}

/-- The values of an array of expressions, when the symbols have the values `σ`. -/
noncomputable def valueOf (r : ℕ) (t : Nd Expr) (σ : Sym → ℂ) : Tens r :=
  fun i => (t.get (List.ofFn (fun k => (i k).val))).eval σ

/-- Rotation about the z axis. -/
noncomputable def rotZ (a : ℝ) : SymOp := !![Real.cos a, -Real.sin a, 0; Real.sin a, Real.cos a, 0; 0, 0, 1]

/-- Inversion. -/
def inversion : SymOp := !![-1, 0, 0; 0, -1, 0; 0, 0, -1]
/-- Twofold rotation about x. -/
def twofoldX : SymOp := !![1, 0, 0; 0, -1, 0; 0, 0, -1]
/-- Twofold rotation about y. -/
def twofoldY : SymOp := !![-1, 0, 0; 0, 1, 0; 0, 0, -1]
/-- Twofold rotation about z. -/
def twofoldZ : SymOp := !![-1, 0, 0; 0, -1, 0; 0, 0, 1]
/-- Mirror perpendicular to x. -/
def mirrorX : SymOp := !![-1, 0, 0; 0, 1, 0; 0, 0, 1]
/-- Mirror perpendicular to y. -/
def mirrorY : SymOp := !![1, 0, 0; 0, -1, 0; 0, 0, 1]
/-- Mirror perpendicular to z. -/
def mirrorZ : SymOp := !![1, 0, 0; 0, 1, 0; 0, 0, -1]
/-- Threefold rotation about z. -/
noncomputable def threefoldZ : SymOp := rotZ (2 * Real.pi / 3)
/-- Fourfold rotation about z. -/
noncomputable def fourfoldZ : SymOp := rotZ (2 * Real.pi / 4)
/-- Sixfold rotation about z. -/
noncomputable def sixfoldZ : SymOp := rotZ (2 * Real.pi / 6)
/-- Fourfold rotation about z followed by inversion. -/
noncomputable def rotoinversion4 : SymOp := -rotZ (2 * Real.pi / 4)
/-- Threefold rotation about the diagonal (1, 1, 1), which takes x to y, y to z and z to x. -/
def threefoldDiagonal : SymOp := !![0, 0, 1; 1, 0, 0; 0, 1, 0]

/-- The 32 crystallographic point groups, by generators.  The main axis is z, except for the monoclinic groups, where it
is y.  The secondary axes and mirrors of the trigonal groups are along, and perpendicular to, x. -/
noncomputable def pointGroups : List (Key × List SymOp) :=
  [(['S', '_', '2'], [inversion]),
   (['C', '_', '2', 'h'], [twofoldY, inversion]),
   (['D', '_', '2', 'h'], [twofoldX, twofoldY, inversion]),
   (['C', '_', '4', 'h'], [fourfoldZ, inversion]),
   (['D', '_', '4', 'h'], [fourfoldZ, twofoldX, inversion]),
   (['T', '_', 'h'], [twofoldZ, threefoldDiagonal, inversion]),
   (['O', '_', 'h'], [fourfoldZ, threefoldDiagonal, inversion]),
   (['S', '_', '6'], [threefoldZ, inversion]),
   (['D', '_', '3', 'd'], [threefoldZ, twofoldX, inversion]),
   (['C', '_', '6', 'h'], [sixfoldZ, inversion]),
   (['D', '_', '6', 'h'], [sixfoldZ, twofoldX, inversion]),
   (['C', '_', '2'], [twofoldY]),
   (['C', '_', '1', 'h'], [mirrorY]),
   (['D', '_', '2'], [twofoldX, twofoldY]),
   (['C', '_', '2', 'v'], [mirrorX, mirrorY]),
   (['C', '_', '4'], [fourfoldZ]),
   (['S', '_', '4'], [rotoinversion4]),
   (['D', '_', '4'], [fourfoldZ, twofoldX]),
   (['C', '_', '4', 'v'], [fourfoldZ, mirrorX]),
   (['D', '_', '2', 'd'], [rotoinversion4, twofoldX]),
   (['O'], [fourfoldZ, threefoldDiagonal]),
   (['T', '_', 'd'], [rotoinversion4, threefoldDiagonal]),
   (['T'], [twofoldZ, threefoldDiagonal]),
   (['D', '_', '3'], [threefoldZ, twofoldX]),
   (['C', '_', '3'], [threefoldZ]),
   (['C', '_', '3', 'v'], [threefoldZ, mirrorX]),
   (['C', '_', '6'], [sixfoldZ]),
   (['C', '_', '3', 'h'], [threefoldZ, mirrorZ]),
   (['C', '_', '6', 'v'], [sixfoldZ, mirrorX]),
   (['D', '_', '6'], [sixfoldZ, twofoldX]),
   (['D', '_', '3', 'h'], [threefoldZ, mirrorZ, mirrorX]),
   (['C', '_', '1'], [])]

/-- The trigonal groups with secondary axes along, and mirrors perpendicular to, y. -/
noncomputable def turnedGroups : List (Key × List SymOp) :=
  [(['C', '_', '3', 'v'], [threefoldZ, mirrorY]),
   (['D', '_', '3', 'd'], [threefoldZ, twofoldY, inversion]),
   (['D', '_', '3'], [threefoldZ, twofoldY])]

/-- The groups of the quadrupole table other than `Isotropic`: the 32 groups without `S_2` (whose rank 4 tensors are those of
`C_1`), three of the trigonal ones turned. -/
noncomputable def quadrupoleGroups : List (Key × List SymOp) :=
  pointGroups.filter (fun kv => decide (kv.1 ∉ ([['S', '_', '2'], ['C', '_', '3', 'v'], ['D', '_', '3', 'd'],
    ['D', '_', '3']] : List Key))) ++ turnedGroups

/-- The array of expressions with parameters stands for the tensors that are invariant under the operations: a tensor is
invariant exactly when it is obtained by choosing values of the parameters. -/
def Describes (r : ℕ) (t : Nd Expr) (G : Set SymOp) : Prop :=
  t.shape = List.replicate r 3 ∧ ∀ T : Tens r, InvariantUnder G T ↔ ∃ σ, T = valueOf r t σ

/-- Some set of orthogonal maps is described by both arrays: they are tables for one crystal, in one orientation. -/
def SameSetting (t3 t4 : Nd Expr) : Prop :=
  ∃ G : Set SymOp, (∀ A ∈ G, A * A.transpose = 1) ∧ Describes 3 t3 G ∧ Describes 4 t4 G

/-- The letter of an axis. -/
def letter (i : Fin 3) : Char := ![ 'x', 'y', 'z'] i

/-- All rotations. -/
def allRotations : Set SymOp := {A | A * A.transpose = 1 ∧ A.det = 1}

end Shgpy.Spec.PG
