import Verif.Proofs.TableCheck

/-!
# Certificates for the tables of tensors (generated)

For every element of every table, how its value follows from the invariance equations: a denominator and a list of
(generator, position of the equation, coefficient `a + b√3`).
-/

namespace Shgpy.TensorDef

set_option maxRecDepth 100000

/-- For `dipole['S_2']`. -/
def cert_dipole_S_2 : List Cert :=
  [(16, [(0, 0, 1, 0)]),
   (16, [(0, 1, 1, 0)]),
   (16, [(0, 2, 1, 0)]),
   (16, [(0, 3, 1, 0)]),
   (16, [(0, 4, 1, 0)]),
   (16, [(0, 5, 1, 0)]),
   (16, [(0, 6, 1, 0)]),
   (16, [(0, 7, 1, 0)]),
   (16, [(0, 8, 1, 0)]),
   (16, [(0, 9, 1, 0)]),
   (16, [(0, 10, 1, 0)]),
   (16, [(0, 11, 1, 0)]),
   (16, [(0, 12, 1, 0)]),
   (16, [(0, 13, 1, 0)]),
   (16, [(0, 14, 1, 0)]),
   (16, [(0, 15, 1, 0)]),
   (16, [(0, 16, 1, 0)]),
   (16, [(0, 17, 1, 0)]),
   (16, [(0, 18, 1, 0)]),
   (16, [(0, 19, 1, 0)]),
   (16, [(0, 20, 1, 0)]),
   (16, [(0, 21, 1, 0)]),
   (16, [(0, 22, 1, 0)]),
   (16, [(0, 23, 1, 0)]),
   (16, [(0, 24, 1, 0)]),
   (16, [(0, 25, 1, 0)]),
   (16, [(0, 26, 1, 0)])]

theorem check_dipole_S_2 : checkTable 3 [.inv] dipole_S_2 cert_dipole_S_2 = true := by decide +kernel

/-- For `dipole['C_2h']`. -/
def cert_dipole_C_2h : List Cert :=
  [(16, [(0, 0, 1, 0)]),
   (16, [(1, 1, 1, 0)]),
   (16, [(0, 2, 1, 0)]),
   (16, [(1, 3, 1, 0)]),
   (16, [(0, 4, 1, 0)]),
   (16, [(1, 5, 1, 0)]),
   (16, [(0, 6, 1, 0)]),
   (16, [(1, 7, 1, 0)]),
   (16, [(0, 8, 1, 0)]),
   (16, [(1, 9, 1, 0)]),
   (16, [(0, 10, 1, 0)]),
   (16, [(1, 11, 1, 0)]),
   (16, [(0, 12, 1, 0)]),
   (16, [(1, 13, 1, 0)]),
   (16, [(0, 14, 1, 0)]),
   (16, [(1, 15, 1, 0)]),
   (16, [(0, 16, 1, 0)]),
   (16, [(1, 17, 1, 0)]),
   (16, [(0, 18, 1, 0)]),
   (16, [(1, 19, 1, 0)]),
   (16, [(0, 20, 1, 0)]),
   (16, [(1, 21, 1, 0)]),
   (16, [(0, 22, 1, 0)]),
   (16, [(1, 23, 1, 0)]),
   (16, [(0, 24, 1, 0)]),
   (16, [(1, 25, 1, 0)]),
   (16, [(0, 26, 1, 0)])]

theorem check_dipole_C_2h : checkTable 3 [.C2y, .inv] dipole_C_2h cert_dipole_C_2h = true := by decide +kernel

/-- For `dipole['D_2h']`. -/
def cert_dipole_D_2h : List Cert :=
  [(16, [(1, 0, 1, 0)]),
   (16, [(0, 1, 1, 0)]),
   (16, [(0, 2, 1, 0)]),
   (16, [(0, 3, 1, 0)]),
   (16, [(1, 4, 1, 0)]),
   (16, [(2, 5, 1, 0)]),
   (16, [(0, 6, 1, 0)]),
   (16, [(2, 7, 1, 0)]),
   (16, [(1, 8, 1, 0)]),
   (16, [(0, 9, 1, 0)]),
   (16, [(1, 10, 1, 0)]),
   (16, [(2, 11, 1, 0)]),
   (16, [(1, 12, 1, 0)]),
   (16, [(0, 13, 1, 0)]),
   (16, [(0, 14, 1, 0)]),
   (16, [(2, 15, 1, 0)]),
   (16, [(0, 16, 1, 0)]),
   (16, [(0, 17, 1, 0)]),
   (16, [(0, 18, 1, 0)]),
   (16, [(2, 19, 1, 0)]),
   (16, [(1, 20, 1, 0)]),
   (16, [(2, 21, 1, 0)]),
   (16, [(0, 22, 1, 0)]),
   (16, [(0, 23, 1, 0)]),
   (16, [(1, 24, 1, 0)]),
   (16, [(0, 25, 1, 0)]),
   (16, [(0, 26, 1, 0)])]

theorem check_dipole_D_2h : checkTable 3 [.C2x, .C2y, .inv] dipole_D_2h cert_dipole_D_2h = true := by decide +kernel

/-- For `dipole['C_4h']`. -/
def cert_dipole_C_4h : List Cert :=
  [(16, [(1, 0, 1, 0)]),
   (16, [(1, 1, 1, 0)]),
   (16, [(1, 2, 1, 0)]),
   (16, [(1, 3, 1, 0)]),
   (16, [(1, 4, 1, 0)]),
   (16, [(1, 5, 1, 0)]),
   (16, [(1, 6, 1, 0)]),
   (16, [(1, 7, 1, 0)]),
   (16, [(1, 8, 1, 0)]),
   (16, [(1, 9, 1, 0)]),
   (16, [(1, 10, 1, 0)]),
   (16, [(1, 11, 1, 0)]),
   (16, [(1, 12, 1, 0)]),
   (16, [(1, 13, 1, 0)]),
   (16, [(1, 14, 1, 0)]),
   (16, [(1, 15, 1, 0)]),
   (16, [(1, 16, 1, 0)]),
   (16, [(1, 17, 1, 0)]),
   (16, [(1, 18, 1, 0)]),
   (16, [(1, 19, 1, 0)]),
   (16, [(1, 20, 1, 0)]),
   (16, [(1, 21, 1, 0)]),
   (16, [(1, 22, 1, 0)]),
   (16, [(1, 23, 1, 0)]),
   (16, [(1, 24, 1, 0)]),
   (16, [(1, 25, 1, 0)]),
   (16, [(1, 26, 1, 0)])]

theorem check_dipole_C_4h : checkTable 3 [.C4z, .inv] dipole_C_4h cert_dipole_C_4h = true := by decide +kernel

/-- For `dipole['D_4h']`. -/
def cert_dipole_D_4h : List Cert :=
  [(16, [(2, 0, 1, 0)]),
   (16, [(1, 1, 1, 0)]),
   (16, [(1, 2, 1, 0)]),
   (16, [(1, 3, 1, 0)]),
   (16, [(2, 4, 1, 0)]),
   (16, [(2, 5, 1, 0)]),
   (16, [(1, 6, 1, 0)]),
   (16, [(2, 7, 1, 0)]),
   (16, [(2, 8, 1, 0)]),
   (16, [(1, 9, 1, 0)]),
   (16, [(2, 10, 1, 0)]),
   (16, [(2, 11, 1, 0)]),
   (16, [(2, 12, 1, 0)]),
   (16, [(1, 13, 1, 0)]),
   (16, [(1, 14, 1, 0)]),
   (16, [(2, 15, 1, 0)]),
   (16, [(1, 16, 1, 0)]),
   (16, [(1, 17, 1, 0)]),
   (16, [(1, 18, 1, 0)]),
   (16, [(2, 19, 1, 0)]),
   (16, [(2, 20, 1, 0)]),
   (16, [(2, 21, 1, 0)]),
   (16, [(1, 22, 1, 0)]),
   (16, [(1, 23, 1, 0)]),
   (16, [(2, 24, 1, 0)]),
   (16, [(1, 25, 1, 0)]),
   (16, [(1, 26, 1, 0)])]

theorem check_dipole_D_4h : checkTable 3 [.C4z, .C2x, .inv] dipole_D_4h cert_dipole_D_4h = true := by decide +kernel

/-- For `dipole['T_h']`. -/
def cert_dipole_T_h : List Cert :=
  [(16, [(0, 0, 1, 0)]),
   (16, [(0, 1, 1, 0)]),
   (16, [(2, 2, 1, 0)]),
   (16, [(0, 3, 1, 0)]),
   (16, [(0, 4, 1, 0)]),
   (16, [(2, 5, 1, 0)]),
   (16, [(2, 6, 1, 0)]),
   (16, [(2, 7, 1, 0)]),
   (16, [(0, 8, 1, 0)]),
   (16, [(0, 9, 1, 0)]),
   (16, [(0, 10, 1, 0)]),
   (16, [(2, 11, 1, 0)]),
   (16, [(0, 12, 1, 0)]),
   (16, [(0, 13, 1, 0)]),
   (16, [(2, 14, 1, 0)]),
   (16, [(2, 15, 1, 0)]),
   (16, [(2, 16, 1, 0)]),
   (16, [(0, 17, 1, 0)]),
   (16, [(2, 18, 1, 0)]),
   (16, [(2, 19, 1, 0)]),
   (16, [(0, 20, 1, 0)]),
   (16, [(2, 21, 1, 0)]),
   (16, [(2, 22, 1, 0)]),
   (16, [(0, 23, 1, 0)]),
   (16, [(0, 24, 1, 0)]),
   (16, [(0, 25, 1, 0)]),
   (16, [(2, 26, 1, 0)])]

theorem check_dipole_T_h : checkTable 3 [.C2z, .C3d, .inv] dipole_T_h cert_dipole_T_h = true := by decide +kernel

/-- For `dipole['O_h']`. -/
def cert_dipole_O_h : List Cert :=
  [(16, [(2, 0, 1, 0)]),
   (16, [(2, 1, 1, 0)]),
   (16, [(2, 2, 1, 0)]),
   (16, [(2, 3, 1, 0)]),
   (16, [(2, 4, 1, 0)]),
   (16, [(2, 5, 1, 0)]),
   (16, [(2, 6, 1, 0)]),
   (16, [(2, 7, 1, 0)]),
   (16, [(2, 8, 1, 0)]),
   (16, [(2, 9, 1, 0)]),
   (16, [(2, 10, 1, 0)]),
   (16, [(2, 11, 1, 0)]),
   (16, [(2, 12, 1, 0)]),
   (16, [(2, 13, 1, 0)]),
   (16, [(2, 14, 1, 0)]),
   (16, [(2, 15, 1, 0)]),
   (16, [(2, 16, 1, 0)]),
   (16, [(2, 17, 1, 0)]),
   (16, [(2, 18, 1, 0)]),
   (16, [(2, 19, 1, 0)]),
   (16, [(2, 20, 1, 0)]),
   (16, [(2, 21, 1, 0)]),
   (16, [(2, 22, 1, 0)]),
   (16, [(2, 23, 1, 0)]),
   (16, [(2, 24, 1, 0)]),
   (16, [(2, 25, 1, 0)]),
   (16, [(2, 26, 1, 0)])]

theorem check_dipole_O_h : checkTable 3 [.C4z, .C3d, .inv] dipole_O_h cert_dipole_O_h = true := by decide +kernel

/-- For `dipole['S_6']`. -/
def cert_dipole_S_6 : List Cert :=
  [(16, [(1, 0, 1, 0)]),
   (16, [(1, 1, 1, 0)]),
   (16, [(1, 2, 1, 0)]),
   (16, [(1, 3, 1, 0)]),
   (16, [(1, 4, 1, 0)]),
   (16, [(1, 5, 1, 0)]),
   (16, [(1, 6, 1, 0)]),
   (16, [(1, 7, 1, 0)]),
   (16, [(1, 8, 1, 0)]),
   (16, [(1, 9, 1, 0)]),
   (16, [(1, 10, 1, 0)]),
   (16, [(1, 11, 1, 0)]),
   (16, [(1, 12, 1, 0)]),
   (16, [(1, 13, 1, 0)]),
   (16, [(1, 14, 1, 0)]),
   (16, [(1, 15, 1, 0)]),
   (16, [(1, 16, 1, 0)]),
   (16, [(1, 17, 1, 0)]),
   (16, [(1, 18, 1, 0)]),
   (16, [(1, 19, 1, 0)]),
   (16, [(1, 20, 1, 0)]),
   (16, [(1, 21, 1, 0)]),
   (16, [(1, 22, 1, 0)]),
   (16, [(1, 23, 1, 0)]),
   (16, [(1, 24, 1, 0)]),
   (16, [(1, 25, 1, 0)]),
   (16, [(1, 26, 1, 0)])]

theorem check_dipole_S_6 : checkTable 3 [.C3z, .inv] dipole_S_6 cert_dipole_S_6 = true := by decide +kernel

/-- For `dipole['D_3d']`. -/
def cert_dipole_D_3d : List Cert :=
  [(16, [(2, 0, 1, 0)]),
   (16, [(1, 1, 1, 0)]),
   (16, [(1, 2, 1, 0)]),
   (16, [(1, 3, 1, 0)]),
   (16, [(2, 4, 1, 0)]),
   (16, [(2, 5, 1, 0)]),
   (16, [(1, 6, 1, 0)]),
   (16, [(2, 7, 1, 0)]),
   (16, [(2, 8, 1, 0)]),
   (16, [(1, 9, 1, 0)]),
   (16, [(2, 10, 1, 0)]),
   (16, [(2, 11, 1, 0)]),
   (16, [(2, 12, 1, 0)]),
   (16, [(1, 13, 1, 0)]),
   (16, [(1, 14, 1, 0)]),
   (16, [(2, 15, 1, 0)]),
   (16, [(1, 16, 1, 0)]),
   (16, [(1, 17, 1, 0)]),
   (16, [(1, 18, 1, 0)]),
   (16, [(2, 19, 1, 0)]),
   (16, [(2, 20, 1, 0)]),
   (16, [(2, 21, 1, 0)]),
   (16, [(1, 22, 1, 0)]),
   (16, [(1, 23, 1, 0)]),
   (16, [(2, 24, 1, 0)]),
   (16, [(1, 25, 1, 0)]),
   (16, [(1, 26, 1, 0)])]

theorem check_dipole_D_3d : checkTable 3 [.C3z, .C2x, .inv] dipole_D_3d cert_dipole_D_3d = true := by decide +kernel

/-- For `dipole['C_6h']`. -/
def cert_dipole_C_6h : List Cert :=
  [(16, [(1, 0, 1, 0)]),
   (16, [(1, 1, 1, 0)]),
   (16, [(1, 2, 1, 0)]),
   (16, [(1, 3, 1, 0)]),
   (16, [(1, 4, 1, 0)]),
   (16, [(1, 5, 1, 0)]),
   (16, [(1, 6, 1, 0)]),
   (16, [(1, 7, 1, 0)]),
   (16, [(1, 8, 1, 0)]),
   (16, [(1, 9, 1, 0)]),
   (16, [(1, 10, 1, 0)]),
   (16, [(1, 11, 1, 0)]),
   (16, [(1, 12, 1, 0)]),
   (16, [(1, 13, 1, 0)]),
   (16, [(1, 14, 1, 0)]),
   (16, [(1, 15, 1, 0)]),
   (16, [(1, 16, 1, 0)]),
   (16, [(1, 17, 1, 0)]),
   (16, [(1, 18, 1, 0)]),
   (16, [(1, 19, 1, 0)]),
   (16, [(1, 20, 1, 0)]),
   (16, [(1, 21, 1, 0)]),
   (16, [(1, 22, 1, 0)]),
   (16, [(1, 23, 1, 0)]),
   (16, [(1, 24, 1, 0)]),
   (16, [(1, 25, 1, 0)]),
   (16, [(1, 26, 1, 0)])]

theorem check_dipole_C_6h : checkTable 3 [.C6z, .inv] dipole_C_6h cert_dipole_C_6h = true := by decide +kernel

/-- For `dipole['D_6h']`. -/
def cert_dipole_D_6h : List Cert :=
  [(16, [(2, 0, 1, 0)]),
   (16, [(1, 1, 1, 0)]),
   (16, [(1, 2, 1, 0)]),
   (16, [(1, 3, 1, 0)]),
   (16, [(2, 4, 1, 0)]),
   (16, [(2, 5, 1, 0)]),
   (16, [(1, 6, 1, 0)]),
   (16, [(2, 7, 1, 0)]),
   (16, [(2, 8, 1, 0)]),
   (16, [(1, 9, 1, 0)]),
   (16, [(2, 10, 1, 0)]),
   (16, [(2, 11, 1, 0)]),
   (16, [(2, 12, 1, 0)]),
   (16, [(1, 13, 1, 0)]),
   (16, [(1, 14, 1, 0)]),
   (16, [(2, 15, 1, 0)]),
   (16, [(1, 16, 1, 0)]),
   (16, [(1, 17, 1, 0)]),
   (16, [(1, 18, 1, 0)]),
   (16, [(2, 19, 1, 0)]),
   (16, [(2, 20, 1, 0)]),
   (16, [(2, 21, 1, 0)]),
   (16, [(1, 22, 1, 0)]),
   (16, [(1, 23, 1, 0)]),
   (16, [(2, 24, 1, 0)]),
   (16, [(1, 25, 1, 0)]),
   (16, [(1, 26, 1, 0)])]

theorem check_dipole_D_6h : checkTable 3 [.C6z, .C2x, .inv] dipole_D_6h cert_dipole_D_6h = true := by decide +kernel

/-- For `dipole['C_2']`. -/
def cert_dipole_C_2 : List Cert :=
  [(16, [(0, 0, 1, 0)]),
   (1, []),
   (16, [(0, 2, 1, 0)]),
   (1, []),
   (16, [(0, 4, 1, 0)]),
   (1, []),
   (16, [(0, 6, 1, 0)]),
   (1, []),
   (16, [(0, 8, 1, 0)]),
   (1, []),
   (16, [(0, 10, 1, 0)]),
   (1, []),
   (16, [(0, 12, 1, 0)]),
   (1, []),
   (16, [(0, 14, 1, 0)]),
   (1, []),
   (16, [(0, 16, 1, 0)]),
   (1, []),
   (16, [(0, 18, 1, 0)]),
   (1, []),
   (16, [(0, 20, 1, 0)]),
   (1, []),
   (16, [(0, 22, 1, 0)]),
   (1, []),
   (16, [(0, 24, 1, 0)]),
   (1, []),
   (16, [(0, 26, 1, 0)])]

theorem check_dipole_C_2 : checkTable 3 [.C2y] dipole_C_2 cert_dipole_C_2 = true := by decide +kernel

/-- For `dipole['C_1h']`. -/
def cert_dipole_C_1h : List Cert :=
  [(1, []),
   (16, [(0, 1, 1, 0)]),
   (1, []),
   (16, [(0, 3, 1, 0)]),
   (1, []),
   (16, [(0, 5, 1, 0)]),
   (1, []),
   (16, [(0, 7, 1, 0)]),
   (1, []),
   (16, [(0, 9, 1, 0)]),
   (1, []),
   (16, [(0, 11, 1, 0)]),
   (1, []),
   (16, [(0, 13, 1, 0)]),
   (1, []),
   (16, [(0, 15, 1, 0)]),
   (1, []),
   (16, [(0, 17, 1, 0)]),
   (1, []),
   (16, [(0, 19, 1, 0)]),
   (1, []),
   (16, [(0, 21, 1, 0)]),
   (1, []),
   (16, [(0, 23, 1, 0)]),
   (1, []),
   (16, [(0, 25, 1, 0)]),
   (1, [])]

theorem check_dipole_C_1h : checkTable 3 [.my] dipole_C_1h cert_dipole_C_1h = true := by decide +kernel

/-- For `dipole['D_2']`. -/
def cert_dipole_D_2 : List Cert :=
  [(16, [(1, 0, 1, 0)]),
   (16, [(0, 1, 1, 0)]),
   (16, [(0, 2, 1, 0)]),
   (16, [(0, 3, 1, 0)]),
   (16, [(1, 4, 1, 0)]),
   (1, []),
   (16, [(0, 6, 1, 0)]),
   (1, []),
   (16, [(1, 8, 1, 0)]),
   (16, [(0, 9, 1, 0)]),
   (16, [(1, 10, 1, 0)]),
   (1, []),
   (16, [(1, 12, 1, 0)]),
   (16, [(0, 13, 1, 0)]),
   (16, [(0, 14, 1, 0)]),
   (1, []),
   (16, [(0, 16, 1, 0)]),
   (16, [(0, 17, 1, 0)]),
   (16, [(0, 18, 1, 0)]),
   (1, []),
   (16, [(1, 20, 1, 0)]),
   (1, []),
   (16, [(0, 22, 1, 0)]),
   (16, [(0, 23, 1, 0)]),
   (16, [(1, 24, 1, 0)]),
   (16, [(0, 25, 1, 0)]),
   (16, [(0, 26, 1, 0)])]

theorem check_dipole_D_2 : checkTable 3 [.C2x, .C2y] dipole_D_2 cert_dipole_D_2 = true := by decide +kernel

/-- For `dipole['C_2v']`. -/
def cert_dipole_C_2v : List Cert :=
  [(16, [(0, 0, 1, 0)]),
   (16, [(1, 1, 1, 0)]),
   (1, []),
   (16, [(1, 3, 1, 0)]),
   (16, [(0, 4, 1, 0)]),
   (16, [(0, 5, 1, 0)]),
   (1, []),
   (16, [(0, 7, 1, 0)]),
   (16, [(0, 8, 1, 0)]),
   (16, [(1, 9, 1, 0)]),
   (16, [(0, 10, 1, 0)]),
   (16, [(0, 11, 1, 0)]),
   (16, [(0, 12, 1, 0)]),
   (16, [(1, 13, 1, 0)]),
   (1, []),
   (16, [(0, 15, 1, 0)]),
   (1, []),
   (16, [(1, 17, 1, 0)]),
   (1, []),
   (16, [(0, 19, 1, 0)]),
   (16, [(0, 20, 1, 0)]),
   (16, [(0, 21, 1, 0)]),
   (1, []),
   (16, [(1, 23, 1, 0)]),
   (16, [(0, 24, 1, 0)]),
   (16, [(1, 25, 1, 0)]),
   (1, [])]

theorem check_dipole_C_2v : checkTable 3 [.mx, .my] dipole_C_2v cert_dipole_C_2v = true := by decide +kernel

/-- For `dipole['C_4']`. -/
def cert_dipole_C_4 : List Cert :=
  [(16, [(0, 0, 1, 0), (0, 13, -1, 0)]),
   (16, [(0, 1, 1, 0), (0, 12, 1, 0)]),
   (8, [(0, 2, 1, 0)]),
   (16, [(0, 3, 1, 0), (0, 10, 1, 0)]),
   (16, [(0, 4, 1, 0), (0, 9, -1, 0)]),
   (8, [(0, 5, 1, 0)]),
   (8, [(0, 6, 1, 0)]),
   (8, [(0, 7, 1, 0)]),
   (16, [(0, 8, 1, 0), (0, 17, -1, 0)]),
   (16, [(0, 4, 1, 0), (0, 9, 1, 0)]),
   (16, [(0, 3, -1, 0), (0, 10, 1, 0)]),
   (1, []),
   (16, [(0, 1, -1, 0), (0, 12, 1, 0)]),
   (16, [(0, 0, 1, 0), (0, 13, 1, 0)]),
   (1, []),
   (1, []),
   (1, []),
   (16, [(0, 8, 1, 0), (0, 17, 1, 0)]),
   (8, [(0, 18, 1, 0)]),
   (8, [(0, 19, 1, 0)]),
   (16, [(0, 20, 1, 0), (0, 23, -1, 0)]),
   (1, []),
   (1, []),
   (16, [(0, 20, 1, 0), (0, 23, 1, 0)]),
   (16, [(0, 24, 1, 0), (0, 25, -1, 0)]),
   (16, [(0, 24, 1, 0), (0, 25, 1, 0)]),
   (1, [])]

theorem check_dipole_C_4 : checkTable 3 [.C4z] dipole_C_4 cert_dipole_C_4 = true := by decide +kernel

/-- For `dipole['S_4']`. -/
def cert_dipole_S_4 : List Cert :=
  [(16, [(0, 0, 1, 0), (0, 13, 1, 0)]),
   (16, [(0, 1, 1, 0), (0, 12, -1, 0)]),
   (8, [(0, 2, 1, 0)]),
   (16, [(0, 3, 1, 0), (0, 10, -1, 0)]),
   (16, [(0, 4, 1, 0), (0, 9, 1, 0)]),
   (8, [(0, 5, 1, 0)]),
   (8, [(0, 6, 1, 0)]),
   (8, [(0, 7, 1, 0)]),
   (16, [(0, 8, 1, 0), (0, 17, 1, 0)]),
   (16, [(0, 4, -1, 0), (0, 9, 1, 0)]),
   (16, [(0, 3, 1, 0), (0, 10, 1, 0)]),
   (1, []),
   (16, [(0, 1, 1, 0), (0, 12, 1, 0)]),
   (16, [(0, 0, -1, 0), (0, 13, 1, 0)]),
   (1, []),
   (1, []),
   (1, []),
   (16, [(0, 8, -1, 0), (0, 17, 1, 0)]),
   (8, [(0, 18, 1, 0)]),
   (8, [(0, 19, 1, 0)]),
   (16, [(0, 20, 1, 0), (0, 23, 1, 0)]),
   (1, []),
   (1, []),
   (16, [(0, 20, -1, 0), (0, 23, 1, 0)]),
   (16, [(0, 24, 1, 0), (0, 25, 1, 0)]),
   (16, [(0, 24, -1, 0), (0, 25, 1, 0)]),
   (16, [(0, 26, 1, 0)])]

theorem check_dipole_S_4 : checkTable 3 [.S4z] dipole_S_4 cert_dipole_S_4 = true := by decide +kernel

/-- For `dipole['D_4']`. -/
def cert_dipole_D_4 : List Cert :=
  [(16, [(0, 0, 2, 0), (1, 13, -1, 0)]),
   (16, [(1, 1, 1, 0)]),
   (16, [(1, 2, 1, 0)]),
   (16, [(1, 3, 1, 0)]),
   (16, [(0, 4, 2, 0), (1, 9, -1, 0)]),
   (8, [(0, 5, 1, 0)]),
   (16, [(1, 6, 1, 0)]),
   (8, [(0, 7, 1, 0)]),
   (16, [(0, 8, 2, 0), (1, 17, -1, 0)]),
   (16, [(1, 9, 1, 0)]),
   (16, [(0, 3, -2, 0), (1, 3, 1, 0)]),
   (1, []),
   (16, [(0, 1, -2, 0), (1, 1, 1, 0)]),
   (16, [(1, 13, 1, 0)]),
   (16, [(1, 14, 1, 0)]),
   (1, []),
   (16, [(1, 16, 1, 0)]),
   (16, [(1, 17, 1, 0)]),
   (16, [(1, 18, 1, 0)]),
   (8, [(0, 19, 1, 0)]),
   (16, [(0, 20, 2, 0), (1, 23, -1, 0)]),
   (1, []),
   (16, [(1, 22, 1, 0)]),
   (16, [(1, 23, 1, 0)]),
   (16, [(0, 24, 2, 0), (1, 25, -1, 0)]),
   (16, [(1, 25, 1, 0)]),
   (16, [(1, 26, 1, 0)])]

theorem check_dipole_D_4 : checkTable 3 [.C4z, .C2x] dipole_D_4 cert_dipole_D_4 = true := by decide +kernel

/-- For `dipole['C_4v']`. -/
def cert_dipole_C_4v : List Cert :=
  [(16, [(1, 0, 1, 0)]),
   (16, [(0, 1, 2, 0), (1, 12, 1, 0)]),
   (8, [(0, 2, 1, 0)]),
   (16, [(0, 3, 2, 0), (1, 10, 1, 0)]),
   (16, [(1, 4, 1, 0)]),
   (16, [(1, 5, 1, 0)]),
   (8, [(0, 6, 1, 0)]),
   (16, [(1, 7, 1, 0)]),
   (16, [(1, 8, 1, 0)]),
   (16, [(0, 4, 2, 0), (1, 4, -1, 0)]),
   (16, [(1, 10, 1, 0)]),
   (16, [(1, 11, 1, 0)]),
   (16, [(1, 12, 1, 0)]),
   (16, [(0, 0, 2, 0), (1, 0, -1, 0)]),
   (1, []),
   (16, [(1, 15, 1, 0)]),
   (1, []),
   (16, [(0, 8, 2, 0), (1, 8, -1, 0)]),
   (8, [(0, 18, 1, 0)]),
   (16, [(1, 19, 1, 0)]),
   (16, [(1, 20, 1, 0)]),
   (16, [(1, 21, 1, 0)]),
   (1, []),
   (16, [(0, 20, 2, 0), (1, 20, -1, 0)]),
   (16, [(1, 24, 1, 0)]),
   (16, [(0, 24, 2, 0), (1, 24, -1, 0)]),
   (1, [])]

theorem check_dipole_C_4v : checkTable 3 [.C4z, .mx] dipole_C_4v cert_dipole_C_4v = true := by decide +kernel

/-- For `dipole['D_2d']`. -/
def cert_dipole_D_2d : List Cert :=
  [(16, [(0, 0, 2, 0), (1, 13, 1, 0)]),
   (16, [(1, 1, 1, 0)]),
   (16, [(1, 2, 1, 0)]),
   (16, [(1, 3, 1, 0)]),
   (16, [(0, 4, 2, 0), (1, 9, 1, 0)]),
   (8, [(0, 5, 1, 0)]),
   (16, [(1, 6, 1, 0)]),
   (8, [(0, 7, 1, 0)]),
   (16, [(0, 8, 2, 0), (1, 17, 1, 0)]),
   (16, [(1, 9, 1, 0)]),
   (16, [(0, 3, 2, 0), (1, 3, -1, 0)]),
   (1, []),
   (16, [(0, 1, 2, 0), (1, 1, -1, 0)]),
   (16, [(1, 13, 1, 0)]),
   (16, [(1, 14, 1, 0)]),
   (1, []),
   (16, [(1, 16, 1, 0)]),
   (16, [(1, 17, 1, 0)]),
   (16, [(1, 18, 1, 0)]),
   (8, [(0, 19, 1, 0)]),
   (16, [(0, 20, 2, 0), (1, 23, 1, 0)]),
   (1, []),
   (16, [(1, 22, 1, 0)]),
   (16, [(1, 23, 1, 0)]),
   (16, [(0, 24, 2, 0), (1, 25, 1, 0)]),
   (16, [(1, 25, 1, 0)]),
   (16, [(0, 26, 1, 0)])]

theorem check_dipole_D_2d : checkTable 3 [.S4z, .C2x] dipole_D_2d cert_dipole_D_2d = true := by decide +kernel

/-- For `dipole['O']`. -/
def cert_dipole_O : List Cert :=
  [(16, [(0, 0, 1, 0), (0, 13, -1, 0)]),
   (16, [(0, 1, 1, 0), (0, 12, 1, 0)]),
   (16, [(0, 24, 1, 0), (0, 25, 1, 0), (1, 2, 2, 0)]),
   (16, [(0, 3, 1, 0), (0, 10, 1, 0)]),
   (16, [(0, 4, 1, 0), (0, 9, -1, 0)]),
   (8, [(0, 19, 1, 0), (1, 5, 1, 0)]),
   (16, [(0, 20, 1, 0), (0, 23, 1, 0), (1, 6, 2, 0)]),
   (8, [(1, 7, 1, 0)]),
   (16, [(0, 8, 1, 0), (0, 17, -1, 0)]),
   (16, [(0, 4, 1, 0), (0, 9, 1, 0)]),
   (16, [(0, 3, -1, 0), (0, 10, 1, 0)]),
   (8, [(0, 5, 1, 0), (0, 19, -1, 0), (1, 5, -1, 0)]),
   (16, [(0, 1, -1, 0), (0, 12, 1, 0)]),
   (16, [(0, 0, 1, 0), (0, 13, 1, 0)]),
   (16, [(0, 2, -2, 0), (0, 24, 1, 0), (0, 25, 1, 0), (1, 2, 2, 0)]),
   (8, [(0, 7, 1, 0), (1, 7, -1, 0)]),
   (16, [(0, 6, -2, 0), (0, 20, 1, 0), (0, 23, 1, 0), (1, 6, 2, 0)]),
   (16, [(0, 8, 1, 0), (0, 17, 1, 0)]),
   (16, [(0, 4, 1, 0), (0, 9, -1, 0), (1, 4, -2, 0)]),
   (8, [(0, 19, 1, 0)]),
   (16, [(0, 20, 1, 0), (0, 23, -1, 0)]),
   (1, []),
   (16, [(0, 4, 1, 0), (0, 9, -1, 0), (0, 18, -2, 0), (1, 4, -2, 0)]),
   (16, [(0, 20, 1, 0), (0, 23, 1, 0)]),
   (16, [(0, 24, 1, 0), (0, 25, -1, 0)]),
   (16, [(0, 24, 1, 0), (0, 25, 1, 0)]),
   (16, [(0, 0, 1, 0), (0, 13, -1, 0), (1, 0, -2, 0)])]

theorem check_dipole_O : checkTable 3 [.C4z, .C3d] dipole_O cert_dipole_O = true := by decide +kernel

/-- For `dipole['T_d']`. -/
def cert_dipole_T_d : List Cert :=
  [(16, [(0, 0, 1, 0), (0, 13, 1, 0)]),
   (16, [(0, 1, 1, 0), (0, 12, -1, 0)]),
   (16, [(0, 24, -1, 0), (0, 25, 1, 0), (1, 2, 2, 0)]),
   (16, [(0, 3, 1, 0), (0, 10, -1, 0)]),
   (16, [(0, 4, 1, 0), (0, 9, 1, 0)]),
   (8, [(0, 19, 1, 0), (1, 5, 1, 0)]),
   (16, [(0, 20, -1, 0), (0, 23, 1, 0), (1, 6, 2, 0)]),
   (8, [(1, 7, 1, 0)]),
   (16, [(0, 8, 1, 0), (0, 17, 1, 0)]),
   (16, [(0, 4, -1, 0), (0, 9, 1, 0)]),
   (16, [(0, 3, 1, 0), (0, 10, 1, 0)]),
   (8, [(0, 5, -1, 0), (0, 19, 1, 0), (1, 5, 1, 0)]),
   (16, [(0, 1, 1, 0), (0, 12, 1, 0)]),
   (16, [(0, 0, -1, 0), (0, 13, 1, 0)]),
   (16, [(0, 2, 2, 0), (0, 24, 1, 0), (0, 25, -1, 0), (1, 2, -2, 0)]),
   (8, [(0, 7, -1, 0), (1, 7, 1, 0)]),
   (16, [(0, 6, 2, 0), (0, 20, 1, 0), (0, 23, -1, 0), (1, 6, -2, 0)]),
   (16, [(0, 8, -1, 0), (0, 17, 1, 0)]),
   (16, [(0, 4, 1, 0), (0, 9, 1, 0), (1, 4, -2, 0)]),
   (8, [(0, 19, 1, 0)]),
   (16, [(0, 20, 1, 0), (0, 23, 1, 0)]),
   (1, []),
   (16, [(0, 4, -1, 0), (0, 9, -1, 0), (0, 18, 2, 0), (1, 4, 2, 0)]),
   (16, [(0, 20, -1, 0), (0, 23, 1, 0)]),
   (16, [(0, 24, 1, 0), (0, 25, 1, 0)]),
   (16, [(0, 24, -1, 0), (0, 25, 1, 0)]),
   (16, [(0, 26, 1, 0)])]

theorem check_dipole_T_d : checkTable 3 [.S4z, .C3d] dipole_T_d cert_dipole_T_d = true := by decide +kernel

/-- For `dipole['T']`. -/
def cert_dipole_T : List Cert :=
  [(16, [(0, 0, 1, 0)]),
   (16, [(0, 1, 1, 0)]),
   (16, [(0, 25, 1, 0), (1, 2, 2, 0)]),
   (16, [(0, 3, 1, 0)]),
   (16, [(0, 4, 1, 0)]),
   (8, [(1, 5, 1, 0)]),
   (16, [(0, 23, 1, 0), (1, 6, 2, 0)]),
   (8, [(1, 7, 1, 0)]),
   (16, [(0, 8, 1, 0)]),
   (16, [(0, 9, 1, 0)]),
   (16, [(0, 10, 1, 0)]),
   (8, [(1, 7, 1, 0), (1, 11, 1, 0)]),
   (16, [(0, 12, 1, 0)]),
   (16, [(0, 13, 1, 0)]),
   (16, [(0, 1, 1, 0), (1, 14, 2, 0)]),
   (8, [(1, 5, 1, 0), (1, 15, 1, 0)]),
   (16, [(0, 3, 1, 0), (1, 16, 2, 0)]),
   (16, [(0, 17, 1, 0)]),
   (16, [(0, 4, 1, 0), (1, 4, -2, 0)]),
   (1, []),
   (16, [(0, 20, 1, 0)]),
   (1, []),
   (16, [(0, 8, 1, 0), (1, 8, -2, 0)]),
   (16, [(0, 23, 1, 0)]),
   (16, [(0, 24, 1, 0)]),
   (16, [(0, 25, 1, 0)]),
   (16, [(0, 0, 1, 0), (1, 0, -2, 0)])]

theorem check_dipole_T : checkTable 3 [.C2z, .C3d] dipole_T cert_dipole_T = true := by decide +kernel

/-- For `dipole['D_3']`. -/
def cert_dipole_D_3 : List Cert :=
  [(48, [(0, 0, 4, 0), (0, 3, 0, -4), (1, 1, 0, -1), (1, 3, 0, 2), (1, 9, 0, -1)]),
   (16, [(1, 1, 1, 0)]),
   (16, [(1, 2, 1, 0)]),
   (16, [(1, 3, 1, 0)]),
   (48, [(0, 0, 4, 0), (0, 1, 0, 4), (0, 3, 0, 8), (1, 1, 0, -1), (1, 3, 0, -4), (1, 9, 0, 2), (1, 13, 0, -3)]),
   (48, [(0, 2, 0, -8), (1, 2, 0, 3), (1, 14, 0, -3)]),
   (16, [(1, 6, 1, 0)]),
   (48, [(0, 6, 0, -8), (1, 6, 0, 3), (1, 16, 0, -3)]),
   (48, [(0, 8, 4, 0), (1, 17, 0, -1)]),
   (16, [(1, 9, 1, 0)]),
   (1, []),
   (1, []),
   (48, [(0, 1, 0, -4), (0, 3, 0, 4), (1, 1, 0, 3), (1, 3, 0, -3)]),
   (16, [(1, 13, 1, 0)]),
   (16, [(1, 14, 1, 0)]),
   (1, []),
   (16, [(1, 16, 1, 0)]),
   (16, [(1, 17, 1, 0)]),
   (16, [(1, 18, 1, 0)]),
   (48, [(0, 18, 0, -8), (1, 18, 0, 3), (1, 22, 0, -3)]),
   (48, [(0, 20, 4, 0), (1, 23, 0, -1)]),
   (1, []),
   (16, [(1, 22, 1, 0)]),
   (16, [(1, 23, 1, 0)]),
   (48, [(0, 24, 4, 0), (1, 25, 0, -1)]),
   (16, [(1, 25, 1, 0)]),
   (16, [(1, 26, 1, 0)])]

theorem check_dipole_D_3 : checkTable 3 [.C3z, .C2x] dipole_D_3 cert_dipole_D_3 = true := by decide +kernel

/-- For `dipole['C_3']`. -/
def cert_dipole_C_3 : List Cert :=
  [(1, []),
   (48, [(0, 0, 0, 2), (0, 1, 6, 0), (0, 3, 3, 0), (0, 4, 0, -1), (0, 9, 3, 0), (0, 10, 0, -1)]),
   (24, [(0, 2, 3, 0), (0, 5, 0, 1)]),
   (48, [(0, 0, 0, 1), (0, 1, 3, 0), (0, 3, 6, 0), (0, 9, 3, 0), (0, 10, 0, 1)]),
   (48, [(0, 0, 3, 0), (0, 1, 0, -1), (0, 3, 0, -1), (0, 4, 3, 0), (0, 9, 0, -2)]),
   (24, [(0, 2, 0, -1), (0, 5, 3, 0)]),
   (24, [(0, 6, 3, 0), (0, 7, 0, 1)]),
   (24, [(0, 6, 0, -1), (0, 7, 3, 0)]),
   (48, [(0, 8, 3, 0), (0, 17, 0, -1)]),
   (48, [(0, 0, 0, 1), (0, 1, 3, 0), (0, 3, 3, 0), (0, 4, 0, 1), (0, 9, 6, 0)]),
   (48, [(0, 0, 3, 0), (0, 1, 0, -1), (0, 3, 0, -2), (0, 9, 0, -1), (0, 10, 3, 0)]),
   (1, []),
   (48, [(0, 0, 6, 0), (0, 1, 0, -2), (0, 3, 0, -1), (0, 4, -3, 0), (0, 9, 0, -1), (0, 10, -3, 0)]),
   (1, []),
   (1, []),
   (1, []),
   (1, []),
   (48, [(0, 8, 0, 1), (0, 17, 3, 0)]),
   (24, [(0, 18, 3, 0), (0, 19, 0, 1)]),
   (24, [(0, 18, 0, -1), (0, 19, 3, 0)]),
   (48, [(0, 20, 3, 0), (0, 23, 0, -1)]),
   (1, []),
   (1, []),
   (48, [(0, 20, 0, 1), (0, 23, 3, 0)]),
   (48, [(0, 24, 3, 0), (0, 25, 0, -1)]),
   (48, [(0, 24, 0, 1), (0, 25, 3, 0)]),
   (1, [])]

theorem check_dipole_C_3 : checkTable 3 [.C3z] dipole_C_3 cert_dipole_C_3 = true := by decide +kernel

/-- For `dipole['C_3v']`. -/
def cert_dipole_C_3v : List Cert :=
  [(16, [(1, 0, 1, 0)]),
   (48, [(0, 1, 4, 0), (0, 3, -4, 0), (1, 10, 0, -1), (1, 12, 0, 1)]),
   (48, [(0, 2, 8, 0), (1, 5, 0, 1), (1, 11, 0, 1)]),
   (1, []),
   (16, [(1, 4, 1, 0)]),
   (16, [(1, 5, 1, 0)]),
   (48, [(0, 6, 8, 0), (1, 7, 0, 1), (1, 15, 0, 1)]),
   (16, [(1, 7, 1, 0)]),
   (16, [(1, 8, 1, 0)]),
   (48, [(0, 0, 0, 4), (0, 1, -4, 0), (0, 3, -8, 0), (1, 0, 0, -3), (1, 10, 0, -2), (1, 12, 0, -1)]),
   (16, [(1, 10, 1, 0)]),
   (16, [(1, 11, 1, 0)]),
   (16, [(1, 12, 1, 0)]),
   (48, [(0, 0, 0, 4), (0, 3, 4, 0), (1, 0, 0, -2), (1, 4, 0, -1), (1, 12, 0, -1)]),
   (1, []),
   (16, [(1, 15, 1, 0)]),
   (1, []),
   (48, [(0, 8, 0, 4), (1, 8, 0, -3)]),
   (48, [(0, 18, 8, 0), (1, 19, 0, 1), (1, 21, 0, 1)]),
   (16, [(1, 19, 1, 0)]),
   (16, [(1, 20, 1, 0)]),
   (16, [(1, 21, 1, 0)]),
   (1, []),
   (48, [(0, 20, 0, 4), (1, 20, 0, -3)]),
   (16, [(1, 24, 1, 0)]),
   (48, [(0, 24, 0, 4), (1, 24, 0, -3)]),
   (1, [])]

theorem check_dipole_C_3v : checkTable 3 [.C3z, .mx] dipole_C_3v cert_dipole_C_3v = true := by decide +kernel

/-- For `dipole['C_6']`. -/
def cert_dipole_C_6 : List Cert :=
  [(64, [(0, 0, 4, 0), (0, 1, 0, -1), (0, 3, 0, -1), (0, 9, 0, -1), (0, 13, 0, -3)]),
   (64, [(0, 0, 0, 1), (0, 1, 4, 0), (0, 4, 0, -1), (0, 10, 0, -1), (0, 12, 0, 3)]),
   (24, [(0, 2, 3, 0), (0, 5, 0, -1)]),
   (64, [(0, 0, 0, 1), (0, 3, 4, 0), (0, 4, 0, -1), (0, 10, 0, 3), (0, 12, 0, -1)]),
   (64, [(0, 1, 0, 1), (0, 3, 0, 1), (0, 4, 4, 0), (0, 9, 0, -3), (0, 13, 0, -1)]),
   (24, [(0, 2, 0, 1), (0, 5, 3, 0)]),
   (24, [(0, 6, 3, 0), (0, 7, 0, -1)]),
   (24, [(0, 6, 0, 1), (0, 7, 3, 0)]),
   (16, [(0, 8, 1, 0), (0, 17, 0, -1)]),
   (64, [(0, 0, 0, 1), (0, 4, 0, 3), (0, 9, 4, 0), (0, 10, 0, -1), (0, 12, 0, -1)]),
   (64, [(0, 1, 0, 1), (0, 3, 0, -3), (0, 9, 0, 1), (0, 10, 4, 0), (0, 13, 0, -1)]),
   (1, []),
   (64, [(0, 1, 0, -3), (0, 3, 0, 1), (0, 9, 0, 1), (0, 12, 4, 0), (0, 13, 0, -1)]),
   (64, [(0, 0, 0, 3), (0, 4, 0, 1), (0, 10, 0, 1), (0, 12, 0, 1), (0, 13, 4, 0)]),
   (1, []),
   (1, []),
   (1, []),
   (16, [(0, 8, 0, 1), (0, 17, 1, 0)]),
   (24, [(0, 18, 3, 0), (0, 19, 0, -1)]),
   (24, [(0, 18, 0, 1), (0, 19, 3, 0)]),
   (16, [(0, 20, 1, 0), (0, 23, 0, -1)]),
   (1, []),
   (1, []),
   (16, [(0, 20, 0, 1), (0, 23, 1, 0)]),
   (16, [(0, 24, 1, 0), (0, 25, 0, -1)]),
   (16, [(0, 24, 0, 1), (0, 25, 1, 0)]),
   (1, [])]

theorem check_dipole_C_6 : checkTable 3 [.C6z] dipole_C_6 cert_dipole_C_6 = true := by decide +kernel

/-- For `dipole['C_3h']`. -/
def cert_dipole_C_3h : List Cert :=
  [(48, [(0, 0, 6, 0), (0, 1, 0, -2), (0, 3, 0, -1), (0, 4, -3, 0), (0, 9, 0, -1), (0, 10, -3, 0)]),
   (1, []),
   (16, [(1, 2, 1, 0)]),
   (48, [(0, 0, 0, -1), (0, 1, -3, 0), (0, 3, 3, 0), (0, 4, 0, 1), (0, 10, 0, 2)]),
   (48, [(0, 0, -3, 0), (0, 1, 0, 1), (0, 4, 6, 0), (0, 9, 0, -1), (0, 10, 3, 0)]),
   (16, [(1, 5, 1, 0)]),
   (16, [(1, 6, 1, 0)]),
   (16, [(1, 7, 1, 0)]),
   (48, [(0, 8, 3, 0), (0, 17, 0, -1)]),
   (48, [(0, 0, 0, -1), (0, 1, -3, 0), (0, 4, 0, 2), (0, 9, 3, 0), (0, 10, 0, 1)]),
   (48, [(0, 0, -3, 0), (0, 1, 0, 1), (0, 3, 0, -1), (0, 4, 3, 0), (0, 10, 6, 0)]),
   (16, [(1, 11, 1, 0)]),
   (1, []),
   (48, [(0, 0, 0, 2), (0, 1, 6, 0), (0, 3, 3, 0), (0, 4, 0, -1), (0, 9, 3, 0), (0, 10, 0, -1)]),
   (16, [(1, 14, 1, 0)]),
   (16, [(1, 15, 1, 0)]),
   (16, [(1, 16, 1, 0)]),
   (48, [(0, 8, 0, 1), (0, 17, 3, 0)]),
   (16, [(1, 18, 1, 0)]),
   (16, [(1, 19, 1, 0)]),
   (48, [(0, 20, 3, 0), (0, 23, 0, -1)]),
   (16, [(1, 21, 1, 0)]),
   (16, [(1, 22, 1, 0)]),
   (48, [(0, 20, 0, 1), (0, 23, 3, 0)]),
   (48, [(0, 24, 3, 0), (0, 25, 0, -1)]),
   (48, [(0, 24, 0, 1), (0, 25, 3, 0)]),
   (16, [(1, 26, 1, 0)])]

theorem check_dipole_C_3h : checkTable 3 [.C3z, .mz] dipole_C_3h cert_dipole_C_3h = true := by decide +kernel

/-- For `dipole['C_6v']`. -/
def cert_dipole_C_6v : List Cert :=
  [(16, [(1, 0, 1, 0)]),
   (64, [(0, 0, 0, 2), (0, 1, 10, 0), (0, 3, -6, 0), (0, 4, 0, -2), (1, 0, 0, -1), (1, 4, 0, 1), (1, 10, 0, -1), (1, 12, 0, 3)]),
   (48, [(0, 2, 8, 0), (1, 5, 0, -1), (1, 11, 0, -1)]),
   (64, [(0, 0, 0, 2), (0, 1, -6, 0), (0, 3, 10, 0), (0, 4, 0, -2), (1, 0, 0, -1), (1, 4, 0, 1), (1, 10, 0, 3), (1, 12, 0, -1)]),
   (16, [(1, 4, 1, 0)]),
   (16, [(1, 5, 1, 0)]),
   (48, [(0, 6, 8, 0), (1, 7, 0, -1), (1, 15, 0, -1)]),
   (16, [(1, 7, 1, 0)]),
   (16, [(1, 8, 1, 0)]),
   (192, [(0, 0, 0, -2), (0, 1, 6, 0), (0, 3, 6, 0), (0, 4, 0, 18), (1, 0, 0, 5), (1, 4, 0, -9), (1, 10, 0, -3), (1, 12, 0, -3)]),
   (16, [(1, 10, 1, 0)]),
   (16, [(1, 11, 1, 0)]),
   (16, [(1, 12, 1, 0)]),
   (192, [(0, 0, 0, 18), (0, 1, -6, 0), (0, 3, -6, 0), (0, 4, 0, -2), (1, 0, 0, -9), (1, 4, 0, 5), (1, 10, 0, 3), (1, 12, 0, 3)]),
   (1, []),
   (16, [(1, 15, 1, 0)]),
   (1, []),
   (48, [(0, 8, 0, 4), (1, 8, 0, -1)]),
   (48, [(0, 18, 8, 0), (1, 19, 0, -1), (1, 21, 0, -1)]),
   (16, [(1, 19, 1, 0)]),
   (16, [(1, 20, 1, 0)]),
   (16, [(1, 21, 1, 0)]),
   (1, []),
   (48, [(0, 20, 0, 4), (1, 20, 0, -1)]),
   (16, [(1, 24, 1, 0)]),
   (48, [(0, 24, 0, 4), (1, 24, 0, -1)]),
   (1, [])]

theorem check_dipole_C_6v : checkTable 3 [.C6z, .mx] dipole_C_6v cert_dipole_C_6v = true := by decide +kernel

/-- For `dipole['D_6']`. -/
def cert_dipole_D_6 : List Cert :=
  [(64, [(0, 0, 10, 0), (0, 1, 0, -2), (0, 3, 0, -2), (0, 4, 6, 0), (1, 1, 0, 1), (1, 3, 0, 1), (1, 9, 0, -1), (1, 13, 0, -3)]),
   (16, [(1, 1, 1, 0)]),
   (16, [(1, 2, 1, 0)]),
   (16, [(1, 3, 1, 0)]),
   (64, [(0, 0, 6, 0), (0, 1, 0, 2), (0, 3, 0, 2), (0, 4, 10, 0), (1, 1, 0, -1), (1, 3, 0, -1), (1, 9, 0, -3), (1, 13, 0, -1)]),
   (48, [(0, 2, 0, 8), (1, 2, 0, -3), (1, 14, 0, 3)]),
   (16, [(1, 6, 1, 0)]),
   (48, [(0, 6, 0, 8), (1, 6, 0, -3), (1, 16, 0, 3)]),
   (16, [(0, 8, 4, 0), (1, 17, 0, -1)]),
   (16, [(1, 9, 1, 0)]),
   (192, [(0, 0, -6, 0), (0, 1, 0, -2), (0, 3, 0, -18), (0, 4, 6, 0), (1, 1, 0, 5), (1, 3, 0, 9), (1, 9, 0, 3), (1, 13, 0, -3)]),
   (1, []),
   (192, [(0, 0, -6, 0), (0, 1, 0, -18), (0, 3, 0, -2), (0, 4, 6, 0), (1, 1, 0, 9), (1, 3, 0, 5), (1, 9, 0, 3), (1, 13, 0, -3)]),
   (16, [(1, 13, 1, 0)]),
   (16, [(1, 14, 1, 0)]),
   (1, []),
   (16, [(1, 16, 1, 0)]),
   (16, [(1, 17, 1, 0)]),
   (16, [(1, 18, 1, 0)]),
   (48, [(0, 18, 0, 8), (1, 18, 0, -3), (1, 22, 0, 3)]),
   (16, [(0, 20, 4, 0), (1, 23, 0, -1)]),
   (1, []),
   (16, [(1, 22, 1, 0)]),
   (16, [(1, 23, 1, 0)]),
   (16, [(0, 24, 4, 0), (1, 25, 0, -1)]),
   (16, [(1, 25, 1, 0)]),
   (16, [(1, 26, 1, 0)])]

theorem check_dipole_D_6 : checkTable 3 [.C6z, .C2x] dipole_D_6 cert_dipole_D_6 = true := by decide +kernel

/-- For `dipole['D_3h']`. -/
def cert_dipole_D_3h : List Cert :=
  [(16, [(2, 0, 1, 0)]),
   (48, [(0, 1, 4, 0), (0, 3, -4, 0), (2, 10, 0, -1), (2, 12, 0, 1)]),
   (16, [(1, 2, 1, 0)]),
   (1, []),
   (16, [(2, 4, 1, 0)]),
   (16, [(1, 5, 1, 0)]),
   (16, [(1, 6, 1, 0)]),
   (16, [(1, 7, 1, 0)]),
   (16, [(2, 8, 1, 0)]),
   (48, [(0, 0, 0, 4), (0, 1, -4, 0), (0, 3, -8, 0), (2, 0, 0, -3), (2, 10, 0, -2), (2, 12, 0, -1)]),
   (16, [(2, 10, 1, 0)]),
   (16, [(1, 11, 1, 0)]),
   (16, [(2, 12, 1, 0)]),
   (48, [(0, 0, 0, 4), (0, 3, 4, 0), (2, 0, 0, -2), (2, 4, 0, -1), (2, 12, 0, -1)]),
   (16, [(1, 14, 1, 0)]),
   (16, [(1, 15, 1, 0)]),
   (16, [(1, 16, 1, 0)]),
   (48, [(0, 8, 0, 4), (2, 8, 0, -3)]),
   (16, [(1, 18, 1, 0)]),
   (16, [(1, 19, 1, 0)]),
   (16, [(2, 20, 1, 0)]),
   (16, [(1, 21, 1, 0)]),
   (16, [(1, 22, 1, 0)]),
   (48, [(0, 20, 0, 4), (2, 20, 0, -3)]),
   (16, [(2, 24, 1, 0)]),
   (48, [(0, 24, 0, 4), (2, 24, 0, -3)]),
   (16, [(1, 26, 1, 0)])]

theorem check_dipole_D_3h : checkTable 3 [.C3z, .mz, .mx] dipole_D_3h cert_dipole_D_3h = true := by decide +kernel

/-- For `dipole['C_1']`. -/
def cert_dipole_C_1 : List Cert :=
  [(1, []),
   (1, []),
   (1, []),
   (1, []),
   (1, []),
   (1, []),
   (1, []),
   (1, []),
   (1, []),
   (1, []),
   (1, []),
   (1, []),
   (1, []),
   (1, []),
   (1, []),
   (1, []),
   (1, []),
   (1, []),
   (1, []),
   (1, []),
   (1, []),
   (1, []),
   (1, []),
   (1, []),
   (1, []),
   (1, []),
   (1, [])]

theorem check_dipole_C_1 : checkTable 3 [] dipole_C_1 cert_dipole_C_1 = true := by decide +kernel

/-- For `quadrupole['Isotropic']`. -/
def cert_quadrupole_Isotropic : List Cert :=
  [(96, [(0, 0, -9, 0), (0, 1, 0, 3), (0, 3, 0, 3), (0, 4, 3, 0), (0, 9, 0, 3), (0, 10, 3, 0), (0, 12, 3, 0), (0, 13, 0, 1), (0, 54, 0, 1), (0, 62, 0, -1), (0, 67, 0, -1), (0, 71, 0, 1), (0, 74, 0, -1), (0, 77, 0, 1), (0, 78, 0, -1), (0, 79, 0, 1), (1, 1, 0, -2), (1, 3, 0, -2), (1, 9, 0, -2), (1, 13, 0, 2), (2, 0, 16, 0)]),
   (32, [(0, 78, 1, 0), (0, 79, -1, 0), (1, 1, 2, 0)]),
   (32, [(0, 2, 1, 0), (0, 41, -1, 0)]),
   (32, [(0, 74, 1, 0), (0, 77, -1, 0), (1, 3, 2, 0)]),
   (16, [(0, 4, 1, 0)]),
   (32, [(0, 5, 1, 0), (0, 38, 1, 0)]),
   (32, [(0, 6, 1, 0), (0, 43, -1, 0)]),
   (32, [(0, 7, 1, 0), (0, 42, 1, 0)]),
   (16, [(0, 4, 1, 0), (0, 72, -1, 0), (1, 4, -1, 0), (1, 8, 1, 0)]),
   (32, [(0, 62, 1, 0), (0, 71, -1, 0), (1, 9, 2, 0)]),
   (16, [(0, 10, 1, 0)]),
   (32, [(0, 11, 1, 0), (0, 32, 1, 0)]),
   (16, [(0, 12, 1, 0)]),
   (32, [(0, 54, 1, 0), (0, 67, -1, 0), (1, 13, 2, 0)]),
   (32, [(0, 14, 1, 0), (0, 29, -1, 0)]),
   (32, [(0, 15, 1, 0), (0, 34, 1, 0)]),
   (32, [(0, 16, 1, 0), (0, 33, -1, 0)]),
   (32, [(0, 58, 1, 0), (0, 63, -1, 0), (1, 17, 2, 0)]),
   (32, [(0, 18, 1, 0), (0, 49, -1, 0)]),
   (32, [(0, 19, 1, 0), (0, 48, 1, 0)]),
   (16, [(0, 10, 1, 0), (0, 60, -1, 0), (1, 10, -1, 0), (1, 20, 1, 0)]),
   (32, [(0, 21, 1, 0), (0, 46, 1, 0)]),
   (32, [(0, 22, 1, 0), (0, 45, -1, 0)]),
   (32, [(0, 57, -1, 0), (0, 64, 1, 0), (1, 23, 2, 0)]),
   (16, [(0, 12, 1, 0), (0, 56, -1, 0), (1, 12, -1, 0), (1, 24, 1, 0)]),
   (32, [(0, 55, -1, 0), (0, 66, 1, 0), (1, 25, 2, 0)]),
   (32, [(0, 26, 1, 0), (0, 53, -1, 0)]),
   (32, [(0, 13, 2, 0), (0, 54, -1, 0), (0, 67, 1, 0), (1, 13, -2, 0)]),
   (1, []),
   (32, [(0, 14, 1, 0), (0, 29, 1, 0)]),
   (1, []),
   (32, [(0, 9, 2, 0), (0, 62, -1, 0), (0, 71, 1, 0), (1, 9, -2, 0)]),
   (32, [(0, 11, -1, 0), (0, 32, 1, 0)]),
   (32, [(0, 16, 1, 0), (0, 33, 1, 0)]),
   (32, [(0, 15, -1, 0), (0, 34, 1, 0)]),
   (32, [(0, 17, 2, 0), (0, 58, -1, 0), (0, 63, 1, 0), (1, 17, -2, 0)]),
   (1, []),
   (32, [(0, 3, 2, 0), (0, 74, -1, 0), (0, 77, 1, 0), (1, 3, -2, 0)]),
   (32, [(0, 5, -1, 0), (0, 38, 1, 0)]),
   (32, [(0, 1, 2, 0), (0, 78, -1, 0), (0, 79, 1, 0), (1, 1, -2, 0)]),
   (96, [(0, 0, -15, 0), (0, 1, 0, 3), (0, 3, 0, 3), (0, 4, 3, 0), (0, 9, 0, 3), (0, 10, 3, 0), (0, 12, 3, 0), (0, 13, 0, 1), (0, 54, 0, 1), (0, 62, 0, -1), (0, 67, 0, -1), (0, 71, 0, 1), (0, 74, 0, -1), (0, 77, 0, 1), (0, 78, 0, -1), (0, 79, 0, 1), (1, 1, 0, -2), (1, 3, 0, -2), (1, 9, 0, -2), (1, 13, 0, 2), (2, 0, 16, 0)]),
   (32, [(0, 2, 1, 0), (0, 41, 1, 0)]),
   (32, [(0, 7, -1, 0), (0, 42, 1, 0)]),
   (32, [(0, 6, 1, 0), (0, 43, 1, 0)]),
   (16, [(0, 4, 1, 0), (0, 8, -1, 0), (0, 72, -1, 0), (1, 4, -1, 0), (1, 8, 1, 0)]),
   (32, [(0, 22, 1, 0), (0, 45, 1, 0)]),
   (32, [(0, 21, -1, 0), (0, 46, 1, 0)]),
   (32, [(0, 23, 2, 0), (0, 57, 1, 0), (0, 64, -1, 0), (1, 23, -2, 0)]),
   (32, [(0, 19, -1, 0), (0, 48, 1, 0)]),
   (32, [(0, 18, 1, 0), (0, 49, 1, 0)]),
   (16, [(0, 10, 1, 0), (0, 20, -1, 0), (0, 60, -1, 0), (1, 10, -1, 0), (1, 20, 1, 0)]),
   (32, [(0, 25, 2, 0), (0, 55, 1, 0), (0, 66, -1, 0), (1, 25, -2, 0)]),
   (16, [(0, 12, 1, 0), (0, 24, -1, 0), (0, 56, -1, 0), (1, 12, -1, 0), (1, 24, 1, 0)]),
   (32, [(0, 26, 1, 0), (0, 53, 1, 0)]),
   (32, [(0, 54, 1, 0), (0, 67, -1, 0)]),
   (32, [(0, 55, 1, 0), (0, 66, 1, 0)]),
   (16, [(0, 12, 1, 0), (1, 12, -1, 0)]),
   (32, [(0, 57, 1, 0), (0, 64, 1, 0)]),
   (32, [(0, 58, 1, 0), (0, 63, -1, 0)]),
   (32, [(0, 15, 1, 0), (0, 34, 1, 0), (1, 15, -2, 0)]),
   (16, [(0, 10, 1, 0), (1, 10, -1, 0)]),
   (32, [(0, 11, 1, 0), (0, 32, 1, 0), (1, 11, -2, 0)]),
   (32, [(0, 62, 1, 0), (0, 71, -1, 0)]),
   (32, [(0, 58, 1, 0), (0, 63, 1, 0)]),
   (32, [(0, 57, -1, 0), (0, 64, 1, 0)]),
   (32, [(0, 15, -1, 0), (0, 34, -1, 0), (0, 59, 2, 0), (1, 15, 2, 0)]),
   (32, [(0, 55, -1, 0), (0, 66, 1, 0)]),
   (32, [(0, 54, 1, 0), (0, 67, 1, 0)]),
   (16, [(0, 12, 1, 0), (0, 56, -1, 0), (1, 12, -1, 0)]),
   (32, [(0, 11, -1, 0), (0, 32, -1, 0), (0, 61, 2, 0), (1, 11, 2, 0)]),
   (16, [(0, 10, 1, 0), (0, 60, -1, 0), (1, 10, -1, 0)]),
   (32, [(0, 62, 1, 0), (0, 71, 1, 0)]),
   (16, [(0, 4, 1, 0), (1, 4, -1, 0)]),
   (32, [(0, 5, 1, 0), (0, 38, 1, 0), (1, 5, -2, 0)]),
   (32, [(0, 74, 1, 0), (0, 77, -1, 0)]),
   (32, [(0, 5, -1, 0), (0, 38, -1, 0), (0, 73, 2, 0), (1, 5, 2, 0)]),
   (16, [(0, 4, 1, 0), (0, 72, -1, 0), (1, 4, -1, 0)]),
   (32, [(0, 74, 1, 0), (0, 77, 1, 0)]),
   (32, [(0, 78, 1, 0), (0, 79, -1, 0)]),
   (32, [(0, 78, 1, 0), (0, 79, 1, 0)]),
   (96, [(0, 0, -9, 0), (0, 1, 0, 3), (0, 3, 0, 3), (0, 4, 3, 0), (0, 9, 0, 3), (0, 10, 3, 0), (0, 12, 3, 0), (0, 13, 0, 1), (0, 54, 0, 1), (0, 62, 0, -1), (0, 67, 0, -1), (0, 71, 0, 1), (0, 74, 0, -1), (0, 77, 0, 1), (0, 78, 0, -1), (0, 79, 0, 1), (1, 0, -6, 0), (1, 1, 0, -2), (1, 3, 0, -2), (1, 9, 0, -2), (1, 13, 0, 2), (2, 0, 16, 0)])]

theorem check_quadrupole_Isotropic : checkTable 4 [.C4z, .C3d, .C3z] quadrupole_Isotropic cert_quadrupole_Isotropic = true := by decide +kernel

/-- For `quadrupole['T']`. -/
def cert_quadrupole_T : List Cert :=
  [(16, [(1, 0, 1, 0)]),
   (32, [(0, 78, 1, 0), (1, 1, 2, 0)]),
   (32, [(0, 2, 1, 0)]),
   (32, [(0, 74, 1, 0), (1, 3, 2, 0)]),
   (1, []),
   (32, [(0, 5, 1, 0)]),
   (32, [(0, 6, 1, 0)]),
   (32, [(0, 7, 1, 0)]),
   (16, [(1, 36, -1, 0)]),
   (32, [(0, 62, 1, 0), (1, 9, 2, 0)]),
   (1, []),
   (32, [(0, 11, 1, 0)]),
   (1, []),
   (32, [(0, 54, 1, 0), (1, 13, 2, 0)]),
   (32, [(0, 14, 1, 0)]),
   (32, [(0, 15, 1, 0)]),
   (32, [(0, 16, 1, 0)]),
   (32, [(0, 58, 1, 0), (1, 17, 2, 0)]),
   (32, [(0, 18, 1, 0)]),
   (32, [(0, 19, 1, 0)]),
   (16, [(1, 30, -1, 0)]),
   (32, [(0, 21, 1, 0)]),
   (32, [(0, 22, 1, 0)]),
   (32, [(0, 64, 1, 0), (1, 23, 2, 0)]),
   (16, [(1, 28, -1, 0)]),
   (32, [(0, 66, 1, 0), (1, 25, 2, 0)]),
   (32, [(0, 26, 1, 0)]),
   (32, [(0, 26, 1, 0), (1, 27, 2, 0)]),
   (1, []),
   (32, [(0, 29, 1, 0)]),
   (1, []),
   (32, [(0, 18, 1, 0), (1, 31, 2, 0)]),
   (32, [(0, 32, 1, 0)]),
   (32, [(0, 33, 1, 0)]),
   (32, [(0, 34, 1, 0)]),
   (32, [(0, 22, 1, 0), (1, 35, 2, 0)]),
   (1, []),
   (32, [(0, 6, 1, 0), (1, 37, 2, 0)]),
   (32, [(0, 38, 1, 0)]),
   (32, [(0, 2, 1, 0), (1, 39, 2, 0)]),
   (16, [(1, 0, 1, 0), (1, 40, 1, 0)]),
   (32, [(0, 41, 1, 0)]),
   (32, [(0, 42, 1, 0)]),
   (32, [(0, 43, 1, 0)]),
   (16, [(1, 44, 1, 0)]),
   (32, [(0, 45, 1, 0)]),
   (32, [(0, 46, 1, 0)]),
   (32, [(0, 16, 1, 0), (1, 47, 2, 0)]),
   (32, [(0, 48, 1, 0)]),
   (32, [(0, 49, 1, 0)]),
   (16, [(1, 50, 1, 0)]),
   (32, [(0, 14, 1, 0), (1, 51, 2, 0)]),
   (16, [(1, 52, 1, 0)]),
   (32, [(0, 53, 1, 0)]),
   (32, [(0, 54, 1, 0)]),
   (32, [(0, 55, 1, 0)]),
   (16, [(1, 12, -1, 0)]),
   (32, [(0, 57, 1, 0)]),
   (32, [(0, 58, 1, 0)]),
   (32, [(0, 15, 1, 0), (1, 15, -2, 0)]),
   (16, [(1, 10, -1, 0)]),
   (32, [(0, 11, 1, 0), (1, 11, -2, 0)]),
   (32, [(0, 62, 1, 0)]),
   (32, [(0, 63, 1, 0)]),
   (32, [(0, 64, 1, 0)]),
   (32, [(0, 21, 1, 0), (1, 21, -2, 0)]),
   (32, [(0, 66, 1, 0)]),
   (32, [(0, 67, 1, 0)]),
   (16, [(1, 24, -1, 0), (1, 28, -1, 0)]),
   (32, [(0, 19, 1, 0), (1, 19, -2, 0)]),
   (16, [(1, 20, -1, 0), (1, 30, -1, 0)]),
   (32, [(0, 71, 1, 0)]),
   (16, [(1, 4, -1, 0)]),
   (32, [(0, 5, 1, 0), (1, 5, -2, 0)]),
   (32, [(0, 74, 1, 0)]),
   (32, [(0, 7, 1, 0), (1, 7, -2, 0)]),
   (16, [(1, 8, -1, 0), (1, 36, -1, 0)]),
   (32, [(0, 77, 1, 0)]),
   (32, [(0, 78, 1, 0)]),
   (32, [(0, 79, 1, 0)]),
   (1, [])]

theorem check_quadrupole_T : checkTable 4 [.C2z, .C3d] quadrupole_T cert_quadrupole_T = true := by decide +kernel

/-- For `quadrupole['T_h']`. -/
def cert_quadrupole_T_h : List Cert :=
  [(16, [(1, 0, 1, 0)]),
   (32, [(0, 78, 1, 0), (1, 1, 2, 0)]),
   (32, [(0, 2, 1, 0)]),
   (32, [(0, 74, 1, 0), (1, 3, 2, 0)]),
   (1, []),
   (32, [(0, 5, 1, 0)]),
   (32, [(0, 6, 1, 0)]),
   (32, [(0, 7, 1, 0)]),
   (16, [(1, 36, -1, 0)]),
   (32, [(0, 62, 1, 0), (1, 9, 2, 0)]),
   (1, []),
   (32, [(0, 11, 1, 0)]),
   (1, []),
   (32, [(0, 54, 1, 0), (1, 13, 2, 0)]),
   (32, [(0, 14, 1, 0)]),
   (32, [(0, 15, 1, 0)]),
   (32, [(0, 16, 1, 0)]),
   (32, [(0, 58, 1, 0), (1, 17, 2, 0)]),
   (32, [(0, 18, 1, 0)]),
   (32, [(0, 19, 1, 0)]),
   (16, [(1, 30, -1, 0)]),
   (32, [(0, 21, 1, 0)]),
   (32, [(0, 22, 1, 0)]),
   (32, [(0, 64, 1, 0), (1, 23, 2, 0)]),
   (16, [(1, 28, -1, 0)]),
   (32, [(0, 66, 1, 0), (1, 25, 2, 0)]),
   (32, [(0, 26, 1, 0)]),
   (32, [(0, 26, 1, 0), (1, 27, 2, 0)]),
   (1, []),
   (32, [(0, 29, 1, 0)]),
   (1, []),
   (32, [(0, 18, 1, 0), (1, 31, 2, 0)]),
   (32, [(0, 32, 1, 0)]),
   (32, [(0, 33, 1, 0)]),
   (32, [(0, 34, 1, 0)]),
   (32, [(0, 22, 1, 0), (1, 35, 2, 0)]),
   (1, []),
   (32, [(0, 6, 1, 0), (1, 37, 2, 0)]),
   (32, [(0, 38, 1, 0)]),
   (32, [(0, 2, 1, 0), (1, 39, 2, 0)]),
   (16, [(1, 0, 1, 0), (1, 40, 1, 0)]),
   (32, [(0, 41, 1, 0)]),
   (32, [(0, 42, 1, 0)]),
   (32, [(0, 43, 1, 0)]),
   (16, [(1, 44, 1, 0)]),
   (32, [(0, 45, 1, 0)]),
   (32, [(0, 46, 1, 0)]),
   (32, [(0, 16, 1, 0), (1, 47, 2, 0)]),
   (32, [(0, 48, 1, 0)]),
   (32, [(0, 49, 1, 0)]),
   (16, [(1, 50, 1, 0)]),
   (32, [(0, 14, 1, 0), (1, 51, 2, 0)]),
   (16, [(1, 52, 1, 0)]),
   (32, [(0, 53, 1, 0)]),
   (32, [(0, 54, 1, 0)]),
   (32, [(0, 55, 1, 0)]),
   (16, [(1, 12, -1, 0)]),
   (32, [(0, 57, 1, 0)]),
   (32, [(0, 58, 1, 0)]),
   (32, [(0, 15, 1, 0), (1, 15, -2, 0)]),
   (16, [(1, 10, -1, 0)]),
   (32, [(0, 11, 1, 0), (1, 11, -2, 0)]),
   (32, [(0, 62, 1, 0)]),
   (32, [(0, 63, 1, 0)]),
   (32, [(0, 64, 1, 0)]),
   (32, [(0, 21, 1, 0), (1, 21, -2, 0)]),
   (32, [(0, 66, 1, 0)]),
   (32, [(0, 67, 1, 0)]),
   (16, [(1, 24, -1, 0), (1, 28, -1, 0)]),
   (32, [(0, 19, 1, 0), (1, 19, -2, 0)]),
   (16, [(1, 20, -1, 0), (1, 30, -1, 0)]),
   (32, [(0, 71, 1, 0)]),
   (16, [(1, 4, -1, 0)]),
   (32, [(0, 5, 1, 0), (1, 5, -2, 0)]),
   (32, [(0, 74, 1, 0)]),
   (32, [(0, 7, 1, 0), (1, 7, -2, 0)]),
   (16, [(1, 8, -1, 0), (1, 36, -1, 0)]),
   (32, [(0, 77, 1, 0)]),
   (32, [(0, 78, 1, 0)]),
   (32, [(0, 79, 1, 0)]),
   (1, [])]

theorem check_quadrupole_T_h : checkTable 4 [.C2z, .C3d, .inv] quadrupole_T_h cert_quadrupole_T_h = true := by decide +kernel

/-- For `quadrupole['O_h']`. -/
def cert_quadrupole_O_h : List Cert :=
  [(16, [(1, 0, 1, 0)]),
   (32, [(0, 78, 1, 0), (0, 79, -1, 0), (1, 1, 2, 0)]),
   (32, [(0, 2, 1, 0), (0, 41, -1, 0)]),
   (32, [(0, 74, 1, 0), (0, 77, -1, 0), (1, 3, 2, 0)]),
   (16, [(0, 4, 1, 0)]),
   (32, [(0, 5, 1, 0), (0, 38, 1, 0)]),
   (32, [(0, 6, 1, 0), (0, 43, -1, 0)]),
   (32, [(0, 7, 1, 0), (0, 42, 1, 0)]),
   (16, [(0, 4, 1, 0), (0, 72, -1, 0), (1, 4, -1, 0), (1, 8, 1, 0)]),
   (32, [(0, 62, 1, 0), (0, 71, -1, 0), (1, 9, 2, 0)]),
   (16, [(0, 10, 1, 0)]),
   (32, [(0, 11, 1, 0), (0, 32, 1, 0)]),
   (16, [(0, 12, 1, 0)]),
   (32, [(0, 54, 1, 0), (0, 67, -1, 0), (1, 13, 2, 0)]),
   (32, [(0, 14, 1, 0), (0, 29, -1, 0)]),
   (32, [(0, 15, 1, 0), (0, 34, 1, 0)]),
   (32, [(0, 16, 1, 0), (0, 33, -1, 0)]),
   (32, [(0, 58, 1, 0), (0, 63, -1, 0), (1, 17, 2, 0)]),
   (32, [(0, 18, 1, 0), (0, 49, -1, 0)]),
   (32, [(0, 19, 1, 0), (0, 48, 1, 0)]),
   (16, [(0, 10, 1, 0), (0, 60, -1, 0), (1, 10, -1, 0), (1, 20, 1, 0)]),
   (32, [(0, 21, 1, 0), (0, 46, 1, 0)]),
   (32, [(0, 22, 1, 0), (0, 45, -1, 0)]),
   (32, [(0, 57, -1, 0), (0, 64, 1, 0), (1, 23, 2, 0)]),
   (16, [(0, 12, 1, 0), (0, 56, -1, 0), (1, 12, -1, 0), (1, 24, 1, 0)]),
   (32, [(0, 55, -1, 0), (0, 66, 1, 0), (1, 25, 2, 0)]),
   (32, [(0, 26, 1, 0), (0, 53, -1, 0)]),
   (32, [(0, 13, 2, 0), (0, 54, -1, 0), (0, 67, 1, 0), (1, 13, -2, 0)]),
   (1, []),
   (32, [(0, 14, 1, 0), (0, 29, 1, 0)]),
   (1, []),
   (32, [(0, 9, 2, 0), (0, 62, -1, 0), (0, 71, 1, 0), (1, 9, -2, 0)]),
   (32, [(0, 11, -1, 0), (0, 32, 1, 0)]),
   (32, [(0, 16, 1, 0), (0, 33, 1, 0)]),
   (32, [(0, 15, -1, 0), (0, 34, 1, 0)]),
   (32, [(0, 17, 2, 0), (0, 58, -1, 0), (0, 63, 1, 0), (1, 17, -2, 0)]),
   (1, []),
   (32, [(0, 3, 2, 0), (0, 74, -1, 0), (0, 77, 1, 0), (1, 3, -2, 0)]),
   (32, [(0, 5, -1, 0), (0, 38, 1, 0)]),
   (32, [(0, 1, 2, 0), (0, 78, -1, 0), (0, 79, 1, 0), (1, 1, -2, 0)]),
   (16, [(0, 0, -1, 0), (1, 0, 1, 0)]),
   (32, [(0, 2, 1, 0), (0, 41, 1, 0)]),
   (32, [(0, 7, -1, 0), (0, 42, 1, 0)]),
   (32, [(0, 6, 1, 0), (0, 43, 1, 0)]),
   (16, [(0, 4, 1, 0), (0, 8, -1, 0), (0, 72, -1, 0), (1, 4, -1, 0), (1, 8, 1, 0)]),
   (32, [(0, 22, 1, 0), (0, 45, 1, 0)]),
   (32, [(0, 21, -1, 0), (0, 46, 1, 0)]),
   (32, [(0, 23, 2, 0), (0, 57, 1, 0), (0, 64, -1, 0), (1, 23, -2, 0)]),
   (32, [(0, 19, -1, 0), (0, 48, 1, 0)]),
   (32, [(0, 18, 1, 0), (0, 49, 1, 0)]),
   (16, [(0, 10, 1, 0), (0, 20, -1, 0), (0, 60, -1, 0), (1, 10, -1, 0), (1, 20, 1, 0)]),
   (32, [(0, 25, 2, 0), (0, 55, 1, 0), (0, 66, -1, 0), (1, 25, -2, 0)]),
   (16, [(0, 12, 1, 0), (0, 24, -1, 0), (0, 56, -1, 0), (1, 12, -1, 0), (1, 24, 1, 0)]),
   (32, [(0, 26, 1, 0), (0, 53, 1, 0)]),
   (32, [(0, 54, 1, 0), (0, 67, -1, 0)]),
   (32, [(0, 55, 1, 0), (0, 66, 1, 0)]),
   (16, [(0, 12, 1, 0), (1, 12, -1, 0)]),
   (32, [(0, 57, 1, 0), (0, 64, 1, 0)]),
   (32, [(0, 58, 1, 0), (0, 63, -1, 0)]),
   (32, [(0, 15, 1, 0), (0, 34, 1, 0), (1, 15, -2, 0)]),
   (16, [(0, 10, 1, 0), (1, 10, -1, 0)]),
   (32, [(0, 11, 1, 0), (0, 32, 1, 0), (1, 11, -2, 0)]),
   (32, [(0, 62, 1, 0), (0, 71, -1, 0)]),
   (32, [(0, 58, 1, 0), (0, 63, 1, 0)]),
   (32, [(0, 57, -1, 0), (0, 64, 1, 0)]),
   (32, [(0, 15, -1, 0), (0, 34, -1, 0), (0, 59, 2, 0), (1, 15, 2, 0)]),
   (32, [(0, 55, -1, 0), (0, 66, 1, 0)]),
   (32, [(0, 54, 1, 0), (0, 67, 1, 0)]),
   (16, [(0, 12, 1, 0), (0, 56, -1, 0), (1, 12, -1, 0)]),
   (32, [(0, 11, -1, 0), (0, 32, -1, 0), (0, 61, 2, 0), (1, 11, 2, 0)]),
   (16, [(0, 10, 1, 0), (0, 60, -1, 0), (1, 10, -1, 0)]),
   (32, [(0, 62, 1, 0), (0, 71, 1, 0)]),
   (16, [(0, 4, 1, 0), (1, 4, -1, 0)]),
   (32, [(0, 5, 1, 0), (0, 38, 1, 0), (1, 5, -2, 0)]),
   (32, [(0, 74, 1, 0), (0, 77, -1, 0)]),
   (32, [(0, 5, -1, 0), (0, 38, -1, 0), (0, 73, 2, 0), (1, 5, 2, 0)]),
   (16, [(0, 4, 1, 0), (0, 72, -1, 0), (1, 4, -1, 0)]),
   (32, [(0, 74, 1, 0), (0, 77, 1, 0)]),
   (32, [(0, 78, 1, 0), (0, 79, -1, 0)]),
   (32, [(0, 78, 1, 0), (0, 79, 1, 0)]),
   (1, [])]

theorem check_quadrupole_O_h : checkTable 4 [.C4z, .C3d, .inv] quadrupole_O_h cert_quadrupole_O_h = true := by decide +kernel

/-- For `quadrupole['O']`. -/
def cert_quadrupole_O : List Cert :=
  [(16, [(1, 0, 1, 0)]),
   (32, [(0, 78, 1, 0), (0, 79, -1, 0), (1, 1, 2, 0)]),
   (32, [(0, 2, 1, 0), (0, 41, -1, 0)]),
   (32, [(0, 74, 1, 0), (0, 77, -1, 0), (1, 3, 2, 0)]),
   (16, [(0, 4, 1, 0)]),
   (32, [(0, 5, 1, 0), (0, 38, 1, 0)]),
   (32, [(0, 6, 1, 0), (0, 43, -1, 0)]),
   (32, [(0, 7, 1, 0), (0, 42, 1, 0)]),
   (16, [(0, 4, 1, 0), (0, 72, -1, 0), (1, 4, -1, 0), (1, 8, 1, 0)]),
   (32, [(0, 62, 1, 0), (0, 71, -1, 0), (1, 9, 2, 0)]),
   (16, [(0, 10, 1, 0)]),
   (32, [(0, 11, 1, 0), (0, 32, 1, 0)]),
   (16, [(0, 12, 1, 0)]),
   (32, [(0, 54, 1, 0), (0, 67, -1, 0), (1, 13, 2, 0)]),
   (32, [(0, 14, 1, 0), (0, 29, -1, 0)]),
   (32, [(0, 15, 1, 0), (0, 34, 1, 0)]),
   (32, [(0, 16, 1, 0), (0, 33, -1, 0)]),
   (32, [(0, 58, 1, 0), (0, 63, -1, 0), (1, 17, 2, 0)]),
   (32, [(0, 18, 1, 0), (0, 49, -1, 0)]),
   (32, [(0, 19, 1, 0), (0, 48, 1, 0)]),
   (16, [(0, 10, 1, 0), (0, 60, -1, 0), (1, 10, -1, 0), (1, 20, 1, 0)]),
   (32, [(0, 21, 1, 0), (0, 46, 1, 0)]),
   (32, [(0, 22, 1, 0), (0, 45, -1, 0)]),
   (32, [(0, 57, -1, 0), (0, 64, 1, 0), (1, 23, 2, 0)]),
   (16, [(0, 12, 1, 0), (0, 56, -1, 0), (1, 12, -1, 0), (1, 24, 1, 0)]),
   (32, [(0, 55, -1, 0), (0, 66, 1, 0), (1, 25, 2, 0)]),
   (32, [(0, 26, 1, 0), (0, 53, -1, 0)]),
   (32, [(0, 13, 2, 0), (0, 54, -1, 0), (0, 67, 1, 0), (1, 13, -2, 0)]),
   (1, []),
   (32, [(0, 14, 1, 0), (0, 29, 1, 0)]),
   (1, []),
   (32, [(0, 9, 2, 0), (0, 62, -1, 0), (0, 71, 1, 0), (1, 9, -2, 0)]),
   (32, [(0, 11, -1, 0), (0, 32, 1, 0)]),
   (32, [(0, 16, 1, 0), (0, 33, 1, 0)]),
   (32, [(0, 15, -1, 0), (0, 34, 1, 0)]),
   (32, [(0, 17, 2, 0), (0, 58, -1, 0), (0, 63, 1, 0), (1, 17, -2, 0)]),
   (1, []),
   (32, [(0, 3, 2, 0), (0, 74, -1, 0), (0, 77, 1, 0), (1, 3, -2, 0)]),
   (32, [(0, 5, -1, 0), (0, 38, 1, 0)]),
   (32, [(0, 1, 2, 0), (0, 78, -1, 0), (0, 79, 1, 0), (1, 1, -2, 0)]),
   (16, [(0, 0, -1, 0), (1, 0, 1, 0)]),
   (32, [(0, 2, 1, 0), (0, 41, 1, 0)]),
   (32, [(0, 7, -1, 0), (0, 42, 1, 0)]),
   (32, [(0, 6, 1, 0), (0, 43, 1, 0)]),
   (16, [(0, 4, 1, 0), (0, 8, -1, 0), (0, 72, -1, 0), (1, 4, -1, 0), (1, 8, 1, 0)]),
   (32, [(0, 22, 1, 0), (0, 45, 1, 0)]),
   (32, [(0, 21, -1, 0), (0, 46, 1, 0)]),
   (32, [(0, 23, 2, 0), (0, 57, 1, 0), (0, 64, -1, 0), (1, 23, -2, 0)]),
   (32, [(0, 19, -1, 0), (0, 48, 1, 0)]),
   (32, [(0, 18, 1, 0), (0, 49, 1, 0)]),
   (16, [(0, 10, 1, 0), (0, 20, -1, 0), (0, 60, -1, 0), (1, 10, -1, 0), (1, 20, 1, 0)]),
   (32, [(0, 25, 2, 0), (0, 55, 1, 0), (0, 66, -1, 0), (1, 25, -2, 0)]),
   (16, [(0, 12, 1, 0), (0, 24, -1, 0), (0, 56, -1, 0), (1, 12, -1, 0), (1, 24, 1, 0)]),
   (32, [(0, 26, 1, 0), (0, 53, 1, 0)]),
   (32, [(0, 54, 1, 0), (0, 67, -1, 0)]),
   (32, [(0, 55, 1, 0), (0, 66, 1, 0)]),
   (16, [(0, 12, 1, 0), (1, 12, -1, 0)]),
   (32, [(0, 57, 1, 0), (0, 64, 1, 0)]),
   (32, [(0, 58, 1, 0), (0, 63, -1, 0)]),
   (32, [(0, 15, 1, 0), (0, 34, 1, 0), (1, 15, -2, 0)]),
   (16, [(0, 10, 1, 0), (1, 10, -1, 0)]),
   (32, [(0, 11, 1, 0), (0, 32, 1, 0), (1, 11, -2, 0)]),
   (32, [(0, 62, 1, 0), (0, 71, -1, 0)]),
   (32, [(0, 58, 1, 0), (0, 63, 1, 0)]),
   (32, [(0, 57, -1, 0), (0, 64, 1, 0)]),
   (32, [(0, 15, -1, 0), (0, 34, -1, 0), (0, 59, 2, 0), (1, 15, 2, 0)]),
   (32, [(0, 55, -1, 0), (0, 66, 1, 0)]),
   (32, [(0, 54, 1, 0), (0, 67, 1, 0)]),
   (16, [(0, 12, 1, 0), (0, 56, -1, 0), (1, 12, -1, 0)]),
   (32, [(0, 11, -1, 0), (0, 32, -1, 0), (0, 61, 2, 0), (1, 11, 2, 0)]),
   (16, [(0, 10, 1, 0), (0, 60, -1, 0), (1, 10, -1, 0)]),
   (32, [(0, 62, 1, 0), (0, 71, 1, 0)]),
   (16, [(0, 4, 1, 0), (1, 4, -1, 0)]),
   (32, [(0, 5, 1, 0), (0, 38, 1, 0), (1, 5, -2, 0)]),
   (32, [(0, 74, 1, 0), (0, 77, -1, 0)]),
   (32, [(0, 5, -1, 0), (0, 38, -1, 0), (0, 73, 2, 0), (1, 5, 2, 0)]),
   (16, [(0, 4, 1, 0), (0, 72, -1, 0), (1, 4, -1, 0)]),
   (32, [(0, 74, 1, 0), (0, 77, 1, 0)]),
   (32, [(0, 78, 1, 0), (0, 79, -1, 0)]),
   (32, [(0, 78, 1, 0), (0, 79, 1, 0)]),
   (1, [])]

theorem check_quadrupole_O : checkTable 4 [.C4z, .C3d] quadrupole_O cert_quadrupole_O = true := by decide +kernel

/-- For `quadrupole['T_d']`. -/
def cert_quadrupole_T_d : List Cert :=
  [(16, [(1, 0, 1, 0)]),
   (32, [(0, 78, 1, 0), (0, 79, -1, 0), (1, 1, 2, 0)]),
   (32, [(0, 2, 1, 0), (0, 41, -1, 0)]),
   (32, [(0, 74, 1, 0), (0, 77, -1, 0), (1, 3, 2, 0)]),
   (16, [(0, 4, 1, 0)]),
   (32, [(0, 5, 1, 0), (0, 38, 1, 0)]),
   (32, [(0, 6, 1, 0), (0, 43, -1, 0)]),
   (32, [(0, 7, 1, 0), (0, 42, 1, 0)]),
   (16, [(0, 4, 1, 0), (0, 72, -1, 0), (1, 4, -1, 0), (1, 8, 1, 0)]),
   (32, [(0, 62, 1, 0), (0, 71, -1, 0), (1, 9, 2, 0)]),
   (16, [(0, 10, 1, 0)]),
   (32, [(0, 11, 1, 0), (0, 32, 1, 0)]),
   (16, [(0, 12, 1, 0)]),
   (32, [(0, 54, 1, 0), (0, 67, -1, 0), (1, 13, 2, 0)]),
   (32, [(0, 14, 1, 0), (0, 29, -1, 0)]),
   (32, [(0, 15, 1, 0), (0, 34, 1, 0)]),
   (32, [(0, 16, 1, 0), (0, 33, -1, 0)]),
   (32, [(0, 58, 1, 0), (0, 63, -1, 0), (1, 17, 2, 0)]),
   (32, [(0, 18, 1, 0), (0, 49, -1, 0)]),
   (32, [(0, 19, 1, 0), (0, 48, 1, 0)]),
   (16, [(0, 10, 1, 0), (0, 60, -1, 0), (1, 10, -1, 0), (1, 20, 1, 0)]),
   (32, [(0, 21, 1, 0), (0, 46, 1, 0)]),
   (32, [(0, 22, 1, 0), (0, 45, -1, 0)]),
   (32, [(0, 57, -1, 0), (0, 64, 1, 0), (1, 23, 2, 0)]),
   (16, [(0, 12, 1, 0), (0, 56, -1, 0), (1, 12, -1, 0), (1, 24, 1, 0)]),
   (32, [(0, 55, -1, 0), (0, 66, 1, 0), (1, 25, 2, 0)]),
   (32, [(0, 26, 1, 0), (0, 53, -1, 0)]),
   (32, [(0, 13, 2, 0), (0, 54, -1, 0), (0, 67, 1, 0), (1, 13, -2, 0)]),
   (1, []),
   (32, [(0, 14, 1, 0), (0, 29, 1, 0)]),
   (1, []),
   (32, [(0, 9, 2, 0), (0, 62, -1, 0), (0, 71, 1, 0), (1, 9, -2, 0)]),
   (32, [(0, 11, -1, 0), (0, 32, 1, 0)]),
   (32, [(0, 16, 1, 0), (0, 33, 1, 0)]),
   (32, [(0, 15, -1, 0), (0, 34, 1, 0)]),
   (32, [(0, 17, 2, 0), (0, 58, -1, 0), (0, 63, 1, 0), (1, 17, -2, 0)]),
   (1, []),
   (32, [(0, 3, 2, 0), (0, 74, -1, 0), (0, 77, 1, 0), (1, 3, -2, 0)]),
   (32, [(0, 5, -1, 0), (0, 38, 1, 0)]),
   (32, [(0, 1, 2, 0), (0, 78, -1, 0), (0, 79, 1, 0), (1, 1, -2, 0)]),
   (16, [(0, 0, -1, 0), (1, 0, 1, 0)]),
   (32, [(0, 2, 1, 0), (0, 41, 1, 0)]),
   (32, [(0, 7, -1, 0), (0, 42, 1, 0)]),
   (32, [(0, 6, 1, 0), (0, 43, 1, 0)]),
   (16, [(0, 4, 1, 0), (0, 8, -1, 0), (0, 72, -1, 0), (1, 4, -1, 0), (1, 8, 1, 0)]),
   (32, [(0, 22, 1, 0), (0, 45, 1, 0)]),
   (32, [(0, 21, -1, 0), (0, 46, 1, 0)]),
   (32, [(0, 23, 2, 0), (0, 57, 1, 0), (0, 64, -1, 0), (1, 23, -2, 0)]),
   (32, [(0, 19, -1, 0), (0, 48, 1, 0)]),
   (32, [(0, 18, 1, 0), (0, 49, 1, 0)]),
   (16, [(0, 10, 1, 0), (0, 20, -1, 0), (0, 60, -1, 0), (1, 10, -1, 0), (1, 20, 1, 0)]),
   (32, [(0, 25, 2, 0), (0, 55, 1, 0), (0, 66, -1, 0), (1, 25, -2, 0)]),
   (16, [(0, 12, 1, 0), (0, 24, -1, 0), (0, 56, -1, 0), (1, 12, -1, 0), (1, 24, 1, 0)]),
   (32, [(0, 26, 1, 0), (0, 53, 1, 0)]),
   (32, [(0, 54, 1, 0), (0, 67, -1, 0)]),
   (32, [(0, 55, 1, 0), (0, 66, 1, 0)]),
   (16, [(0, 12, 1, 0), (1, 12, -1, 0)]),
   (32, [(0, 57, 1, 0), (0, 64, 1, 0)]),
   (32, [(0, 58, 1, 0), (0, 63, -1, 0)]),
   (32, [(0, 15, 1, 0), (0, 34, 1, 0), (1, 15, -2, 0)]),
   (16, [(0, 10, 1, 0), (1, 10, -1, 0)]),
   (32, [(0, 11, 1, 0), (0, 32, 1, 0), (1, 11, -2, 0)]),
   (32, [(0, 62, 1, 0), (0, 71, -1, 0)]),
   (32, [(0, 58, 1, 0), (0, 63, 1, 0)]),
   (32, [(0, 57, -1, 0), (0, 64, 1, 0)]),
   (32, [(0, 15, -1, 0), (0, 34, -1, 0), (0, 59, 2, 0), (1, 15, 2, 0)]),
   (32, [(0, 55, -1, 0), (0, 66, 1, 0)]),
   (32, [(0, 54, 1, 0), (0, 67, 1, 0)]),
   (16, [(0, 12, 1, 0), (0, 56, -1, 0), (1, 12, -1, 0)]),
   (32, [(0, 11, -1, 0), (0, 32, -1, 0), (0, 61, 2, 0), (1, 11, 2, 0)]),
   (16, [(0, 10, 1, 0), (0, 60, -1, 0), (1, 10, -1, 0)]),
   (32, [(0, 62, 1, 0), (0, 71, 1, 0)]),
   (16, [(0, 4, 1, 0), (1, 4, -1, 0)]),
   (32, [(0, 5, 1, 0), (0, 38, 1, 0), (1, 5, -2, 0)]),
   (32, [(0, 74, 1, 0), (0, 77, -1, 0)]),
   (32, [(0, 5, -1, 0), (0, 38, -1, 0), (0, 73, 2, 0), (1, 5, 2, 0)]),
   (16, [(0, 4, 1, 0), (0, 72, -1, 0), (1, 4, -1, 0)]),
   (32, [(0, 74, 1, 0), (0, 77, 1, 0)]),
   (32, [(0, 78, 1, 0), (0, 79, -1, 0)]),
   (32, [(0, 78, 1, 0), (0, 79, 1, 0)]),
   (1, [])]

theorem check_quadrupole_T_d : checkTable 4 [.S4z, .C3d] quadrupole_T_d cert_quadrupole_T_d = true := by decide +kernel

/-- For `quadrupole['C_6']`. -/
def cert_quadrupole_C_6 : List Cert :=
  [(96, [(0, 0, 3, 0), (0, 4, 3, 0), (0, 10, 3, 0), (0, 12, -6, 0), (0, 13, 0, -3), (0, 27, 0, 1), (0, 28, -9, 0)]),
   (96, [(0, 0, 0, 2), (0, 1, 3, 0), (0, 3, 3, 0), (0, 9, 3, 0), (0, 12, 0, 3), (0, 27, 3, 0), (0, 28, 0, 3)]),
   (128, [(0, 2, 4, 0), (0, 5, 0, -1), (0, 11, 0, -1), (0, 29, 0, -1), (0, 41, 0, -3)]),
   (1, []),
   (96, [(0, 1, 0, 1), (0, 3, 0, 1), (0, 4, 6, 0), (0, 9, 0, -1), (0, 12, -3, 0), (0, 27, 0, -1), (0, 28, -3, 0)]),
   (128, [(0, 2, 0, 1), (0, 5, 4, 0), (0, 14, 0, -1), (0, 32, 0, -1), (0, 38, 0, 3)]),
   (128, [(0, 6, 4, 0), (0, 7, 0, -1), (0, 15, 0, -1), (0, 33, 0, -1), (0, 43, 0, -3)]),
   (128, [(0, 6, 0, 1), (0, 7, 4, 0), (0, 16, 0, -1), (0, 34, 0, -1), (0, 42, 0, 3)]),
   (1, []),
   (1, []),
   (96, [(0, 1, 0, 1), (0, 3, 0, -1), (0, 9, 0, 1), (0, 10, 6, 0), (0, 12, -3, 0), (0, 27, 0, -1), (0, 28, -3, 0)]),
   (128, [(0, 2, 0, 1), (0, 11, 4, 0), (0, 14, 0, -1), (0, 32, 0, 3), (0, 38, 0, -1)]),
   (96, [(0, 1, 0, -1), (0, 3, 0, 1), (0, 9, 0, 1), (0, 12, 3, 0), (0, 27, 0, -1), (0, 28, -3, 0)]),
   (96, [(0, 0, 0, 1), (0, 4, 0, 1), (0, 10, 0, 1), (0, 13, 3, 0), (0, 27, 3, 0), (0, 28, 0, -1)]),
   (128, [(0, 5, 0, 1), (0, 11, 0, 1), (0, 14, 4, 0), (0, 29, 0, -3), (0, 41, 0, -1)]),
   (128, [(0, 6, 0, 1), (0, 15, 4, 0), (0, 16, 0, -1), (0, 34, 0, 3), (0, 42, 0, -1)]),
   (128, [(0, 7, 0, 1), (0, 15, 0, 1), (0, 16, 4, 0), (0, 33, 0, -3), (0, 43, 0, -1)]),
   (48, [(0, 8, 0, 1), (0, 17, 3, 0)]),
   (128, [(0, 18, 4, 0), (0, 19, 0, -1), (0, 21, 0, -1), (0, 45, 0, -1), (0, 49, 0, -3)]),
   (128, [(0, 18, 0, 1), (0, 19, 4, 0), (0, 22, 0, -1), (0, 46, 0, -1), (0, 48, 0, 3)]),
   (1, []),
   (128, [(0, 18, 0, 1), (0, 21, 4, 0), (0, 22, 0, -1), (0, 46, 0, 3), (0, 48, 0, -1)]),
   (128, [(0, 19, 0, 1), (0, 21, 0, 1), (0, 22, 4, 0), (0, 45, 0, -3), (0, 49, 0, -1)]),
   (48, [(0, 20, 0, 1), (0, 23, 3, 0)]),
   (1, []),
   (48, [(0, 24, 0, 1), (0, 25, 3, 0)]),
   (32, [(0, 26, 1, 0), (0, 53, 0, -1)]),
   (1, []),
   (1, []),
   (128, [(0, 2, 0, 1), (0, 14, 0, 3), (0, 29, 4, 0), (0, 32, 0, -1), (0, 38, 0, -1)]),
   (1, []),
   (96, [(0, 0, 0, 1), (0, 4, 0, 1), (0, 9, 6, 0), (0, 10, 0, -1), (0, 13, 3, 0), (0, 27, -3, 0), (0, 28, 0, 1)]),
   (128, [(0, 5, 0, 1), (0, 11, 0, -3), (0, 29, 0, 1), (0, 32, 4, 0), (0, 41, 0, -1)]),
   (128, [(0, 6, 0, 1), (0, 16, 0, 3), (0, 33, 4, 0), (0, 34, 0, -1), (0, 42, 0, -1)]),
   (128, [(0, 7, 0, 1), (0, 15, 0, -3), (0, 33, 0, 1), (0, 34, 4, 0), (0, 43, 0, -1)]),
   (1, []),
   (1, []),
   (96, [(0, 0, 0, 1), (0, 3, 6, 0), (0, 4, 0, -1), (0, 10, 0, 1), (0, 13, 3, 0), (0, 27, -3, 0), (0, 28, 0, 1)]),
   (128, [(0, 5, 0, -3), (0, 11, 0, 1), (0, 29, 0, 1), (0, 38, 4, 0), (0, 41, 0, -1)]),
   (96, [(0, 0, 0, -1), (0, 1, 3, 0), (0, 3, -3, 0), (0, 4, 0, -1), (0, 9, -3, 0), (0, 10, 0, -1), (0, 12, 0, -1), (0, 13, 3, 0), (0, 27, -6, 0), (0, 28, 0, -2)]),
   (96, [(0, 0, -3, 0), (0, 1, 0, 1), (0, 3, 0, 1), (0, 4, 3, 0), (0, 9, 0, 1), (0, 10, 3, 0), (0, 12, -9, 0), (0, 13, 0, -1), (0, 28, -12, 0)]),
   (128, [(0, 2, 0, 3), (0, 14, 0, 1), (0, 32, 0, 1), (0, 38, 0, 1), (0, 41, 4, 0)]),
   (128, [(0, 7, 0, -3), (0, 15, 0, 1), (0, 33, 0, 1), (0, 42, 4, 0), (0, 43, 0, -1)]),
   (128, [(0, 6, 0, 3), (0, 16, 0, 1), (0, 34, 0, 1), (0, 42, 0, 1), (0, 43, 4, 0)]),
   (48, [(0, 8, -3, 0), (0, 17, 0, 1)]),
   (128, [(0, 18, 0, 1), (0, 22, 0, 3), (0, 45, 4, 0), (0, 46, 0, -1), (0, 48, 0, -1)]),
   (128, [(0, 19, 0, 1), (0, 21, 0, -3), (0, 45, 0, 1), (0, 46, 4, 0), (0, 49, 0, -1)]),
   (1, []),
   (128, [(0, 19, 0, -3), (0, 21, 0, 1), (0, 45, 0, 1), (0, 48, 4, 0), (0, 49, 0, -1)]),
   (128, [(0, 18, 0, 3), (0, 22, 0, 1), (0, 46, 0, 1), (0, 48, 0, 1), (0, 49, 4, 0)]),
   (48, [(0, 20, -3, 0), (0, 23, 0, 1)]),
   (1, []),
   (48, [(0, 24, -3, 0), (0, 25, 0, 1)]),
   (32, [(0, 26, 0, 1), (0, 53, 1, 0)]),
   (128, [(0, 54, 4, 0), (0, 55, 0, -1), (0, 57, 0, -1), (0, 63, 0, -1), (0, 67, 0, -3)]),
   (128, [(0, 54, 0, 1), (0, 55, 4, 0), (0, 58, 0, -1), (0, 64, 0, -1), (0, 66, 0, 3)]),
   (1, []),
   (128, [(0, 54, 0, 1), (0, 57, 4, 0), (0, 58, 0, -1), (0, 64, 0, 3), (0, 66, 0, -1)]),
   (128, [(0, 55, 0, 1), (0, 57, 0, 1), (0, 58, 4, 0), (0, 63, 0, -3), (0, 67, 0, -1)]),
   (48, [(0, 56, 0, 1), (0, 59, 3, 0)]),
   (1, []),
   (48, [(0, 60, 0, 1), (0, 61, 3, 0)]),
   (32, [(0, 62, 1, 0), (0, 71, 0, -1)]),
   (128, [(0, 54, 0, 1), (0, 58, 0, 3), (0, 63, 4, 0), (0, 64, 0, -1), (0, 66, 0, -1)]),
   (128, [(0, 55, 0, 1), (0, 57, 0, -3), (0, 63, 0, 1), (0, 64, 4, 0), (0, 67, 0, -1)]),
   (1, []),
   (128, [(0, 55, 0, -3), (0, 57, 0, 1), (0, 63, 0, 1), (0, 66, 4, 0), (0, 67, 0, -1)]),
   (128, [(0, 54, 0, 3), (0, 58, 0, 1), (0, 64, 0, 1), (0, 66, 0, 1), (0, 67, 4, 0)]),
   (48, [(0, 56, -3, 0), (0, 59, 0, 1)]),
   (1, []),
   (48, [(0, 60, -3, 0), (0, 61, 0, 1)]),
   (32, [(0, 62, 0, 1), (0, 71, 1, 0)]),
   (1, []),
   (48, [(0, 72, 0, 1), (0, 73, 3, 0)]),
   (32, [(0, 74, 1, 0), (0, 77, 0, -1)]),
   (1, []),
   (48, [(0, 72, -3, 0), (0, 73, 0, 1)]),
   (32, [(0, 74, 0, 1), (0, 77, 1, 0)]),
   (32, [(0, 78, 1, 0), (0, 79, 0, -1)]),
   (32, [(0, 78, 0, 1), (0, 79, 1, 0)]),
   (1, [])]

theorem check_quadrupole_C_6 : checkTable 4 [.C6z] quadrupole_C_6 cert_quadrupole_C_6 = true := by decide +kernel

/-- For `quadrupole['C_3h']`. -/
def cert_quadrupole_C_3h : List Cert :=
  [(96, [(0, 0, 3, 0), (0, 4, 3, 0), (0, 10, 3, 0), (0, 12, -6, 0), (0, 13, 0, 3), (0, 27, 0, -1), (0, 28, -9, 0)]),
   (96, [(0, 0, 0, -2), (0, 1, 3, 0), (0, 3, 3, 0), (0, 9, 3, 0), (0, 12, 0, -3), (0, 27, 3, 0), (0, 28, 0, -3)]),
   (32, [(1, 2, 1, 0)]),
   (1, []),
   (96, [(0, 1, 0, -1), (0, 3, 0, -1), (0, 4, 6, 0), (0, 9, 0, 1), (0, 12, -3, 0), (0, 27, 0, 1), (0, 28, -3, 0)]),
   (32, [(1, 5, 1, 0)]),
   (32, [(1, 6, 1, 0)]),
   (32, [(1, 7, 1, 0)]),
   (1, []),
   (1, []),
   (96, [(0, 1, 0, -1), (0, 3, 0, 1), (0, 9, 0, -1), (0, 10, 6, 0), (0, 12, -3, 0), (0, 27, 0, 1), (0, 28, -3, 0)]),
   (32, [(1, 11, 1, 0)]),
   (96, [(0, 1, 0, 1), (0, 3, 0, -1), (0, 9, 0, -1), (0, 12, 3, 0), (0, 27, 0, 1), (0, 28, -3, 0)]),
   (96, [(0, 0, 0, -1), (0, 4, 0, -1), (0, 10, 0, -1), (0, 13, 3, 0), (0, 27, 3, 0), (0, 28, 0, 1)]),
   (32, [(1, 14, 1, 0)]),
   (32, [(1, 15, 1, 0)]),
   (32, [(1, 16, 1, 0)]),
   (48, [(0, 8, 0, -1), (0, 17, 3, 0)]),
   (32, [(1, 18, 1, 0)]),
   (32, [(1, 19, 1, 0)]),
   (1, []),
   (32, [(1, 21, 1, 0)]),
   (32, [(1, 22, 1, 0)]),
   (48, [(0, 20, 0, -1), (0, 23, 3, 0)]),
   (1, []),
   (48, [(0, 24, 0, -1), (0, 25, 3, 0)]),
   (32, [(1, 26, 1, 0)]),
   (1, []),
   (1, []),
   (32, [(1, 29, 1, 0)]),
   (1, []),
   (96, [(0, 0, 0, -1), (0, 4, 0, -1), (0, 9, 6, 0), (0, 10, 0, 1), (0, 13, 3, 0), (0, 27, -3, 0), (0, 28, 0, -1)]),
   (32, [(1, 32, 1, 0)]),
   (32, [(1, 33, 1, 0)]),
   (32, [(1, 34, 1, 0)]),
   (1, []),
   (1, []),
   (96, [(0, 0, 0, -1), (0, 3, 6, 0), (0, 4, 0, 1), (0, 10, 0, -1), (0, 13, 3, 0), (0, 27, -3, 0), (0, 28, 0, -1)]),
   (32, [(1, 38, 1, 0)]),
   (96, [(0, 0, 0, 1), (0, 1, 3, 0), (0, 3, -3, 0), (0, 4, 0, 1), (0, 9, -3, 0), (0, 10, 0, 1), (0, 12, 0, 1), (0, 13, 3, 0), (0, 27, -6, 0), (0, 28, 0, 2)]),
   (96, [(0, 0, -3, 0), (0, 1, 0, -1), (0, 3, 0, -1), (0, 4, 3, 0), (0, 9, 0, -1), (0, 10, 3, 0), (0, 12, -9, 0), (0, 13, 0, 1), (0, 28, -12, 0)]),
   (32, [(1, 41, 1, 0)]),
   (32, [(1, 42, 1, 0)]),
   (32, [(1, 43, 1, 0)]),
   (48, [(0, 8, -3, 0), (0, 17, 0, -1)]),
   (32, [(1, 45, 1, 0)]),
   (32, [(1, 46, 1, 0)]),
   (1, []),
   (32, [(1, 48, 1, 0)]),
   (32, [(1, 49, 1, 0)]),
   (48, [(0, 20, -3, 0), (0, 23, 0, -1)]),
   (1, []),
   (48, [(0, 24, -3, 0), (0, 25, 0, -1)]),
   (32, [(1, 53, 1, 0)]),
   (32, [(1, 54, 1, 0)]),
   (32, [(1, 55, 1, 0)]),
   (1, []),
   (32, [(1, 57, 1, 0)]),
   (32, [(1, 58, 1, 0)]),
   (48, [(0, 56, 0, -1), (0, 59, 3, 0)]),
   (1, []),
   (48, [(0, 60, 0, -1), (0, 61, 3, 0)]),
   (32, [(1, 62, 1, 0)]),
   (32, [(1, 63, 1, 0)]),
   (32, [(1, 64, 1, 0)]),
   (1, []),
   (32, [(1, 66, 1, 0)]),
   (32, [(1, 67, 1, 0)]),
   (48, [(0, 56, -3, 0), (0, 59, 0, -1)]),
   (1, []),
   (48, [(0, 60, -3, 0), (0, 61, 0, -1)]),
   (32, [(1, 71, 1, 0)]),
   (1, []),
   (48, [(0, 72, 0, -1), (0, 73, 3, 0)]),
   (32, [(1, 74, 1, 0)]),
   (1, []),
   (48, [(0, 72, -3, 0), (0, 73, 0, -1)]),
   (32, [(1, 77, 1, 0)]),
   (32, [(1, 78, 1, 0)]),
   (32, [(1, 79, 1, 0)]),
   (1, [])]

theorem check_quadrupole_C_3h : checkTable 4 [.C3z, .mz] quadrupole_C_3h cert_quadrupole_C_3h = true := by decide +kernel

/-- For `quadrupole['C_6h']`. -/
def cert_quadrupole_C_6h : List Cert :=
  [(96, [(0, 0, 3, 0), (0, 4, 3, 0), (0, 10, 3, 0), (0, 12, -6, 0), (0, 13, 0, -3), (0, 27, 0, 1), (0, 28, -9, 0)]),
   (96, [(0, 0, 0, 2), (0, 1, 3, 0), (0, 3, 3, 0), (0, 9, 3, 0), (0, 12, 0, 3), (0, 27, 3, 0), (0, 28, 0, 3)]),
   (128, [(0, 2, 4, 0), (0, 5, 0, -1), (0, 11, 0, -1), (0, 29, 0, -1), (0, 41, 0, -3)]),
   (1, []),
   (96, [(0, 1, 0, 1), (0, 3, 0, 1), (0, 4, 6, 0), (0, 9, 0, -1), (0, 12, -3, 0), (0, 27, 0, -1), (0, 28, -3, 0)]),
   (128, [(0, 2, 0, 1), (0, 5, 4, 0), (0, 14, 0, -1), (0, 32, 0, -1), (0, 38, 0, 3)]),
   (128, [(0, 6, 4, 0), (0, 7, 0, -1), (0, 15, 0, -1), (0, 33, 0, -1), (0, 43, 0, -3)]),
   (128, [(0, 6, 0, 1), (0, 7, 4, 0), (0, 16, 0, -1), (0, 34, 0, -1), (0, 42, 0, 3)]),
   (1, []),
   (1, []),
   (96, [(0, 1, 0, 1), (0, 3, 0, -1), (0, 9, 0, 1), (0, 10, 6, 0), (0, 12, -3, 0), (0, 27, 0, -1), (0, 28, -3, 0)]),
   (128, [(0, 2, 0, 1), (0, 11, 4, 0), (0, 14, 0, -1), (0, 32, 0, 3), (0, 38, 0, -1)]),
   (96, [(0, 1, 0, -1), (0, 3, 0, 1), (0, 9, 0, 1), (0, 12, 3, 0), (0, 27, 0, -1), (0, 28, -3, 0)]),
   (96, [(0, 0, 0, 1), (0, 4, 0, 1), (0, 10, 0, 1), (0, 13, 3, 0), (0, 27, 3, 0), (0, 28, 0, -1)]),
   (128, [(0, 5, 0, 1), (0, 11, 0, 1), (0, 14, 4, 0), (0, 29, 0, -3), (0, 41, 0, -1)]),
   (128, [(0, 6, 0, 1), (0, 15, 4, 0), (0, 16, 0, -1), (0, 34, 0, 3), (0, 42, 0, -1)]),
   (128, [(0, 7, 0, 1), (0, 15, 0, 1), (0, 16, 4, 0), (0, 33, 0, -3), (0, 43, 0, -1)]),
   (48, [(0, 8, 0, 1), (0, 17, 3, 0)]),
   (128, [(0, 18, 4, 0), (0, 19, 0, -1), (0, 21, 0, -1), (0, 45, 0, -1), (0, 49, 0, -3)]),
   (128, [(0, 18, 0, 1), (0, 19, 4, 0), (0, 22, 0, -1), (0, 46, 0, -1), (0, 48, 0, 3)]),
   (1, []),
   (128, [(0, 18, 0, 1), (0, 21, 4, 0), (0, 22, 0, -1), (0, 46, 0, 3), (0, 48, 0, -1)]),
   (128, [(0, 19, 0, 1), (0, 21, 0, 1), (0, 22, 4, 0), (0, 45, 0, -3), (0, 49, 0, -1)]),
   (48, [(0, 20, 0, 1), (0, 23, 3, 0)]),
   (1, []),
   (48, [(0, 24, 0, 1), (0, 25, 3, 0)]),
   (32, [(0, 26, 1, 0), (0, 53, 0, -1)]),
   (1, []),
   (1, []),
   (128, [(0, 2, 0, 1), (0, 14, 0, 3), (0, 29, 4, 0), (0, 32, 0, -1), (0, 38, 0, -1)]),
   (1, []),
   (96, [(0, 0, 0, 1), (0, 4, 0, 1), (0, 9, 6, 0), (0, 10, 0, -1), (0, 13, 3, 0), (0, 27, -3, 0), (0, 28, 0, 1)]),
   (128, [(0, 5, 0, 1), (0, 11, 0, -3), (0, 29, 0, 1), (0, 32, 4, 0), (0, 41, 0, -1)]),
   (128, [(0, 6, 0, 1), (0, 16, 0, 3), (0, 33, 4, 0), (0, 34, 0, -1), (0, 42, 0, -1)]),
   (128, [(0, 7, 0, 1), (0, 15, 0, -3), (0, 33, 0, 1), (0, 34, 4, 0), (0, 43, 0, -1)]),
   (1, []),
   (1, []),
   (96, [(0, 0, 0, 1), (0, 3, 6, 0), (0, 4, 0, -1), (0, 10, 0, 1), (0, 13, 3, 0), (0, 27, -3, 0), (0, 28, 0, 1)]),
   (128, [(0, 5, 0, -3), (0, 11, 0, 1), (0, 29, 0, 1), (0, 38, 4, 0), (0, 41, 0, -1)]),
   (96, [(0, 0, 0, -1), (0, 1, 3, 0), (0, 3, -3, 0), (0, 4, 0, -1), (0, 9, -3, 0), (0, 10, 0, -1), (0, 12, 0, -1), (0, 13, 3, 0), (0, 27, -6, 0), (0, 28, 0, -2)]),
   (96, [(0, 0, -3, 0), (0, 1, 0, 1), (0, 3, 0, 1), (0, 4, 3, 0), (0, 9, 0, 1), (0, 10, 3, 0), (0, 12, -9, 0), (0, 13, 0, -1), (0, 28, -12, 0)]),
   (128, [(0, 2, 0, 3), (0, 14, 0, 1), (0, 32, 0, 1), (0, 38, 0, 1), (0, 41, 4, 0)]),
   (128, [(0, 7, 0, -3), (0, 15, 0, 1), (0, 33, 0, 1), (0, 42, 4, 0), (0, 43, 0, -1)]),
   (128, [(0, 6, 0, 3), (0, 16, 0, 1), (0, 34, 0, 1), (0, 42, 0, 1), (0, 43, 4, 0)]),
   (48, [(0, 8, -3, 0), (0, 17, 0, 1)]),
   (128, [(0, 18, 0, 1), (0, 22, 0, 3), (0, 45, 4, 0), (0, 46, 0, -1), (0, 48, 0, -1)]),
   (128, [(0, 19, 0, 1), (0, 21, 0, -3), (0, 45, 0, 1), (0, 46, 4, 0), (0, 49, 0, -1)]),
   (1, []),
   (128, [(0, 19, 0, -3), (0, 21, 0, 1), (0, 45, 0, 1), (0, 48, 4, 0), (0, 49, 0, -1)]),
   (128, [(0, 18, 0, 3), (0, 22, 0, 1), (0, 46, 0, 1), (0, 48, 0, 1), (0, 49, 4, 0)]),
   (48, [(0, 20, -3, 0), (0, 23, 0, 1)]),
   (1, []),
   (48, [(0, 24, -3, 0), (0, 25, 0, 1)]),
   (32, [(0, 26, 0, 1), (0, 53, 1, 0)]),
   (128, [(0, 54, 4, 0), (0, 55, 0, -1), (0, 57, 0, -1), (0, 63, 0, -1), (0, 67, 0, -3)]),
   (128, [(0, 54, 0, 1), (0, 55, 4, 0), (0, 58, 0, -1), (0, 64, 0, -1), (0, 66, 0, 3)]),
   (1, []),
   (128, [(0, 54, 0, 1), (0, 57, 4, 0), (0, 58, 0, -1), (0, 64, 0, 3), (0, 66, 0, -1)]),
   (128, [(0, 55, 0, 1), (0, 57, 0, 1), (0, 58, 4, 0), (0, 63, 0, -3), (0, 67, 0, -1)]),
   (48, [(0, 56, 0, 1), (0, 59, 3, 0)]),
   (1, []),
   (48, [(0, 60, 0, 1), (0, 61, 3, 0)]),
   (32, [(0, 62, 1, 0), (0, 71, 0, -1)]),
   (128, [(0, 54, 0, 1), (0, 58, 0, 3), (0, 63, 4, 0), (0, 64, 0, -1), (0, 66, 0, -1)]),
   (128, [(0, 55, 0, 1), (0, 57, 0, -3), (0, 63, 0, 1), (0, 64, 4, 0), (0, 67, 0, -1)]),
   (1, []),
   (128, [(0, 55, 0, -3), (0, 57, 0, 1), (0, 63, 0, 1), (0, 66, 4, 0), (0, 67, 0, -1)]),
   (128, [(0, 54, 0, 3), (0, 58, 0, 1), (0, 64, 0, 1), (0, 66, 0, 1), (0, 67, 4, 0)]),
   (48, [(0, 56, -3, 0), (0, 59, 0, 1)]),
   (1, []),
   (48, [(0, 60, -3, 0), (0, 61, 0, 1)]),
   (32, [(0, 62, 0, 1), (0, 71, 1, 0)]),
   (1, []),
   (48, [(0, 72, 0, 1), (0, 73, 3, 0)]),
   (32, [(0, 74, 1, 0), (0, 77, 0, -1)]),
   (1, []),
   (48, [(0, 72, -3, 0), (0, 73, 0, 1)]),
   (32, [(0, 74, 0, 1), (0, 77, 1, 0)]),
   (32, [(0, 78, 1, 0), (0, 79, 0, -1)]),
   (32, [(0, 78, 0, 1), (0, 79, 1, 0)]),
   (1, [])]

theorem check_quadrupole_C_6h : checkTable 4 [.C6z, .inv] quadrupole_C_6h cert_quadrupole_C_6h = true := by decide +kernel

/-- For `quadrupole['C_6v']`. -/
def cert_quadrupole_C_6v : List Cert :=
  [(96, [(0, 0, 10, 0), (0, 1, 0, 2), (0, 3, 0, 2), (0, 4, 6, 0), (0, 9, 0, 8), (1, 1, 0, -2), (1, 3, 0, -2), (1, 9, 0, -5), (1, 27, 0, -2), (1, 31, 0, -3)]),
   (32, [(1, 1, 1, 0)]),
   (32, [(1, 2, 1, 0)]),
   (32, [(1, 3, 1, 0)]),
   (96, [(0, 0, 2, 0), (0, 1, 0, 2), (0, 3, 0, 2), (0, 4, 6, 0), (1, 1, 0, -1), (1, 3, 0, -1), (1, 9, 0, -1), (1, 27, 0, -1)]),
   (128, [(0, 2, 0, 2), (0, 5, 10, 0), (0, 11, -6, 0), (0, 14, 0, -2), (1, 2, 0, -1), (1, 14, 0, 1), (1, 32, 0, -1), (1, 38, 0, 3)]),
   (32, [(1, 6, 1, 0)]),
   (128, [(0, 6, 0, 2), (0, 7, 10, 0), (0, 15, -6, 0), (0, 16, 0, -2), (1, 6, 0, -1), (1, 16, 0, 1), (1, 34, 0, -1), (1, 42, 0, 3)]),
   (1, []),
   (32, [(1, 9, 1, 0)]),
   (96, [(0, 0, 2, 0), (0, 1, 0, 2), (0, 3, 0, -6), (0, 4, 6, 0), (0, 9, 0, 8), (1, 1, 0, -1), (1, 3, 0, 2), (1, 9, 0, -4), (1, 27, 0, -1), (1, 31, 0, -3), (1, 37, 0, 3)]),
   (128, [(0, 2, 0, 2), (0, 5, -6, 0), (0, 11, 10, 0), (0, 14, 0, -2), (1, 2, 0, -1), (1, 14, 0, 1), (1, 32, 0, 3), (1, 38, 0, -1)]),
   (96, [(0, 0, 2, 0), (0, 1, 0, -6), (0, 3, 0, 2), (0, 4, 6, 0), (0, 9, 0, 8), (1, 1, 0, 2), (1, 3, 0, -1), (1, 9, 0, -4), (1, 27, 0, -1), (1, 31, 0, -3), (1, 39, 0, 3)]),
   (32, [(1, 13, 1, 0)]),
   (32, [(1, 14, 1, 0)]),
   (128, [(0, 6, 0, 2), (0, 7, -6, 0), (0, 15, 10, 0), (0, 16, 0, -2), (1, 6, 0, -1), (1, 16, 0, 1), (1, 34, 0, 3), (1, 42, 0, -1)]),
   (32, [(1, 16, 1, 0)]),
   (32, [(1, 17, 1, 0)]),
   (32, [(1, 18, 1, 0)]),
   (128, [(0, 18, 0, 2), (0, 19, 10, 0), (0, 21, -6, 0), (0, 22, 0, -2), (1, 18, 0, -1), (1, 22, 0, 1), (1, 46, 0, -1), (1, 48, 0, 3)]),
   (1, []),
   (128, [(0, 18, 0, 2), (0, 19, -6, 0), (0, 21, 10, 0), (0, 22, 0, -2), (1, 18, 0, -1), (1, 22, 0, 1), (1, 46, 0, 3), (1, 48, 0, -1)]),
   (32, [(1, 22, 1, 0)]),
   (32, [(1, 23, 1, 0)]),
   (1, []),
   (32, [(1, 25, 1, 0)]),
   (32, [(1, 26, 1, 0)]),
   (32, [(1, 27, 1, 0)]),
   (1, []),
   (384, [(0, 2, 0, -2), (0, 5, 6, 0), (0, 11, 6, 0), (0, 14, 0, 18), (1, 2, 0, 5), (1, 14, 0, -9), (1, 32, 0, -3), (1, 38, 0, -3)]),
   (1, []),
   (32, [(1, 31, 1, 0)]),
   (32, [(1, 32, 1, 0)]),
   (384, [(0, 6, 0, -2), (0, 7, 6, 0), (0, 15, 6, 0), (0, 16, 0, 18), (1, 6, 0, 5), (1, 16, 0, -9), (1, 34, 0, -3), (1, 42, 0, -3)]),
   (32, [(1, 34, 1, 0)]),
   (32, [(1, 35, 1, 0)]),
   (1, []),
   (32, [(1, 37, 1, 0)]),
   (32, [(1, 38, 1, 0)]),
   (32, [(1, 39, 1, 0)]),
   (96, [(0, 0, 4, 0), (0, 1, 0, 4), (0, 3, 0, 4), (0, 4, 4, 0), (0, 9, 0, 8), (1, 1, 0, -3), (1, 3, 0, -3), (1, 9, 0, -5), (1, 13, 0, 1), (1, 27, 0, -2), (1, 31, 0, -2)]),
   (384, [(0, 2, 0, 18), (0, 5, -6, 0), (0, 11, -6, 0), (0, 14, 0, -2), (1, 2, 0, -9), (1, 14, 0, 5), (1, 32, 0, 3), (1, 38, 0, 3)]),
   (32, [(1, 42, 1, 0)]),
   (384, [(0, 6, 0, 18), (0, 7, -6, 0), (0, 15, -6, 0), (0, 16, 0, -2), (1, 6, 0, -9), (1, 16, 0, 5), (1, 34, 0, 3), (1, 42, 0, 3)]),
   (96, [(0, 8, -8, 0), (1, 17, 0, 1), (1, 35, 0, 1)]),
   (384, [(0, 18, 0, -2), (0, 19, 6, 0), (0, 21, 6, 0), (0, 22, 0, 18), (1, 18, 0, 5), (1, 22, 0, -9), (1, 46, 0, -3), (1, 48, 0, -3)]),
   (32, [(1, 46, 1, 0)]),
   (32, [(1, 47, 1, 0)]),
   (32, [(1, 48, 1, 0)]),
   (384, [(0, 18, 0, 18), (0, 19, -6, 0), (0, 21, -6, 0), (0, 22, 0, -2), (1, 18, 0, -9), (1, 22, 0, 5), (1, 46, 0, 3), (1, 48, 0, 3)]),
   (96, [(0, 20, -8, 0), (1, 23, 0, 1), (1, 47, 0, 1)]),
   (32, [(1, 51, 1, 0)]),
   (96, [(0, 24, -8, 0), (1, 25, 0, 1), (1, 51, 0, 1)]),
   (96, [(0, 26, 0, 4), (1, 26, 0, -1)]),
   (32, [(1, 54, 1, 0)]),
   (128, [(0, 54, 0, 2), (0, 55, 10, 0), (0, 57, -6, 0), (0, 58, 0, -2), (1, 54, 0, -1), (1, 58, 0, 1), (1, 64, 0, -1), (1, 66, 0, 3)]),
   (1, []),
   (128, [(0, 54, 0, 2), (0, 55, -6, 0), (0, 57, 10, 0), (0, 58, 0, -2), (1, 54, 0, -1), (1, 58, 0, 1), (1, 64, 0, 3), (1, 66, 0, -1)]),
   (32, [(1, 58, 1, 0)]),
   (32, [(1, 59, 1, 0)]),
   (1, []),
   (32, [(1, 61, 1, 0)]),
   (32, [(1, 62, 1, 0)]),
   (384, [(0, 54, 0, -2), (0, 55, 6, 0), (0, 57, 6, 0), (0, 58, 0, 18), (1, 54, 0, 5), (1, 58, 0, -9), (1, 64, 0, -3), (1, 66, 0, -3)]),
   (32, [(1, 64, 1, 0)]),
   (32, [(1, 65, 1, 0)]),
   (32, [(1, 66, 1, 0)]),
   (384, [(0, 54, 0, 18), (0, 55, -6, 0), (0, 57, -6, 0), (0, 58, 0, -2), (1, 54, 0, -9), (1, 58, 0, 5), (1, 64, 0, 3), (1, 66, 0, 3)]),
   (96, [(0, 56, -8, 0), (1, 59, 0, 1), (1, 65, 0, 1)]),
   (32, [(1, 69, 1, 0)]),
   (96, [(0, 60, -8, 0), (1, 61, 0, 1), (1, 69, 0, 1)]),
   (96, [(0, 62, 0, 4), (1, 62, 0, -1)]),
   (1, []),
   (32, [(1, 73, 1, 0)]),
   (32, [(1, 74, 1, 0)]),
   (32, [(1, 75, 1, 0)]),
   (96, [(0, 72, -8, 0), (1, 73, 0, 1), (1, 75, 0, 1)]),
   (96, [(0, 74, 0, 4), (1, 74, 0, -1)]),
   (32, [(1, 78, 1, 0)]),
   (96, [(0, 78, 0, 4), (1, 78, 0, -1)]),
   (1, [])]

theorem check_quadrupole_C_6v : checkTable 4 [.C6z, .mx] quadrupole_C_6v cert_quadrupole_C_6v = true := by decide +kernel

/-- For `quadrupole['D_6']`. -/
def cert_quadrupole_D_6 : List Cert :=
  [(96, [(0, 0, 10, 0), (0, 1, 0, 2), (0, 3, 0, 2), (0, 4, 6, 0), (0, 9, 0, 8), (1, 1, 0, -2), (1, 3, 0, -2), (1, 9, 0, -5), (1, 27, 0, -2), (1, 31, 0, -3)]),
   (32, [(1, 1, 1, 0)]),
   (32, [(1, 2, 1, 0)]),
   (32, [(1, 3, 1, 0)]),
   (96, [(0, 0, 2, 0), (0, 1, 0, 2), (0, 3, 0, 2), (0, 4, 6, 0), (1, 1, 0, -1), (1, 3, 0, -1), (1, 9, 0, -1), (1, 27, 0, -1)]),
   (128, [(0, 2, 0, 2), (0, 5, 10, 0), (0, 11, -6, 0), (0, 14, 0, -2), (1, 2, 0, -1), (1, 14, 0, 1), (1, 32, 0, -1), (1, 38, 0, 3)]),
   (32, [(1, 6, 1, 0)]),
   (128, [(0, 6, 0, 2), (0, 7, 10, 0), (0, 15, -6, 0), (0, 16, 0, -2), (1, 6, 0, -1), (1, 16, 0, 1), (1, 34, 0, -1), (1, 42, 0, 3)]),
   (1, []),
   (32, [(1, 9, 1, 0)]),
   (96, [(0, 0, 2, 0), (0, 1, 0, 2), (0, 3, 0, -6), (0, 4, 6, 0), (0, 9, 0, 8), (1, 1, 0, -1), (1, 3, 0, 2), (1, 9, 0, -4), (1, 27, 0, -1), (1, 31, 0, -3), (1, 37, 0, 3)]),
   (128, [(0, 2, 0, 2), (0, 5, -6, 0), (0, 11, 10, 0), (0, 14, 0, -2), (1, 2, 0, -1), (1, 14, 0, 1), (1, 32, 0, 3), (1, 38, 0, -1)]),
   (96, [(0, 0, 2, 0), (0, 1, 0, -6), (0, 3, 0, 2), (0, 4, 6, 0), (0, 9, 0, 8), (1, 1, 0, 2), (1, 3, 0, -1), (1, 9, 0, -4), (1, 27, 0, -1), (1, 31, 0, -3), (1, 39, 0, 3)]),
   (32, [(1, 13, 1, 0)]),
   (32, [(1, 14, 1, 0)]),
   (128, [(0, 6, 0, 2), (0, 7, -6, 0), (0, 15, 10, 0), (0, 16, 0, -2), (1, 6, 0, -1), (1, 16, 0, 1), (1, 34, 0, 3), (1, 42, 0, -1)]),
   (32, [(1, 16, 1, 0)]),
   (32, [(1, 17, 1, 0)]),
   (32, [(1, 18, 1, 0)]),
   (128, [(0, 18, 0, 2), (0, 19, 10, 0), (0, 21, -6, 0), (0, 22, 0, -2), (1, 18, 0, -1), (1, 22, 0, 1), (1, 46, 0, -1), (1, 48, 0, 3)]),
   (1, []),
   (128, [(0, 18, 0, 2), (0, 19, -6, 0), (0, 21, 10, 0), (0, 22, 0, -2), (1, 18, 0, -1), (1, 22, 0, 1), (1, 46, 0, 3), (1, 48, 0, -1)]),
   (32, [(1, 22, 1, 0)]),
   (32, [(1, 23, 1, 0)]),
   (1, []),
   (32, [(1, 25, 1, 0)]),
   (32, [(1, 26, 1, 0)]),
   (32, [(1, 27, 1, 0)]),
   (1, []),
   (384, [(0, 2, 0, -2), (0, 5, 6, 0), (0, 11, 6, 0), (0, 14, 0, 18), (1, 2, 0, 5), (1, 14, 0, -9), (1, 32, 0, -3), (1, 38, 0, -3)]),
   (1, []),
   (32, [(1, 31, 1, 0)]),
   (32, [(1, 32, 1, 0)]),
   (384, [(0, 6, 0, -2), (0, 7, 6, 0), (0, 15, 6, 0), (0, 16, 0, 18), (1, 6, 0, 5), (1, 16, 0, -9), (1, 34, 0, -3), (1, 42, 0, -3)]),
   (32, [(1, 34, 1, 0)]),
   (32, [(1, 35, 1, 0)]),
   (1, []),
   (32, [(1, 37, 1, 0)]),
   (32, [(1, 38, 1, 0)]),
   (32, [(1, 39, 1, 0)]),
   (96, [(0, 0, 4, 0), (0, 1, 0, 4), (0, 3, 0, 4), (0, 4, 4, 0), (0, 9, 0, 8), (1, 1, 0, -3), (1, 3, 0, -3), (1, 9, 0, -5), (1, 13, 0, 1), (1, 27, 0, -2), (1, 31, 0, -2)]),
   (384, [(0, 2, 0, 18), (0, 5, -6, 0), (0, 11, -6, 0), (0, 14, 0, -2), (1, 2, 0, -9), (1, 14, 0, 5), (1, 32, 0, 3), (1, 38, 0, 3)]),
   (32, [(1, 42, 1, 0)]),
   (384, [(0, 6, 0, 18), (0, 7, -6, 0), (0, 15, -6, 0), (0, 16, 0, -2), (1, 6, 0, -9), (1, 16, 0, 5), (1, 34, 0, 3), (1, 42, 0, 3)]),
   (96, [(0, 8, -8, 0), (1, 17, 0, 1), (1, 35, 0, 1)]),
   (384, [(0, 18, 0, -2), (0, 19, 6, 0), (0, 21, 6, 0), (0, 22, 0, 18), (1, 18, 0, 5), (1, 22, 0, -9), (1, 46, 0, -3), (1, 48, 0, -3)]),
   (32, [(1, 46, 1, 0)]),
   (32, [(1, 47, 1, 0)]),
   (32, [(1, 48, 1, 0)]),
   (384, [(0, 18, 0, 18), (0, 19, -6, 0), (0, 21, -6, 0), (0, 22, 0, -2), (1, 18, 0, -9), (1, 22, 0, 5), (1, 46, 0, 3), (1, 48, 0, 3)]),
   (96, [(0, 20, -8, 0), (1, 23, 0, 1), (1, 47, 0, 1)]),
   (32, [(1, 51, 1, 0)]),
   (96, [(0, 24, -8, 0), (1, 25, 0, 1), (1, 51, 0, 1)]),
   (96, [(0, 26, 0, 4), (1, 26, 0, -1)]),
   (32, [(1, 54, 1, 0)]),
   (128, [(0, 54, 0, 2), (0, 55, 10, 0), (0, 57, -6, 0), (0, 58, 0, -2), (1, 54, 0, -1), (1, 58, 0, 1), (1, 64, 0, -1), (1, 66, 0, 3)]),
   (1, []),
   (128, [(0, 54, 0, 2), (0, 55, -6, 0), (0, 57, 10, 0), (0, 58, 0, -2), (1, 54, 0, -1), (1, 58, 0, 1), (1, 64, 0, 3), (1, 66, 0, -1)]),
   (32, [(1, 58, 1, 0)]),
   (32, [(1, 59, 1, 0)]),
   (1, []),
   (32, [(1, 61, 1, 0)]),
   (32, [(1, 62, 1, 0)]),
   (384, [(0, 54, 0, -2), (0, 55, 6, 0), (0, 57, 6, 0), (0, 58, 0, 18), (1, 54, 0, 5), (1, 58, 0, -9), (1, 64, 0, -3), (1, 66, 0, -3)]),
   (32, [(1, 64, 1, 0)]),
   (32, [(1, 65, 1, 0)]),
   (32, [(1, 66, 1, 0)]),
   (384, [(0, 54, 0, 18), (0, 55, -6, 0), (0, 57, -6, 0), (0, 58, 0, -2), (1, 54, 0, -9), (1, 58, 0, 5), (1, 64, 0, 3), (1, 66, 0, 3)]),
   (96, [(0, 56, -8, 0), (1, 59, 0, 1), (1, 65, 0, 1)]),
   (32, [(1, 69, 1, 0)]),
   (96, [(0, 60, -8, 0), (1, 61, 0, 1), (1, 69, 0, 1)]),
   (96, [(0, 62, 0, 4), (1, 62, 0, -1)]),
   (1, []),
   (32, [(1, 73, 1, 0)]),
   (32, [(1, 74, 1, 0)]),
   (32, [(1, 75, 1, 0)]),
   (96, [(0, 72, -8, 0), (1, 73, 0, 1), (1, 75, 0, 1)]),
   (96, [(0, 74, 0, 4), (1, 74, 0, -1)]),
   (32, [(1, 78, 1, 0)]),
   (96, [(0, 78, 0, 4), (1, 78, 0, -1)]),
   (1, [])]

theorem check_quadrupole_D_6 : checkTable 4 [.C6z, .C2x] quadrupole_D_6 cert_quadrupole_D_6 = true := by decide +kernel

/-- For `quadrupole['D_6h']`. -/
def cert_quadrupole_D_6h : List Cert :=
  [(96, [(0, 0, 10, 0), (0, 1, 0, 2), (0, 3, 0, 2), (0, 4, 6, 0), (0, 9, 0, 8), (1, 1, 0, -2), (1, 3, 0, -2), (1, 9, 0, -5), (1, 27, 0, -2), (1, 31, 0, -3)]),
   (32, [(1, 1, 1, 0)]),
   (32, [(1, 2, 1, 0)]),
   (32, [(1, 3, 1, 0)]),
   (96, [(0, 0, 2, 0), (0, 1, 0, 2), (0, 3, 0, 2), (0, 4, 6, 0), (1, 1, 0, -1), (1, 3, 0, -1), (1, 9, 0, -1), (1, 27, 0, -1)]),
   (128, [(0, 2, 0, 2), (0, 5, 10, 0), (0, 11, -6, 0), (0, 14, 0, -2), (1, 2, 0, -1), (1, 14, 0, 1), (1, 32, 0, -1), (1, 38, 0, 3)]),
   (32, [(1, 6, 1, 0)]),
   (128, [(0, 6, 0, 2), (0, 7, 10, 0), (0, 15, -6, 0), (0, 16, 0, -2), (1, 6, 0, -1), (1, 16, 0, 1), (1, 34, 0, -1), (1, 42, 0, 3)]),
   (1, []),
   (32, [(1, 9, 1, 0)]),
   (96, [(0, 0, 2, 0), (0, 1, 0, 2), (0, 3, 0, -6), (0, 4, 6, 0), (0, 9, 0, 8), (1, 1, 0, -1), (1, 3, 0, 2), (1, 9, 0, -4), (1, 27, 0, -1), (1, 31, 0, -3), (1, 37, 0, 3)]),
   (128, [(0, 2, 0, 2), (0, 5, -6, 0), (0, 11, 10, 0), (0, 14, 0, -2), (1, 2, 0, -1), (1, 14, 0, 1), (1, 32, 0, 3), (1, 38, 0, -1)]),
   (96, [(0, 0, 2, 0), (0, 1, 0, -6), (0, 3, 0, 2), (0, 4, 6, 0), (0, 9, 0, 8), (1, 1, 0, 2), (1, 3, 0, -1), (1, 9, 0, -4), (1, 27, 0, -1), (1, 31, 0, -3), (1, 39, 0, 3)]),
   (32, [(1, 13, 1, 0)]),
   (32, [(1, 14, 1, 0)]),
   (128, [(0, 6, 0, 2), (0, 7, -6, 0), (0, 15, 10, 0), (0, 16, 0, -2), (1, 6, 0, -1), (1, 16, 0, 1), (1, 34, 0, 3), (1, 42, 0, -1)]),
   (32, [(1, 16, 1, 0)]),
   (32, [(1, 17, 1, 0)]),
   (32, [(1, 18, 1, 0)]),
   (128, [(0, 18, 0, 2), (0, 19, 10, 0), (0, 21, -6, 0), (0, 22, 0, -2), (1, 18, 0, -1), (1, 22, 0, 1), (1, 46, 0, -1), (1, 48, 0, 3)]),
   (1, []),
   (128, [(0, 18, 0, 2), (0, 19, -6, 0), (0, 21, 10, 0), (0, 22, 0, -2), (1, 18, 0, -1), (1, 22, 0, 1), (1, 46, 0, 3), (1, 48, 0, -1)]),
   (32, [(1, 22, 1, 0)]),
   (32, [(1, 23, 1, 0)]),
   (1, []),
   (32, [(1, 25, 1, 0)]),
   (32, [(1, 26, 1, 0)]),
   (32, [(1, 27, 1, 0)]),
   (1, []),
   (384, [(0, 2, 0, -2), (0, 5, 6, 0), (0, 11, 6, 0), (0, 14, 0, 18), (1, 2, 0, 5), (1, 14, 0, -9), (1, 32, 0, -3), (1, 38, 0, -3)]),
   (1, []),
   (32, [(1, 31, 1, 0)]),
   (32, [(1, 32, 1, 0)]),
   (384, [(0, 6, 0, -2), (0, 7, 6, 0), (0, 15, 6, 0), (0, 16, 0, 18), (1, 6, 0, 5), (1, 16, 0, -9), (1, 34, 0, -3), (1, 42, 0, -3)]),
   (32, [(1, 34, 1, 0)]),
   (32, [(1, 35, 1, 0)]),
   (1, []),
   (32, [(1, 37, 1, 0)]),
   (32, [(1, 38, 1, 0)]),
   (32, [(1, 39, 1, 0)]),
   (96, [(0, 0, 4, 0), (0, 1, 0, 4), (0, 3, 0, 4), (0, 4, 4, 0), (0, 9, 0, 8), (1, 1, 0, -3), (1, 3, 0, -3), (1, 9, 0, -5), (1, 13, 0, 1), (1, 27, 0, -2), (1, 31, 0, -2)]),
   (384, [(0, 2, 0, 18), (0, 5, -6, 0), (0, 11, -6, 0), (0, 14, 0, -2), (1, 2, 0, -9), (1, 14, 0, 5), (1, 32, 0, 3), (1, 38, 0, 3)]),
   (32, [(1, 42, 1, 0)]),
   (384, [(0, 6, 0, 18), (0, 7, -6, 0), (0, 15, -6, 0), (0, 16, 0, -2), (1, 6, 0, -9), (1, 16, 0, 5), (1, 34, 0, 3), (1, 42, 0, 3)]),
   (96, [(0, 8, -8, 0), (1, 17, 0, 1), (1, 35, 0, 1)]),
   (384, [(0, 18, 0, -2), (0, 19, 6, 0), (0, 21, 6, 0), (0, 22, 0, 18), (1, 18, 0, 5), (1, 22, 0, -9), (1, 46, 0, -3), (1, 48, 0, -3)]),
   (32, [(1, 46, 1, 0)]),
   (32, [(1, 47, 1, 0)]),
   (32, [(1, 48, 1, 0)]),
   (384, [(0, 18, 0, 18), (0, 19, -6, 0), (0, 21, -6, 0), (0, 22, 0, -2), (1, 18, 0, -9), (1, 22, 0, 5), (1, 46, 0, 3), (1, 48, 0, 3)]),
   (96, [(0, 20, -8, 0), (1, 23, 0, 1), (1, 47, 0, 1)]),
   (32, [(1, 51, 1, 0)]),
   (96, [(0, 24, -8, 0), (1, 25, 0, 1), (1, 51, 0, 1)]),
   (96, [(0, 26, 0, 4), (1, 26, 0, -1)]),
   (32, [(1, 54, 1, 0)]),
   (128, [(0, 54, 0, 2), (0, 55, 10, 0), (0, 57, -6, 0), (0, 58, 0, -2), (1, 54, 0, -1), (1, 58, 0, 1), (1, 64, 0, -1), (1, 66, 0, 3)]),
   (1, []),
   (128, [(0, 54, 0, 2), (0, 55, -6, 0), (0, 57, 10, 0), (0, 58, 0, -2), (1, 54, 0, -1), (1, 58, 0, 1), (1, 64, 0, 3), (1, 66, 0, -1)]),
   (32, [(1, 58, 1, 0)]),
   (32, [(1, 59, 1, 0)]),
   (1, []),
   (32, [(1, 61, 1, 0)]),
   (32, [(1, 62, 1, 0)]),
   (384, [(0, 54, 0, -2), (0, 55, 6, 0), (0, 57, 6, 0), (0, 58, 0, 18), (1, 54, 0, 5), (1, 58, 0, -9), (1, 64, 0, -3), (1, 66, 0, -3)]),
   (32, [(1, 64, 1, 0)]),
   (32, [(1, 65, 1, 0)]),
   (32, [(1, 66, 1, 0)]),
   (384, [(0, 54, 0, 18), (0, 55, -6, 0), (0, 57, -6, 0), (0, 58, 0, -2), (1, 54, 0, -9), (1, 58, 0, 5), (1, 64, 0, 3), (1, 66, 0, 3)]),
   (96, [(0, 56, -8, 0), (1, 59, 0, 1), (1, 65, 0, 1)]),
   (32, [(1, 69, 1, 0)]),
   (96, [(0, 60, -8, 0), (1, 61, 0, 1), (1, 69, 0, 1)]),
   (96, [(0, 62, 0, 4), (1, 62, 0, -1)]),
   (1, []),
   (32, [(1, 73, 1, 0)]),
   (32, [(1, 74, 1, 0)]),
   (32, [(1, 75, 1, 0)]),
   (96, [(0, 72, -8, 0), (1, 73, 0, 1), (1, 75, 0, 1)]),
   (96, [(0, 74, 0, 4), (1, 74, 0, -1)]),
   (32, [(1, 78, 1, 0)]),
   (96, [(0, 78, 0, 4), (1, 78, 0, -1)]),
   (1, [])]

theorem check_quadrupole_D_6h : checkTable 4 [.C6z, .C2x, .inv] quadrupole_D_6h cert_quadrupole_D_6h = true := by decide +kernel

/-- For `quadrupole['D_3h']`. -/
def cert_quadrupole_D_3h : List Cert :=
  [(96, [(0, 0, 10, 0), (0, 1, 0, -2), (0, 3, 0, -2), (0, 4, 6, 0), (0, 9, 0, -8), (2, 1, 0, 2), (2, 3, 0, 2), (2, 9, 0, 5), (2, 27, 0, 2), (2, 31, 0, 3)]),
   (32, [(2, 1, 1, 0)]),
   (32, [(1, 2, 1, 0)]),
   (32, [(2, 3, 1, 0)]),
   (96, [(0, 0, 2, 0), (0, 1, 0, -2), (0, 3, 0, -2), (0, 4, 6, 0), (2, 1, 0, 1), (2, 3, 0, 1), (2, 9, 0, 1), (2, 27, 0, 1)]),
   (32, [(1, 5, 1, 0)]),
   (32, [(1, 6, 1, 0)]),
   (32, [(1, 7, 1, 0)]),
   (1, []),
   (32, [(2, 9, 1, 0)]),
   (96, [(0, 0, 2, 0), (0, 1, 0, -2), (0, 3, 0, 6), (0, 4, 6, 0), (0, 9, 0, -8), (2, 1, 0, 1), (2, 3, 0, -2), (2, 9, 0, 4), (2, 27, 0, 1), (2, 31, 0, 3), (2, 37, 0, -3)]),
   (32, [(1, 11, 1, 0)]),
   (96, [(0, 0, 2, 0), (0, 1, 0, 6), (0, 3, 0, -2), (0, 4, 6, 0), (0, 9, 0, -8), (2, 1, 0, -2), (2, 3, 0, 1), (2, 9, 0, 4), (2, 27, 0, 1), (2, 31, 0, 3), (2, 39, 0, -3)]),
   (32, [(2, 13, 1, 0)]),
   (32, [(1, 14, 1, 0)]),
   (32, [(1, 15, 1, 0)]),
   (32, [(1, 16, 1, 0)]),
   (32, [(2, 17, 1, 0)]),
   (32, [(1, 18, 1, 0)]),
   (32, [(1, 19, 1, 0)]),
   (1, []),
   (32, [(1, 21, 1, 0)]),
   (32, [(1, 22, 1, 0)]),
   (32, [(2, 23, 1, 0)]),
   (1, []),
   (32, [(2, 25, 1, 0)]),
   (32, [(1, 26, 1, 0)]),
   (32, [(2, 27, 1, 0)]),
   (1, []),
   (32, [(1, 29, 1, 0)]),
   (1, []),
   (32, [(2, 31, 1, 0)]),
   (32, [(1, 32, 1, 0)]),
   (32, [(1, 33, 1, 0)]),
   (32, [(1, 34, 1, 0)]),
   (32, [(2, 35, 1, 0)]),
   (1, []),
   (32, [(2, 37, 1, 0)]),
   (32, [(1, 38, 1, 0)]),
   (32, [(2, 39, 1, 0)]),
   (96, [(0, 0, 4, 0), (0, 1, 0, -4), (0, 3, 0, -4), (0, 4, 4, 0), (0, 9, 0, -8), (2, 1, 0, 3), (2, 3, 0, 3), (2, 9, 0, 5), (2, 13, 0, -1), (2, 27, 0, 2), (2, 31, 0, 2)]),
   (32, [(1, 41, 1, 0)]),
   (32, [(1, 42, 1, 0)]),
   (32, [(1, 43, 1, 0)]),
   (96, [(0, 8, -8, 0), (2, 17, 0, -1), (2, 35, 0, -1)]),
   (32, [(1, 45, 1, 0)]),
   (32, [(1, 46, 1, 0)]),
   (32, [(2, 47, 1, 0)]),
   (32, [(1, 48, 1, 0)]),
   (32, [(1, 49, 1, 0)]),
   (96, [(0, 20, -8, 0), (2, 23, 0, -1), (2, 47, 0, -1)]),
   (32, [(2, 51, 1, 0)]),
   (96, [(0, 24, -8, 0), (2, 25, 0, -1), (2, 51, 0, -1)]),
   (32, [(1, 53, 1, 0)]),
   (32, [(1, 54, 1, 0)]),
   (32, [(1, 55, 1, 0)]),
   (1, []),
   (32, [(1, 57, 1, 0)]),
   (32, [(1, 58, 1, 0)]),
   (32, [(2, 59, 1, 0)]),
   (1, []),
   (32, [(2, 61, 1, 0)]),
   (32, [(1, 62, 1, 0)]),
   (32, [(1, 63, 1, 0)]),
   (32, [(1, 64, 1, 0)]),
   (32, [(2, 65, 1, 0)]),
   (32, [(1, 66, 1, 0)]),
   (32, [(1, 67, 1, 0)]),
   (96, [(0, 56, -8, 0), (2, 59, 0, -1), (2, 65, 0, -1)]),
   (32, [(2, 69, 1, 0)]),
   (96, [(0, 60, -8, 0), (2, 61, 0, -1), (2, 69, 0, -1)]),
   (32, [(1, 71, 1, 0)]),
   (1, []),
   (32, [(2, 73, 1, 0)]),
   (32, [(1, 74, 1, 0)]),
   (32, [(2, 75, 1, 0)]),
   (96, [(0, 72, -8, 0), (2, 73, 0, -1), (2, 75, 0, -1)]),
   (32, [(1, 77, 1, 0)]),
   (32, [(1, 78, 1, 0)]),
   (32, [(1, 79, 1, 0)]),
   (1, [])]

theorem check_quadrupole_D_3h : checkTable 4 [.C3z, .mz, .mx] quadrupole_D_3h cert_quadrupole_D_3h = true := by decide +kernel

/-- For `quadrupole['C_3']`. -/
def cert_quadrupole_C_3 : List Cert :=
  [(96, [(0, 0, 3, 0), (0, 4, 3, 0), (0, 10, 3, 0), (0, 12, -6, 0), (0, 13, 0, 3), (0, 27, 0, -1), (0, 28, -9, 0)]),
   (96, [(0, 0, 0, -2), (0, 1, 3, 0), (0, 3, 3, 0), (0, 9, 3, 0), (0, 12, 0, -3), (0, 27, 3, 0), (0, 28, 0, -3)]),
   (96, [(0, 2, 6, 0), (0, 5, 0, -2), (0, 11, 0, -1), (0, 14, -3, 0), (0, 29, 0, -1), (0, 32, -3, 0)]),
   (1, []),
   (96, [(0, 1, 0, -1), (0, 3, 0, -1), (0, 4, 6, 0), (0, 9, 0, 1), (0, 12, -3, 0), (0, 27, 0, 1), (0, 28, -3, 0)]),
   (1, []),
   (96, [(0, 6, 6, 0), (0, 7, 0, -2), (0, 15, 0, -1), (0, 16, -3, 0), (0, 33, 0, -1), (0, 34, -3, 0)]),
   (1, []),
   (1, []),
   (1, []),
   (96, [(0, 1, 0, -1), (0, 3, 0, 1), (0, 9, 0, -1), (0, 10, 6, 0), (0, 12, -3, 0), (0, 27, 0, 1), (0, 28, -3, 0)]),
   (96, [(0, 2, 0, -1), (0, 5, -3, 0), (0, 11, 3, 0), (0, 14, 0, 1), (0, 32, 0, 2)]),
   (96, [(0, 1, 0, 1), (0, 3, 0, -1), (0, 9, 0, -1), (0, 12, 3, 0), (0, 27, 0, 1), (0, 28, -3, 0)]),
   (96, [(0, 0, 0, -1), (0, 4, 0, -1), (0, 10, 0, -1), (0, 13, 3, 0), (0, 27, 3, 0), (0, 28, 0, 1)]),
   (96, [(0, 2, -3, 0), (0, 5, 0, 1), (0, 14, 6, 0), (0, 29, 0, -1), (0, 32, 3, 0)]),
   (96, [(0, 6, 0, -1), (0, 7, -3, 0), (0, 15, 3, 0), (0, 16, 0, 1), (0, 34, 0, 2)]),
   (96, [(0, 6, -3, 0), (0, 7, 0, 1), (0, 16, 6, 0), (0, 33, 0, -1), (0, 34, 3, 0)]),
   (48, [(0, 8, 0, -1), (0, 17, 3, 0)]),
   (96, [(0, 18, 3, 0), (0, 19, 0, -1), (0, 21, 0, -1), (0, 22, 3, 0), (0, 45, 0, -2)]),
   (1, []),
   (1, []),
   (96, [(0, 18, 0, -1), (0, 19, -3, 0), (0, 21, 3, 0), (0, 22, 0, 1), (0, 46, 0, 2)]),
   (1, []),
   (48, [(0, 20, 0, -1), (0, 23, 3, 0)]),
   (1, []),
   (48, [(0, 24, 0, -1), (0, 25, 3, 0)]),
   (96, [(0, 26, 3, 0), (0, 53, 0, -1)]),
   (1, []),
   (1, []),
   (96, [(0, 2, 0, -1), (0, 5, -3, 0), (0, 14, 0, 2), (0, 29, 3, 0), (0, 32, 0, 1)]),
   (1, []),
   (96, [(0, 0, 0, -1), (0, 4, 0, -1), (0, 9, 6, 0), (0, 10, 0, 1), (0, 13, 3, 0), (0, 27, -3, 0), (0, 28, 0, -1)]),
   (96, [(0, 2, -3, 0), (0, 5, 0, 1), (0, 11, 0, -1), (0, 14, 3, 0), (0, 32, 6, 0)]),
   (96, [(0, 6, 0, -1), (0, 7, -3, 0), (0, 16, 0, 2), (0, 33, 3, 0), (0, 34, 0, 1)]),
   (96, [(0, 6, -3, 0), (0, 7, 0, 1), (0, 15, 0, -1), (0, 16, 3, 0), (0, 34, 6, 0)]),
   (1, []),
   (1, []),
   (96, [(0, 0, 0, -1), (0, 3, 6, 0), (0, 4, 0, 1), (0, 10, 0, -1), (0, 13, 3, 0), (0, 27, -3, 0), (0, 28, 0, -1)]),
   (1, []),
   (96, [(0, 0, 0, 1), (0, 1, 3, 0), (0, 3, -3, 0), (0, 4, 0, 1), (0, 9, -3, 0), (0, 10, 0, 1), (0, 12, 0, 1), (0, 13, 3, 0), (0, 27, -6, 0), (0, 28, 0, 2)]),
   (96, [(0, 0, -3, 0), (0, 1, 0, -1), (0, 3, 0, -1), (0, 4, 3, 0), (0, 9, 0, -1), (0, 10, 3, 0), (0, 12, -9, 0), (0, 13, 0, 1), (0, 28, -12, 0)]),
   (96, [(0, 2, 0, 2), (0, 5, 6, 0), (0, 11, 3, 0), (0, 14, 0, -1), (0, 29, 3, 0), (0, 32, 0, -1)]),
   (1, []),
   (96, [(0, 6, 0, 2), (0, 7, 6, 0), (0, 15, 3, 0), (0, 16, 0, -1), (0, 33, 3, 0), (0, 34, 0, -1)]),
   (48, [(0, 8, -3, 0), (0, 17, 0, -1)]),
   (96, [(0, 18, 0, -1), (0, 19, -3, 0), (0, 22, 0, 2), (0, 45, 3, 0), (0, 46, 0, 1)]),
   (96, [(0, 21, 0, -1), (0, 22, -3, 0), (0, 45, 0, 1), (0, 46, 3, 0)]),
   (1, []),
   (96, [(0, 18, 3, 0), (0, 19, 0, -1), (0, 22, -6, 0), (0, 45, 0, 1), (0, 46, -3, 0)]),
   (96, [(0, 18, 0, 2), (0, 19, 6, 0), (0, 21, 3, 0), (0, 22, 0, -1), (0, 45, 3, 0), (0, 46, 0, -1)]),
   (48, [(0, 20, -3, 0), (0, 23, 0, -1)]),
   (1, []),
   (48, [(0, 24, -3, 0), (0, 25, 0, -1)]),
   (96, [(0, 26, 0, 1), (0, 53, 3, 0)]),
   (96, [(0, 54, 6, 0), (0, 55, 0, -2), (0, 57, 0, -1), (0, 58, -3, 0), (0, 63, 0, -1), (0, 64, -3, 0)]),
   (1, []),
   (1, []),
   (96, [(0, 54, 0, -1), (0, 55, -3, 0), (0, 57, 3, 0), (0, 58, 0, 1), (0, 64, 0, 2)]),
   (96, [(0, 54, -3, 0), (0, 55, 0, 1), (0, 58, 6, 0), (0, 63, 0, -1), (0, 64, 3, 0)]),
   (48, [(0, 56, 0, -1), (0, 59, 3, 0)]),
   (1, []),
   (48, [(0, 60, 0, -1), (0, 61, 3, 0)]),
   (96, [(0, 62, 3, 0), (0, 71, 0, -1)]),
   (96, [(0, 54, 0, -1), (0, 55, -3, 0), (0, 58, 0, 2), (0, 63, 3, 0), (0, 64, 0, 1)]),
   (96, [(0, 54, -3, 0), (0, 55, 0, 1), (0, 57, 0, -1), (0, 58, 3, 0), (0, 64, 6, 0)]),
   (1, []),
   (1, []),
   (96, [(0, 54, 0, 2), (0, 55, 6, 0), (0, 57, 3, 0), (0, 58, 0, -1), (0, 63, 3, 0), (0, 64, 0, -1)]),
   (48, [(0, 56, -3, 0), (0, 59, 0, -1)]),
   (1, []),
   (48, [(0, 60, -3, 0), (0, 61, 0, -1)]),
   (96, [(0, 62, 0, 1), (0, 71, 3, 0)]),
   (1, []),
   (48, [(0, 72, 0, -1), (0, 73, 3, 0)]),
   (96, [(0, 74, 3, 0), (0, 77, 0, -1)]),
   (1, []),
   (48, [(0, 72, -3, 0), (0, 73, 0, -1)]),
   (96, [(0, 74, 0, 1), (0, 77, 3, 0)]),
   (96, [(0, 78, 3, 0), (0, 79, 0, -1)]),
   (96, [(0, 78, 0, 1), (0, 79, 3, 0)]),
   (1, [])]

theorem check_quadrupole_C_3 : checkTable 4 [.C3z] quadrupole_C_3 cert_quadrupole_C_3 = true := by decide +kernel

/-- For `quadrupole['S_6']`. -/
def cert_quadrupole_S_6 : List Cert :=
  [(96, [(0, 0, 3, 0), (0, 4, 3, 0), (0, 10, 3, 0), (0, 12, -6, 0), (0, 13, 0, 3), (0, 27, 0, -1), (0, 28, -9, 0)]),
   (96, [(0, 0, 0, -2), (0, 1, 3, 0), (0, 3, 3, 0), (0, 9, 3, 0), (0, 12, 0, -3), (0, 27, 3, 0), (0, 28, 0, -3)]),
   (96, [(0, 2, 6, 0), (0, 5, 0, -2), (0, 11, 0, -1), (0, 14, -3, 0), (0, 29, 0, -1), (0, 32, -3, 0)]),
   (1, []),
   (96, [(0, 1, 0, -1), (0, 3, 0, -1), (0, 4, 6, 0), (0, 9, 0, 1), (0, 12, -3, 0), (0, 27, 0, 1), (0, 28, -3, 0)]),
   (1, []),
   (96, [(0, 6, 6, 0), (0, 7, 0, -2), (0, 15, 0, -1), (0, 16, -3, 0), (0, 33, 0, -1), (0, 34, -3, 0)]),
   (1, []),
   (1, []),
   (1, []),
   (96, [(0, 1, 0, -1), (0, 3, 0, 1), (0, 9, 0, -1), (0, 10, 6, 0), (0, 12, -3, 0), (0, 27, 0, 1), (0, 28, -3, 0)]),
   (96, [(0, 2, 0, -1), (0, 5, -3, 0), (0, 11, 3, 0), (0, 14, 0, 1), (0, 32, 0, 2)]),
   (96, [(0, 1, 0, 1), (0, 3, 0, -1), (0, 9, 0, -1), (0, 12, 3, 0), (0, 27, 0, 1), (0, 28, -3, 0)]),
   (96, [(0, 0, 0, -1), (0, 4, 0, -1), (0, 10, 0, -1), (0, 13, 3, 0), (0, 27, 3, 0), (0, 28, 0, 1)]),
   (96, [(0, 2, -3, 0), (0, 5, 0, 1), (0, 14, 6, 0), (0, 29, 0, -1), (0, 32, 3, 0)]),
   (96, [(0, 6, 0, -1), (0, 7, -3, 0), (0, 15, 3, 0), (0, 16, 0, 1), (0, 34, 0, 2)]),
   (96, [(0, 6, -3, 0), (0, 7, 0, 1), (0, 16, 6, 0), (0, 33, 0, -1), (0, 34, 3, 0)]),
   (48, [(0, 8, 0, -1), (0, 17, 3, 0)]),
   (96, [(0, 18, 3, 0), (0, 19, 0, -1), (0, 21, 0, -1), (0, 22, 3, 0), (0, 45, 0, -2)]),
   (1, []),
   (1, []),
   (96, [(0, 18, 0, -1), (0, 19, -3, 0), (0, 21, 3, 0), (0, 22, 0, 1), (0, 46, 0, 2)]),
   (1, []),
   (48, [(0, 20, 0, -1), (0, 23, 3, 0)]),
   (1, []),
   (48, [(0, 24, 0, -1), (0, 25, 3, 0)]),
   (96, [(0, 26, 3, 0), (0, 53, 0, -1)]),
   (1, []),
   (1, []),
   (96, [(0, 2, 0, -1), (0, 5, -3, 0), (0, 14, 0, 2), (0, 29, 3, 0), (0, 32, 0, 1)]),
   (1, []),
   (96, [(0, 0, 0, -1), (0, 4, 0, -1), (0, 9, 6, 0), (0, 10, 0, 1), (0, 13, 3, 0), (0, 27, -3, 0), (0, 28, 0, -1)]),
   (96, [(0, 2, -3, 0), (0, 5, 0, 1), (0, 11, 0, -1), (0, 14, 3, 0), (0, 32, 6, 0)]),
   (96, [(0, 6, 0, -1), (0, 7, -3, 0), (0, 16, 0, 2), (0, 33, 3, 0), (0, 34, 0, 1)]),
   (96, [(0, 6, -3, 0), (0, 7, 0, 1), (0, 15, 0, -1), (0, 16, 3, 0), (0, 34, 6, 0)]),
   (1, []),
   (1, []),
   (96, [(0, 0, 0, -1), (0, 3, 6, 0), (0, 4, 0, 1), (0, 10, 0, -1), (0, 13, 3, 0), (0, 27, -3, 0), (0, 28, 0, -1)]),
   (1, []),
   (96, [(0, 0, 0, 1), (0, 1, 3, 0), (0, 3, -3, 0), (0, 4, 0, 1), (0, 9, -3, 0), (0, 10, 0, 1), (0, 12, 0, 1), (0, 13, 3, 0), (0, 27, -6, 0), (0, 28, 0, 2)]),
   (96, [(0, 0, -3, 0), (0, 1, 0, -1), (0, 3, 0, -1), (0, 4, 3, 0), (0, 9, 0, -1), (0, 10, 3, 0), (0, 12, -9, 0), (0, 13, 0, 1), (0, 28, -12, 0)]),
   (96, [(0, 2, 0, 2), (0, 5, 6, 0), (0, 11, 3, 0), (0, 14, 0, -1), (0, 29, 3, 0), (0, 32, 0, -1)]),
   (1, []),
   (96, [(0, 6, 0, 2), (0, 7, 6, 0), (0, 15, 3, 0), (0, 16, 0, -1), (0, 33, 3, 0), (0, 34, 0, -1)]),
   (48, [(0, 8, -3, 0), (0, 17, 0, -1)]),
   (96, [(0, 18, 0, -1), (0, 19, -3, 0), (0, 22, 0, 2), (0, 45, 3, 0), (0, 46, 0, 1)]),
   (96, [(0, 21, 0, -1), (0, 22, -3, 0), (0, 45, 0, 1), (0, 46, 3, 0)]),
   (1, []),
   (96, [(0, 18, 3, 0), (0, 19, 0, -1), (0, 22, -6, 0), (0, 45, 0, 1), (0, 46, -3, 0)]),
   (96, [(0, 18, 0, 2), (0, 19, 6, 0), (0, 21, 3, 0), (0, 22, 0, -1), (0, 45, 3, 0), (0, 46, 0, -1)]),
   (48, [(0, 20, -3, 0), (0, 23, 0, -1)]),
   (1, []),
   (48, [(0, 24, -3, 0), (0, 25, 0, -1)]),
   (96, [(0, 26, 0, 1), (0, 53, 3, 0)]),
   (96, [(0, 54, 6, 0), (0, 55, 0, -2), (0, 57, 0, -1), (0, 58, -3, 0), (0, 63, 0, -1), (0, 64, -3, 0)]),
   (1, []),
   (1, []),
   (96, [(0, 54, 0, -1), (0, 55, -3, 0), (0, 57, 3, 0), (0, 58, 0, 1), (0, 64, 0, 2)]),
   (96, [(0, 54, -3, 0), (0, 55, 0, 1), (0, 58, 6, 0), (0, 63, 0, -1), (0, 64, 3, 0)]),
   (48, [(0, 56, 0, -1), (0, 59, 3, 0)]),
   (1, []),
   (48, [(0, 60, 0, -1), (0, 61, 3, 0)]),
   (96, [(0, 62, 3, 0), (0, 71, 0, -1)]),
   (96, [(0, 54, 0, -1), (0, 55, -3, 0), (0, 58, 0, 2), (0, 63, 3, 0), (0, 64, 0, 1)]),
   (96, [(0, 54, -3, 0), (0, 55, 0, 1), (0, 57, 0, -1), (0, 58, 3, 0), (0, 64, 6, 0)]),
   (1, []),
   (1, []),
   (96, [(0, 54, 0, 2), (0, 55, 6, 0), (0, 57, 3, 0), (0, 58, 0, -1), (0, 63, 3, 0), (0, 64, 0, -1)]),
   (48, [(0, 56, -3, 0), (0, 59, 0, -1)]),
   (1, []),
   (48, [(0, 60, -3, 0), (0, 61, 0, -1)]),
   (96, [(0, 62, 0, 1), (0, 71, 3, 0)]),
   (1, []),
   (48, [(0, 72, 0, -1), (0, 73, 3, 0)]),
   (96, [(0, 74, 3, 0), (0, 77, 0, -1)]),
   (1, []),
   (48, [(0, 72, -3, 0), (0, 73, 0, -1)]),
   (96, [(0, 74, 0, 1), (0, 77, 3, 0)]),
   (96, [(0, 78, 3, 0), (0, 79, 0, -1)]),
   (96, [(0, 78, 0, 1), (0, 79, 3, 0)]),
   (1, [])]

theorem check_quadrupole_S_6 : checkTable 4 [.C3z, .inv] quadrupole_S_6 cert_quadrupole_S_6 = true := by decide +kernel

/-- For `quadrupole['C_3v']`. -/
def cert_quadrupole_C_3v : List Cert :=
  [(96, [(0, 0, 10, 0), (0, 1, 0, -2), (0, 3, 0, -2), (0, 4, 6, 0), (0, 9, 0, -8), (1, 1, 0, 2), (1, 3, 0, 2), (1, 9, 0, 5), (1, 27, 0, 2), (1, 31, 0, 3)]),
   (32, [(1, 1, 1, 0)]),
   (96, [(0, 2, 4, 0), (0, 5, 0, -4), (1, 5, 0, 2), (1, 11, 0, -1), (1, 29, 0, -1)]),
   (32, [(1, 3, 1, 0)]),
   (96, [(0, 0, 2, 0), (0, 1, 0, -2), (0, 3, 0, -2), (0, 4, 6, 0), (1, 1, 0, 1), (1, 3, 0, 1), (1, 9, 0, 1), (1, 27, 0, 1)]),
   (32, [(1, 5, 1, 0)]),
   (96, [(0, 6, 4, 0), (0, 7, 0, -4), (1, 7, 0, 2), (1, 15, 0, -1), (1, 33, 0, -1)]),
   (32, [(1, 7, 1, 0)]),
   (1, []),
   (32, [(1, 9, 1, 0)]),
   (96, [(0, 0, 2, 0), (0, 1, 0, -2), (0, 3, 0, 6), (0, 4, 6, 0), (0, 9, 0, -8), (1, 1, 0, 1), (1, 3, 0, -2), (1, 9, 0, 4), (1, 27, 0, 1), (1, 31, 0, 3), (1, 37, 0, -3)]),
   (32, [(1, 11, 1, 0)]),
   (96, [(0, 0, 2, 0), (0, 1, 0, 6), (0, 3, 0, -2), (0, 4, 6, 0), (0, 9, 0, -8), (1, 1, 0, -2), (1, 3, 0, 1), (1, 9, 0, 4), (1, 27, 0, 1), (1, 31, 0, 3), (1, 39, 0, -3)]),
   (32, [(1, 13, 1, 0)]),
   (96, [(0, 2, 4, 0), (0, 5, 0, 8), (0, 11, 0, 4), (1, 5, 0, -4), (1, 11, 0, -1), (1, 29, 0, 2), (1, 41, 0, -3)]),
   (32, [(1, 15, 1, 0)]),
   (96, [(0, 6, 4, 0), (0, 7, 0, 8), (0, 15, 0, 4), (1, 7, 0, -4), (1, 15, 0, -1), (1, 33, 0, 2), (1, 43, 0, -3)]),
   (32, [(1, 17, 1, 0)]),
   (96, [(0, 18, 4, 0), (0, 19, 0, -4), (1, 19, 0, 2), (1, 21, 0, -1), (1, 45, 0, -1)]),
   (32, [(1, 19, 1, 0)]),
   (1, []),
   (32, [(1, 21, 1, 0)]),
   (96, [(0, 18, 4, 0), (0, 19, 0, 8), (0, 21, 0, 4), (1, 19, 0, -4), (1, 21, 0, -1), (1, 45, 0, 2), (1, 49, 0, -3)]),
   (32, [(1, 23, 1, 0)]),
   (1, []),
   (32, [(1, 25, 1, 0)]),
   (96, [(0, 26, 4, 0), (1, 53, 0, -1)]),
   (32, [(1, 27, 1, 0)]),
   (1, []),
   (32, [(1, 29, 1, 0)]),
   (1, []),
   (32, [(1, 31, 1, 0)]),
   (96, [(0, 5, 0, 4), (0, 11, 0, -4), (1, 5, 0, -3), (1, 11, 0, 3)]),
   (32, [(1, 33, 1, 0)]),
   (96, [(0, 7, 0, 4), (0, 15, 0, -4), (1, 7, 0, -3), (1, 15, 0, 3)]),
   (32, [(1, 35, 1, 0)]),
   (1, []),
   (32, [(1, 37, 1, 0)]),
   (1, []),
   (32, [(1, 39, 1, 0)]),
   (96, [(0, 0, 4, 0), (0, 1, 0, -4), (0, 3, 0, -4), (0, 4, 4, 0), (0, 9, 0, -8), (1, 1, 0, 3), (1, 3, 0, 3), (1, 9, 0, 5), (1, 13, 0, -1), (1, 27, 0, 2), (1, 31, 0, 2)]),
   (32, [(1, 41, 1, 0)]),
   (1, []),
   (32, [(1, 43, 1, 0)]),
   (96, [(0, 8, -8, 0), (1, 17, 0, -1), (1, 35, 0, -1)]),
   (32, [(1, 45, 1, 0)]),
   (96, [(0, 19, 0, 4), (0, 21, 0, -4), (1, 19, 0, -3), (1, 21, 0, 3)]),
   (32, [(1, 47, 1, 0)]),
   (1, []),
   (32, [(1, 49, 1, 0)]),
   (96, [(0, 20, -8, 0), (1, 23, 0, -1), (1, 47, 0, -1)]),
   (32, [(1, 51, 1, 0)]),
   (96, [(0, 24, -8, 0), (1, 25, 0, -1), (1, 51, 0, -1)]),
   (32, [(1, 53, 1, 0)]),
   (96, [(0, 54, 4, 0), (0, 55, 0, -4), (1, 55, 0, 2), (1, 57, 0, -1), (1, 63, 0, -1)]),
   (32, [(1, 55, 1, 0)]),
   (1, []),
   (32, [(1, 57, 1, 0)]),
   (96, [(0, 54, 4, 0), (0, 55, 0, 8), (0, 57, 0, 4), (1, 55, 0, -4), (1, 57, 0, -1), (1, 63, 0, 2), (1, 67, 0, -3)]),
   (32, [(1, 59, 1, 0)]),
   (1, []),
   (32, [(1, 61, 1, 0)]),
   (96, [(0, 62, 4, 0), (1, 71, 0, -1)]),
   (32, [(1, 63, 1, 0)]),
   (96, [(0, 55, 0, 4), (0, 57, 0, -4), (1, 55, 0, -3), (1, 57, 0, 3)]),
   (32, [(1, 65, 1, 0)]),
   (1, []),
   (32, [(1, 67, 1, 0)]),
   (96, [(0, 56, -8, 0), (1, 59, 0, -1), (1, 65, 0, -1)]),
   (32, [(1, 69, 1, 0)]),
   (96, [(0, 60, -8, 0), (1, 61, 0, -1), (1, 69, 0, -1)]),
   (32, [(1, 71, 1, 0)]),
   (1, []),
   (32, [(1, 73, 1, 0)]),
   (96, [(0, 74, 4, 0), (1, 77, 0, -1)]),
   (32, [(1, 75, 1, 0)]),
   (96, [(0, 72, -8, 0), (1, 73, 0, -1), (1, 75, 0, -1)]),
   (32, [(1, 77, 1, 0)]),
   (96, [(0, 78, 4, 0), (1, 79, 0, -1)]),
   (32, [(1, 79, 1, 0)]),
   (1, [])]

theorem check_quadrupole_C_3v : checkTable 4 [.C3z, .my] quadrupole_C_3v cert_quadrupole_C_3v = true := by decide +kernel

/-- For `quadrupole['D_3d']`. -/
def cert_quadrupole_D_3d : List Cert :=
  [(96, [(0, 0, 10, 0), (0, 1, 0, -2), (0, 3, 0, -2), (0, 4, 6, 0), (0, 9, 0, -8), (1, 1, 0, 2), (1, 3, 0, 2), (1, 9, 0, 5), (1, 27, 0, 2), (1, 31, 0, 3)]),
   (32, [(1, 1, 1, 0)]),
   (96, [(0, 2, 4, 0), (0, 5, 0, -4), (1, 5, 0, 2), (1, 11, 0, -1), (1, 29, 0, -1)]),
   (32, [(1, 3, 1, 0)]),
   (96, [(0, 0, 2, 0), (0, 1, 0, -2), (0, 3, 0, -2), (0, 4, 6, 0), (1, 1, 0, 1), (1, 3, 0, 1), (1, 9, 0, 1), (1, 27, 0, 1)]),
   (32, [(1, 5, 1, 0)]),
   (96, [(0, 6, 4, 0), (0, 7, 0, -4), (1, 7, 0, 2), (1, 15, 0, -1), (1, 33, 0, -1)]),
   (32, [(1, 7, 1, 0)]),
   (1, []),
   (32, [(1, 9, 1, 0)]),
   (96, [(0, 0, 2, 0), (0, 1, 0, -2), (0, 3, 0, 6), (0, 4, 6, 0), (0, 9, 0, -8), (1, 1, 0, 1), (1, 3, 0, -2), (1, 9, 0, 4), (1, 27, 0, 1), (1, 31, 0, 3), (1, 37, 0, -3)]),
   (32, [(1, 11, 1, 0)]),
   (96, [(0, 0, 2, 0), (0, 1, 0, 6), (0, 3, 0, -2), (0, 4, 6, 0), (0, 9, 0, -8), (1, 1, 0, -2), (1, 3, 0, 1), (1, 9, 0, 4), (1, 27, 0, 1), (1, 31, 0, 3), (1, 39, 0, -3)]),
   (32, [(1, 13, 1, 0)]),
   (96, [(0, 2, 4, 0), (0, 5, 0, 8), (0, 11, 0, 4), (1, 5, 0, -4), (1, 11, 0, -1), (1, 29, 0, 2), (1, 41, 0, -3)]),
   (32, [(1, 15, 1, 0)]),
   (96, [(0, 6, 4, 0), (0, 7, 0, 8), (0, 15, 0, 4), (1, 7, 0, -4), (1, 15, 0, -1), (1, 33, 0, 2), (1, 43, 0, -3)]),
   (32, [(1, 17, 1, 0)]),
   (96, [(0, 18, 4, 0), (0, 19, 0, -4), (1, 19, 0, 2), (1, 21, 0, -1), (1, 45, 0, -1)]),
   (32, [(1, 19, 1, 0)]),
   (1, []),
   (32, [(1, 21, 1, 0)]),
   (96, [(0, 18, 4, 0), (0, 19, 0, 8), (0, 21, 0, 4), (1, 19, 0, -4), (1, 21, 0, -1), (1, 45, 0, 2), (1, 49, 0, -3)]),
   (32, [(1, 23, 1, 0)]),
   (1, []),
   (32, [(1, 25, 1, 0)]),
   (96, [(0, 26, 4, 0), (1, 53, 0, -1)]),
   (32, [(1, 27, 1, 0)]),
   (1, []),
   (32, [(1, 29, 1, 0)]),
   (1, []),
   (32, [(1, 31, 1, 0)]),
   (96, [(0, 5, 0, 4), (0, 11, 0, -4), (1, 5, 0, -3), (1, 11, 0, 3)]),
   (32, [(1, 33, 1, 0)]),
   (96, [(0, 7, 0, 4), (0, 15, 0, -4), (1, 7, 0, -3), (1, 15, 0, 3)]),
   (32, [(1, 35, 1, 0)]),
   (1, []),
   (32, [(1, 37, 1, 0)]),
   (1, []),
   (32, [(1, 39, 1, 0)]),
   (96, [(0, 0, 4, 0), (0, 1, 0, -4), (0, 3, 0, -4), (0, 4, 4, 0), (0, 9, 0, -8), (1, 1, 0, 3), (1, 3, 0, 3), (1, 9, 0, 5), (1, 13, 0, -1), (1, 27, 0, 2), (1, 31, 0, 2)]),
   (32, [(1, 41, 1, 0)]),
   (1, []),
   (32, [(1, 43, 1, 0)]),
   (96, [(0, 8, -8, 0), (1, 17, 0, -1), (1, 35, 0, -1)]),
   (32, [(1, 45, 1, 0)]),
   (96, [(0, 19, 0, 4), (0, 21, 0, -4), (1, 19, 0, -3), (1, 21, 0, 3)]),
   (32, [(1, 47, 1, 0)]),
   (1, []),
   (32, [(1, 49, 1, 0)]),
   (96, [(0, 20, -8, 0), (1, 23, 0, -1), (1, 47, 0, -1)]),
   (32, [(1, 51, 1, 0)]),
   (96, [(0, 24, -8, 0), (1, 25, 0, -1), (1, 51, 0, -1)]),
   (32, [(1, 53, 1, 0)]),
   (96, [(0, 54, 4, 0), (0, 55, 0, -4), (1, 55, 0, 2), (1, 57, 0, -1), (1, 63, 0, -1)]),
   (32, [(1, 55, 1, 0)]),
   (1, []),
   (32, [(1, 57, 1, 0)]),
   (96, [(0, 54, 4, 0), (0, 55, 0, 8), (0, 57, 0, 4), (1, 55, 0, -4), (1, 57, 0, -1), (1, 63, 0, 2), (1, 67, 0, -3)]),
   (32, [(1, 59, 1, 0)]),
   (1, []),
   (32, [(1, 61, 1, 0)]),
   (96, [(0, 62, 4, 0), (1, 71, 0, -1)]),
   (32, [(1, 63, 1, 0)]),
   (96, [(0, 55, 0, 4), (0, 57, 0, -4), (1, 55, 0, -3), (1, 57, 0, 3)]),
   (32, [(1, 65, 1, 0)]),
   (1, []),
   (32, [(1, 67, 1, 0)]),
   (96, [(0, 56, -8, 0), (1, 59, 0, -1), (1, 65, 0, -1)]),
   (32, [(1, 69, 1, 0)]),
   (96, [(0, 60, -8, 0), (1, 61, 0, -1), (1, 69, 0, -1)]),
   (32, [(1, 71, 1, 0)]),
   (1, []),
   (32, [(1, 73, 1, 0)]),
   (96, [(0, 74, 4, 0), (1, 77, 0, -1)]),
   (32, [(1, 75, 1, 0)]),
   (96, [(0, 72, -8, 0), (1, 73, 0, -1), (1, 75, 0, -1)]),
   (32, [(1, 77, 1, 0)]),
   (96, [(0, 78, 4, 0), (1, 79, 0, -1)]),
   (32, [(1, 79, 1, 0)]),
   (1, [])]

theorem check_quadrupole_D_3d : checkTable 4 [.C3z, .C2y, .inv] quadrupole_D_3d cert_quadrupole_D_3d = true := by decide +kernel

/-- For `quadrupole['D_3']`. -/
def cert_quadrupole_D_3 : List Cert :=
  [(96, [(0, 0, 10, 0), (0, 1, 0, -2), (0, 3, 0, -2), (0, 4, 6, 0), (0, 9, 0, -8), (1, 1, 0, 2), (1, 3, 0, 2), (1, 9, 0, 5), (1, 27, 0, 2), (1, 31, 0, 3)]),
   (32, [(1, 1, 1, 0)]),
   (96, [(0, 2, 4, 0), (0, 5, 0, -4), (1, 5, 0, 2), (1, 11, 0, -1), (1, 29, 0, -1)]),
   (32, [(1, 3, 1, 0)]),
   (96, [(0, 0, 2, 0), (0, 1, 0, -2), (0, 3, 0, -2), (0, 4, 6, 0), (1, 1, 0, 1), (1, 3, 0, 1), (1, 9, 0, 1), (1, 27, 0, 1)]),
   (32, [(1, 5, 1, 0)]),
   (96, [(0, 6, 4, 0), (0, 7, 0, -4), (1, 7, 0, 2), (1, 15, 0, -1), (1, 33, 0, -1)]),
   (32, [(1, 7, 1, 0)]),
   (1, []),
   (32, [(1, 9, 1, 0)]),
   (96, [(0, 0, 2, 0), (0, 1, 0, -2), (0, 3, 0, 6), (0, 4, 6, 0), (0, 9, 0, -8), (1, 1, 0, 1), (1, 3, 0, -2), (1, 9, 0, 4), (1, 27, 0, 1), (1, 31, 0, 3), (1, 37, 0, -3)]),
   (32, [(1, 11, 1, 0)]),
   (96, [(0, 0, 2, 0), (0, 1, 0, 6), (0, 3, 0, -2), (0, 4, 6, 0), (0, 9, 0, -8), (1, 1, 0, -2), (1, 3, 0, 1), (1, 9, 0, 4), (1, 27, 0, 1), (1, 31, 0, 3), (1, 39, 0, -3)]),
   (32, [(1, 13, 1, 0)]),
   (96, [(0, 2, 4, 0), (0, 5, 0, 8), (0, 11, 0, 4), (1, 5, 0, -4), (1, 11, 0, -1), (1, 29, 0, 2), (1, 41, 0, -3)]),
   (32, [(1, 15, 1, 0)]),
   (96, [(0, 6, 4, 0), (0, 7, 0, 8), (0, 15, 0, 4), (1, 7, 0, -4), (1, 15, 0, -1), (1, 33, 0, 2), (1, 43, 0, -3)]),
   (32, [(1, 17, 1, 0)]),
   (96, [(0, 18, 4, 0), (0, 19, 0, -4), (1, 19, 0, 2), (1, 21, 0, -1), (1, 45, 0, -1)]),
   (32, [(1, 19, 1, 0)]),
   (1, []),
   (32, [(1, 21, 1, 0)]),
   (96, [(0, 18, 4, 0), (0, 19, 0, 8), (0, 21, 0, 4), (1, 19, 0, -4), (1, 21, 0, -1), (1, 45, 0, 2), (1, 49, 0, -3)]),
   (32, [(1, 23, 1, 0)]),
   (1, []),
   (32, [(1, 25, 1, 0)]),
   (96, [(0, 26, 4, 0), (1, 53, 0, -1)]),
   (32, [(1, 27, 1, 0)]),
   (1, []),
   (32, [(1, 29, 1, 0)]),
   (1, []),
   (32, [(1, 31, 1, 0)]),
   (96, [(0, 5, 0, 4), (0, 11, 0, -4), (1, 5, 0, -3), (1, 11, 0, 3)]),
   (32, [(1, 33, 1, 0)]),
   (96, [(0, 7, 0, 4), (0, 15, 0, -4), (1, 7, 0, -3), (1, 15, 0, 3)]),
   (32, [(1, 35, 1, 0)]),
   (1, []),
   (32, [(1, 37, 1, 0)]),
   (1, []),
   (32, [(1, 39, 1, 0)]),
   (96, [(0, 0, 4, 0), (0, 1, 0, -4), (0, 3, 0, -4), (0, 4, 4, 0), (0, 9, 0, -8), (1, 1, 0, 3), (1, 3, 0, 3), (1, 9, 0, 5), (1, 13, 0, -1), (1, 27, 0, 2), (1, 31, 0, 2)]),
   (32, [(1, 41, 1, 0)]),
   (1, []),
   (32, [(1, 43, 1, 0)]),
   (96, [(0, 8, -8, 0), (1, 17, 0, -1), (1, 35, 0, -1)]),
   (32, [(1, 45, 1, 0)]),
   (96, [(0, 19, 0, 4), (0, 21, 0, -4), (1, 19, 0, -3), (1, 21, 0, 3)]),
   (32, [(1, 47, 1, 0)]),
   (1, []),
   (32, [(1, 49, 1, 0)]),
   (96, [(0, 20, -8, 0), (1, 23, 0, -1), (1, 47, 0, -1)]),
   (32, [(1, 51, 1, 0)]),
   (96, [(0, 24, -8, 0), (1, 25, 0, -1), (1, 51, 0, -1)]),
   (32, [(1, 53, 1, 0)]),
   (96, [(0, 54, 4, 0), (0, 55, 0, -4), (1, 55, 0, 2), (1, 57, 0, -1), (1, 63, 0, -1)]),
   (32, [(1, 55, 1, 0)]),
   (1, []),
   (32, [(1, 57, 1, 0)]),
   (96, [(0, 54, 4, 0), (0, 55, 0, 8), (0, 57, 0, 4), (1, 55, 0, -4), (1, 57, 0, -1), (1, 63, 0, 2), (1, 67, 0, -3)]),
   (32, [(1, 59, 1, 0)]),
   (1, []),
   (32, [(1, 61, 1, 0)]),
   (96, [(0, 62, 4, 0), (1, 71, 0, -1)]),
   (32, [(1, 63, 1, 0)]),
   (96, [(0, 55, 0, 4), (0, 57, 0, -4), (1, 55, 0, -3), (1, 57, 0, 3)]),
   (32, [(1, 65, 1, 0)]),
   (1, []),
   (32, [(1, 67, 1, 0)]),
   (96, [(0, 56, -8, 0), (1, 59, 0, -1), (1, 65, 0, -1)]),
   (32, [(1, 69, 1, 0)]),
   (96, [(0, 60, -8, 0), (1, 61, 0, -1), (1, 69, 0, -1)]),
   (32, [(1, 71, 1, 0)]),
   (1, []),
   (32, [(1, 73, 1, 0)]),
   (96, [(0, 74, 4, 0), (1, 77, 0, -1)]),
   (32, [(1, 75, 1, 0)]),
   (96, [(0, 72, -8, 0), (1, 73, 0, -1), (1, 75, 0, -1)]),
   (32, [(1, 77, 1, 0)]),
   (96, [(0, 78, 4, 0), (1, 79, 0, -1)]),
   (32, [(1, 79, 1, 0)]),
   (1, [])]

theorem check_quadrupole_D_3 : checkTable 4 [.C3z, .C2y] quadrupole_D_3 cert_quadrupole_D_3 = true := by decide +kernel

/-- For `quadrupole['C_4']`. -/
def cert_quadrupole_C_4 : List Cert :=
  [(16, [(0, 0, 1, 0)]),
   (16, [(0, 1, 1, 0)]),
   (32, [(0, 2, 1, 0), (0, 41, -1, 0)]),
   (16, [(0, 3, 1, 0)]),
   (16, [(0, 4, 1, 0)]),
   (32, [(0, 5, 1, 0), (0, 38, 1, 0)]),
   (32, [(0, 6, 1, 0), (0, 43, -1, 0)]),
   (32, [(0, 7, 1, 0), (0, 42, 1, 0)]),
   (16, [(0, 8, 1, 0)]),
   (16, [(0, 9, 1, 0)]),
   (16, [(0, 10, 1, 0)]),
   (32, [(0, 11, 1, 0), (0, 32, 1, 0)]),
   (16, [(0, 12, 1, 0)]),
   (1, []),
   (32, [(0, 14, 1, 0), (0, 29, -1, 0)]),
   (32, [(0, 15, 1, 0), (0, 34, 1, 0)]),
   (32, [(0, 16, 1, 0), (0, 33, -1, 0)]),
   (16, [(0, 17, 1, 0)]),
   (32, [(0, 18, 1, 0), (0, 49, -1, 0)]),
   (32, [(0, 19, 1, 0), (0, 48, 1, 0)]),
   (16, [(0, 20, 1, 0)]),
   (32, [(0, 21, 1, 0), (0, 46, 1, 0)]),
   (32, [(0, 22, 1, 0), (0, 45, -1, 0)]),
   (16, [(0, 23, 1, 0)]),
   (16, [(0, 24, 1, 0)]),
   (16, [(0, 25, 1, 0)]),
   (32, [(0, 26, 1, 0), (0, 53, -1, 0)]),
   (16, [(0, 13, 1, 0)]),
   (1, []),
   (32, [(0, 14, 1, 0), (0, 29, 1, 0)]),
   (1, []),
   (1, []),
   (32, [(0, 11, -1, 0), (0, 32, 1, 0)]),
   (32, [(0, 16, 1, 0), (0, 33, 1, 0)]),
   (32, [(0, 15, -1, 0), (0, 34, 1, 0)]),
   (1, []),
   (1, []),
   (1, []),
   (32, [(0, 5, -1, 0), (0, 38, 1, 0)]),
   (1, []),
   (1, []),
   (32, [(0, 2, 1, 0), (0, 41, 1, 0)]),
   (32, [(0, 7, -1, 0), (0, 42, 1, 0)]),
   (32, [(0, 6, 1, 0), (0, 43, 1, 0)]),
   (1, []),
   (32, [(0, 22, 1, 0), (0, 45, 1, 0)]),
   (32, [(0, 21, -1, 0), (0, 46, 1, 0)]),
   (1, []),
   (32, [(0, 19, -1, 0), (0, 48, 1, 0)]),
   (32, [(0, 18, 1, 0), (0, 49, 1, 0)]),
   (1, []),
   (1, []),
   (1, []),
   (32, [(0, 26, 1, 0), (0, 53, 1, 0)]),
   (32, [(0, 54, 1, 0), (0, 67, -1, 0)]),
   (32, [(0, 55, 1, 0), (0, 66, 1, 0)]),
   (16, [(0, 56, 1, 0)]),
   (32, [(0, 57, 1, 0), (0, 64, 1, 0)]),
   (32, [(0, 58, 1, 0), (0, 63, -1, 0)]),
   (16, [(0, 59, 1, 0)]),
   (16, [(0, 60, 1, 0)]),
   (16, [(0, 61, 1, 0)]),
   (32, [(0, 62, 1, 0), (0, 71, -1, 0)]),
   (32, [(0, 58, 1, 0), (0, 63, 1, 0)]),
   (32, [(0, 57, -1, 0), (0, 64, 1, 0)]),
   (1, []),
   (32, [(0, 55, -1, 0), (0, 66, 1, 0)]),
   (32, [(0, 54, 1, 0), (0, 67, 1, 0)]),
   (1, []),
   (1, []),
   (1, []),
   (32, [(0, 62, 1, 0), (0, 71, 1, 0)]),
   (16, [(0, 72, 1, 0)]),
   (16, [(0, 73, 1, 0)]),
   (32, [(0, 74, 1, 0), (0, 77, -1, 0)]),
   (1, []),
   (1, []),
   (32, [(0, 74, 1, 0), (0, 77, 1, 0)]),
   (32, [(0, 78, 1, 0), (0, 79, -1, 0)]),
   (32, [(0, 78, 1, 0), (0, 79, 1, 0)]),
   (1, [])]

theorem check_quadrupole_C_4 : checkTable 4 [.C4z] quadrupole_C_4 cert_quadrupole_C_4 = true := by decide +kernel

/-- For `quadrupole['C_4h']`. -/
def cert_quadrupole_C_4h : List Cert :=
  [(16, [(0, 0, 1, 0)]),
   (16, [(0, 1, 1, 0)]),
   (32, [(0, 2, 1, 0), (0, 41, -1, 0)]),
   (16, [(0, 3, 1, 0)]),
   (16, [(0, 4, 1, 0)]),
   (32, [(0, 5, 1, 0), (0, 38, 1, 0)]),
   (32, [(0, 6, 1, 0), (0, 43, -1, 0)]),
   (32, [(0, 7, 1, 0), (0, 42, 1, 0)]),
   (16, [(0, 8, 1, 0)]),
   (16, [(0, 9, 1, 0)]),
   (16, [(0, 10, 1, 0)]),
   (32, [(0, 11, 1, 0), (0, 32, 1, 0)]),
   (16, [(0, 12, 1, 0)]),
   (1, []),
   (32, [(0, 14, 1, 0), (0, 29, -1, 0)]),
   (32, [(0, 15, 1, 0), (0, 34, 1, 0)]),
   (32, [(0, 16, 1, 0), (0, 33, -1, 0)]),
   (16, [(0, 17, 1, 0)]),
   (32, [(0, 18, 1, 0), (0, 49, -1, 0)]),
   (32, [(0, 19, 1, 0), (0, 48, 1, 0)]),
   (16, [(0, 20, 1, 0)]),
   (32, [(0, 21, 1, 0), (0, 46, 1, 0)]),
   (32, [(0, 22, 1, 0), (0, 45, -1, 0)]),
   (16, [(0, 23, 1, 0)]),
   (16, [(0, 24, 1, 0)]),
   (16, [(0, 25, 1, 0)]),
   (32, [(0, 26, 1, 0), (0, 53, -1, 0)]),
   (16, [(0, 13, 1, 0)]),
   (1, []),
   (32, [(0, 14, 1, 0), (0, 29, 1, 0)]),
   (1, []),
   (1, []),
   (32, [(0, 11, -1, 0), (0, 32, 1, 0)]),
   (32, [(0, 16, 1, 0), (0, 33, 1, 0)]),
   (32, [(0, 15, -1, 0), (0, 34, 1, 0)]),
   (1, []),
   (1, []),
   (1, []),
   (32, [(0, 5, -1, 0), (0, 38, 1, 0)]),
   (1, []),
   (1, []),
   (32, [(0, 2, 1, 0), (0, 41, 1, 0)]),
   (32, [(0, 7, -1, 0), (0, 42, 1, 0)]),
   (32, [(0, 6, 1, 0), (0, 43, 1, 0)]),
   (1, []),
   (32, [(0, 22, 1, 0), (0, 45, 1, 0)]),
   (32, [(0, 21, -1, 0), (0, 46, 1, 0)]),
   (1, []),
   (32, [(0, 19, -1, 0), (0, 48, 1, 0)]),
   (32, [(0, 18, 1, 0), (0, 49, 1, 0)]),
   (1, []),
   (1, []),
   (1, []),
   (32, [(0, 26, 1, 0), (0, 53, 1, 0)]),
   (32, [(0, 54, 1, 0), (0, 67, -1, 0)]),
   (32, [(0, 55, 1, 0), (0, 66, 1, 0)]),
   (16, [(0, 56, 1, 0)]),
   (32, [(0, 57, 1, 0), (0, 64, 1, 0)]),
   (32, [(0, 58, 1, 0), (0, 63, -1, 0)]),
   (16, [(0, 59, 1, 0)]),
   (16, [(0, 60, 1, 0)]),
   (16, [(0, 61, 1, 0)]),
   (32, [(0, 62, 1, 0), (0, 71, -1, 0)]),
   (32, [(0, 58, 1, 0), (0, 63, 1, 0)]),
   (32, [(0, 57, -1, 0), (0, 64, 1, 0)]),
   (1, []),
   (32, [(0, 55, -1, 0), (0, 66, 1, 0)]),
   (32, [(0, 54, 1, 0), (0, 67, 1, 0)]),
   (1, []),
   (1, []),
   (1, []),
   (32, [(0, 62, 1, 0), (0, 71, 1, 0)]),
   (16, [(0, 72, 1, 0)]),
   (16, [(0, 73, 1, 0)]),
   (32, [(0, 74, 1, 0), (0, 77, -1, 0)]),
   (1, []),
   (1, []),
   (32, [(0, 74, 1, 0), (0, 77, 1, 0)]),
   (32, [(0, 78, 1, 0), (0, 79, -1, 0)]),
   (32, [(0, 78, 1, 0), (0, 79, 1, 0)]),
   (1, [])]

theorem check_quadrupole_C_4h : checkTable 4 [.C4z, .inv] quadrupole_C_4h cert_quadrupole_C_4h = true := by decide +kernel

/-- For `quadrupole['S_4']`. -/
def cert_quadrupole_S_4 : List Cert :=
  [(16, [(0, 0, 1, 0)]),
   (16, [(0, 1, 1, 0)]),
   (32, [(0, 2, 1, 0), (0, 41, -1, 0)]),
   (16, [(0, 3, 1, 0)]),
   (16, [(0, 4, 1, 0)]),
   (32, [(0, 5, 1, 0), (0, 38, 1, 0)]),
   (32, [(0, 6, 1, 0), (0, 43, -1, 0)]),
   (32, [(0, 7, 1, 0), (0, 42, 1, 0)]),
   (16, [(0, 8, 1, 0)]),
   (16, [(0, 9, 1, 0)]),
   (16, [(0, 10, 1, 0)]),
   (32, [(0, 11, 1, 0), (0, 32, 1, 0)]),
   (16, [(0, 12, 1, 0)]),
   (1, []),
   (32, [(0, 14, 1, 0), (0, 29, -1, 0)]),
   (32, [(0, 15, 1, 0), (0, 34, 1, 0)]),
   (32, [(0, 16, 1, 0), (0, 33, -1, 0)]),
   (16, [(0, 17, 1, 0)]),
   (32, [(0, 18, 1, 0), (0, 49, -1, 0)]),
   (32, [(0, 19, 1, 0), (0, 48, 1, 0)]),
   (16, [(0, 20, 1, 0)]),
   (32, [(0, 21, 1, 0), (0, 46, 1, 0)]),
   (32, [(0, 22, 1, 0), (0, 45, -1, 0)]),
   (16, [(0, 23, 1, 0)]),
   (16, [(0, 24, 1, 0)]),
   (16, [(0, 25, 1, 0)]),
   (32, [(0, 26, 1, 0), (0, 53, -1, 0)]),
   (16, [(0, 13, 1, 0)]),
   (1, []),
   (32, [(0, 14, 1, 0), (0, 29, 1, 0)]),
   (1, []),
   (1, []),
   (32, [(0, 11, -1, 0), (0, 32, 1, 0)]),
   (32, [(0, 16, 1, 0), (0, 33, 1, 0)]),
   (32, [(0, 15, -1, 0), (0, 34, 1, 0)]),
   (1, []),
   (1, []),
   (1, []),
   (32, [(0, 5, -1, 0), (0, 38, 1, 0)]),
   (1, []),
   (1, []),
   (32, [(0, 2, 1, 0), (0, 41, 1, 0)]),
   (32, [(0, 7, -1, 0), (0, 42, 1, 0)]),
   (32, [(0, 6, 1, 0), (0, 43, 1, 0)]),
   (1, []),
   (32, [(0, 22, 1, 0), (0, 45, 1, 0)]),
   (32, [(0, 21, -1, 0), (0, 46, 1, 0)]),
   (1, []),
   (32, [(0, 19, -1, 0), (0, 48, 1, 0)]),
   (32, [(0, 18, 1, 0), (0, 49, 1, 0)]),
   (1, []),
   (1, []),
   (1, []),
   (32, [(0, 26, 1, 0), (0, 53, 1, 0)]),
   (32, [(0, 54, 1, 0), (0, 67, -1, 0)]),
   (32, [(0, 55, 1, 0), (0, 66, 1, 0)]),
   (16, [(0, 56, 1, 0)]),
   (32, [(0, 57, 1, 0), (0, 64, 1, 0)]),
   (32, [(0, 58, 1, 0), (0, 63, -1, 0)]),
   (16, [(0, 59, 1, 0)]),
   (16, [(0, 60, 1, 0)]),
   (16, [(0, 61, 1, 0)]),
   (32, [(0, 62, 1, 0), (0, 71, -1, 0)]),
   (32, [(0, 58, 1, 0), (0, 63, 1, 0)]),
   (32, [(0, 57, -1, 0), (0, 64, 1, 0)]),
   (1, []),
   (32, [(0, 55, -1, 0), (0, 66, 1, 0)]),
   (32, [(0, 54, 1, 0), (0, 67, 1, 0)]),
   (1, []),
   (1, []),
   (1, []),
   (32, [(0, 62, 1, 0), (0, 71, 1, 0)]),
   (16, [(0, 72, 1, 0)]),
   (16, [(0, 73, 1, 0)]),
   (32, [(0, 74, 1, 0), (0, 77, -1, 0)]),
   (1, []),
   (1, []),
   (32, [(0, 74, 1, 0), (0, 77, 1, 0)]),
   (32, [(0, 78, 1, 0), (0, 79, -1, 0)]),
   (32, [(0, 78, 1, 0), (0, 79, 1, 0)]),
   (1, [])]

theorem check_quadrupole_S_4 : checkTable 4 [.S4z] quadrupole_S_4 cert_quadrupole_S_4 = true := by decide +kernel

/-- For `quadrupole['C_4v']`. -/
def cert_quadrupole_C_4v : List Cert :=
  [(16, [(0, 0, 1, 0)]),
   (32, [(1, 1, 1, 0)]),
   (32, [(1, 2, 1, 0)]),
   (32, [(1, 3, 1, 0)]),
   (16, [(0, 4, 1, 0)]),
   (32, [(0, 5, 2, 0), (1, 38, 1, 0)]),
   (32, [(1, 6, 1, 0)]),
   (32, [(0, 7, 2, 0), (1, 42, 1, 0)]),
   (1, []),
   (32, [(1, 9, 1, 0)]),
   (16, [(0, 10, 1, 0)]),
   (32, [(0, 11, 2, 0), (1, 32, 1, 0)]),
   (16, [(0, 12, 1, 0)]),
   (32, [(1, 13, 1, 0)]),
   (32, [(1, 14, 1, 0)]),
   (32, [(0, 15, 2, 0), (1, 34, 1, 0)]),
   (32, [(1, 16, 1, 0)]),
   (32, [(1, 17, 1, 0)]),
   (32, [(1, 18, 1, 0)]),
   (32, [(0, 19, 2, 0), (1, 48, 1, 0)]),
   (1, []),
   (32, [(0, 21, 2, 0), (1, 46, 1, 0)]),
   (32, [(1, 22, 1, 0)]),
   (32, [(1, 23, 1, 0)]),
   (1, []),
   (32, [(1, 25, 1, 0)]),
   (32, [(1, 26, 1, 0)]),
   (32, [(1, 27, 1, 0)]),
   (1, []),
   (32, [(0, 14, 2, 0), (1, 14, -1, 0)]),
   (1, []),
   (32, [(1, 31, 1, 0)]),
   (32, [(1, 32, 1, 0)]),
   (32, [(0, 16, 2, 0), (1, 16, -1, 0)]),
   (32, [(1, 34, 1, 0)]),
   (32, [(1, 35, 1, 0)]),
   (1, []),
   (32, [(1, 37, 1, 0)]),
   (32, [(1, 38, 1, 0)]),
   (32, [(1, 39, 1, 0)]),
   (1, []),
   (32, [(0, 2, 2, 0), (1, 2, -1, 0)]),
   (32, [(1, 42, 1, 0)]),
   (32, [(0, 6, 2, 0), (1, 6, -1, 0)]),
   (16, [(0, 8, -1, 0)]),
   (32, [(0, 22, 2, 0), (1, 22, -1, 0)]),
   (32, [(1, 46, 1, 0)]),
   (32, [(1, 47, 1, 0)]),
   (32, [(1, 48, 1, 0)]),
   (32, [(0, 18, 2, 0), (1, 18, -1, 0)]),
   (16, [(0, 20, -1, 0)]),
   (32, [(1, 51, 1, 0)]),
   (16, [(0, 24, -1, 0)]),
   (32, [(0, 26, 2, 0), (1, 26, -1, 0)]),
   (32, [(1, 54, 1, 0)]),
   (32, [(0, 55, 2, 0), (1, 66, 1, 0)]),
   (1, []),
   (32, [(0, 57, 2, 0), (1, 64, 1, 0)]),
   (32, [(1, 58, 1, 0)]),
   (32, [(1, 59, 1, 0)]),
   (1, []),
   (32, [(1, 61, 1, 0)]),
   (32, [(1, 62, 1, 0)]),
   (32, [(0, 58, 2, 0), (1, 58, -1, 0)]),
   (32, [(1, 64, 1, 0)]),
   (32, [(1, 65, 1, 0)]),
   (32, [(1, 66, 1, 0)]),
   (32, [(0, 54, 2, 0), (1, 54, -1, 0)]),
   (16, [(0, 56, -1, 0)]),
   (32, [(1, 69, 1, 0)]),
   (16, [(0, 60, -1, 0)]),
   (32, [(0, 62, 2, 0), (1, 62, -1, 0)]),
   (1, []),
   (32, [(1, 73, 1, 0)]),
   (32, [(1, 74, 1, 0)]),
   (32, [(1, 75, 1, 0)]),
   (16, [(0, 72, -1, 0)]),
   (32, [(0, 74, 2, 0), (1, 74, -1, 0)]),
   (32, [(1, 78, 1, 0)]),
   (32, [(0, 78, 2, 0), (1, 78, -1, 0)]),
   (1, [])]

theorem check_quadrupole_C_4v : checkTable 4 [.C4z, .mx] quadrupole_C_4v cert_quadrupole_C_4v = true := by decide +kernel

/-- For `quadrupole['D_4']`. -/
def cert_quadrupole_D_4 : List Cert :=
  [(16, [(0, 0, 1, 0)]),
   (32, [(1, 1, 1, 0)]),
   (32, [(1, 2, 1, 0)]),
   (32, [(1, 3, 1, 0)]),
   (16, [(0, 4, 1, 0)]),
   (32, [(0, 5, 2, 0), (1, 38, 1, 0)]),
   (32, [(1, 6, 1, 0)]),
   (32, [(0, 7, 2, 0), (1, 42, 1, 0)]),
   (1, []),
   (32, [(1, 9, 1, 0)]),
   (16, [(0, 10, 1, 0)]),
   (32, [(0, 11, 2, 0), (1, 32, 1, 0)]),
   (16, [(0, 12, 1, 0)]),
   (32, [(1, 13, 1, 0)]),
   (32, [(1, 14, 1, 0)]),
   (32, [(0, 15, 2, 0), (1, 34, 1, 0)]),
   (32, [(1, 16, 1, 0)]),
   (32, [(1, 17, 1, 0)]),
   (32, [(1, 18, 1, 0)]),
   (32, [(0, 19, 2, 0), (1, 48, 1, 0)]),
   (1, []),
   (32, [(0, 21, 2, 0), (1, 46, 1, 0)]),
   (32, [(1, 22, 1, 0)]),
   (32, [(1, 23, 1, 0)]),
   (1, []),
   (32, [(1, 25, 1, 0)]),
   (32, [(1, 26, 1, 0)]),
   (32, [(1, 27, 1, 0)]),
   (1, []),
   (32, [(0, 14, 2, 0), (1, 14, -1, 0)]),
   (1, []),
   (32, [(1, 31, 1, 0)]),
   (32, [(1, 32, 1, 0)]),
   (32, [(0, 16, 2, 0), (1, 16, -1, 0)]),
   (32, [(1, 34, 1, 0)]),
   (32, [(1, 35, 1, 0)]),
   (1, []),
   (32, [(1, 37, 1, 0)]),
   (32, [(1, 38, 1, 0)]),
   (32, [(1, 39, 1, 0)]),
   (1, []),
   (32, [(0, 2, 2, 0), (1, 2, -1, 0)]),
   (32, [(1, 42, 1, 0)]),
   (32, [(0, 6, 2, 0), (1, 6, -1, 0)]),
   (16, [(0, 8, -1, 0)]),
   (32, [(0, 22, 2, 0), (1, 22, -1, 0)]),
   (32, [(1, 46, 1, 0)]),
   (32, [(1, 47, 1, 0)]),
   (32, [(1, 48, 1, 0)]),
   (32, [(0, 18, 2, 0), (1, 18, -1, 0)]),
   (16, [(0, 20, -1, 0)]),
   (32, [(1, 51, 1, 0)]),
   (16, [(0, 24, -1, 0)]),
   (32, [(0, 26, 2, 0), (1, 26, -1, 0)]),
   (32, [(1, 54, 1, 0)]),
   (32, [(0, 55, 2, 0), (1, 66, 1, 0)]),
   (1, []),
   (32, [(0, 57, 2, 0), (1, 64, 1, 0)]),
   (32, [(1, 58, 1, 0)]),
   (32, [(1, 59, 1, 0)]),
   (1, []),
   (32, [(1, 61, 1, 0)]),
   (32, [(1, 62, 1, 0)]),
   (32, [(0, 58, 2, 0), (1, 58, -1, 0)]),
   (32, [(1, 64, 1, 0)]),
   (32, [(1, 65, 1, 0)]),
   (32, [(1, 66, 1, 0)]),
   (32, [(0, 54, 2, 0), (1, 54, -1, 0)]),
   (16, [(0, 56, -1, 0)]),
   (32, [(1, 69, 1, 0)]),
   (16, [(0, 60, -1, 0)]),
   (32, [(0, 62, 2, 0), (1, 62, -1, 0)]),
   (1, []),
   (32, [(1, 73, 1, 0)]),
   (32, [(1, 74, 1, 0)]),
   (32, [(1, 75, 1, 0)]),
   (16, [(0, 72, -1, 0)]),
   (32, [(0, 74, 2, 0), (1, 74, -1, 0)]),
   (32, [(1, 78, 1, 0)]),
   (32, [(0, 78, 2, 0), (1, 78, -1, 0)]),
   (1, [])]

theorem check_quadrupole_D_4 : checkTable 4 [.C4z, .C2x] quadrupole_D_4 cert_quadrupole_D_4 = true := by decide +kernel

/-- For `quadrupole['D_4h']`. -/
def cert_quadrupole_D_4h : List Cert :=
  [(16, [(0, 0, 1, 0)]),
   (32, [(1, 1, 1, 0)]),
   (32, [(1, 2, 1, 0)]),
   (32, [(1, 3, 1, 0)]),
   (16, [(0, 4, 1, 0)]),
   (32, [(0, 5, 2, 0), (1, 38, 1, 0)]),
   (32, [(1, 6, 1, 0)]),
   (32, [(0, 7, 2, 0), (1, 42, 1, 0)]),
   (1, []),
   (32, [(1, 9, 1, 0)]),
   (16, [(0, 10, 1, 0)]),
   (32, [(0, 11, 2, 0), (1, 32, 1, 0)]),
   (16, [(0, 12, 1, 0)]),
   (32, [(1, 13, 1, 0)]),
   (32, [(1, 14, 1, 0)]),
   (32, [(0, 15, 2, 0), (1, 34, 1, 0)]),
   (32, [(1, 16, 1, 0)]),
   (32, [(1, 17, 1, 0)]),
   (32, [(1, 18, 1, 0)]),
   (32, [(0, 19, 2, 0), (1, 48, 1, 0)]),
   (1, []),
   (32, [(0, 21, 2, 0), (1, 46, 1, 0)]),
   (32, [(1, 22, 1, 0)]),
   (32, [(1, 23, 1, 0)]),
   (1, []),
   (32, [(1, 25, 1, 0)]),
   (32, [(1, 26, 1, 0)]),
   (32, [(1, 27, 1, 0)]),
   (1, []),
   (32, [(0, 14, 2, 0), (1, 14, -1, 0)]),
   (1, []),
   (32, [(1, 31, 1, 0)]),
   (32, [(1, 32, 1, 0)]),
   (32, [(0, 16, 2, 0), (1, 16, -1, 0)]),
   (32, [(1, 34, 1, 0)]),
   (32, [(1, 35, 1, 0)]),
   (1, []),
   (32, [(1, 37, 1, 0)]),
   (32, [(1, 38, 1, 0)]),
   (32, [(1, 39, 1, 0)]),
   (1, []),
   (32, [(0, 2, 2, 0), (1, 2, -1, 0)]),
   (32, [(1, 42, 1, 0)]),
   (32, [(0, 6, 2, 0), (1, 6, -1, 0)]),
   (16, [(0, 8, -1, 0)]),
   (32, [(0, 22, 2, 0), (1, 22, -1, 0)]),
   (32, [(1, 46, 1, 0)]),
   (32, [(1, 47, 1, 0)]),
   (32, [(1, 48, 1, 0)]),
   (32, [(0, 18, 2, 0), (1, 18, -1, 0)]),
   (16, [(0, 20, -1, 0)]),
   (32, [(1, 51, 1, 0)]),
   (16, [(0, 24, -1, 0)]),
   (32, [(0, 26, 2, 0), (1, 26, -1, 0)]),
   (32, [(1, 54, 1, 0)]),
   (32, [(0, 55, 2, 0), (1, 66, 1, 0)]),
   (1, []),
   (32, [(0, 57, 2, 0), (1, 64, 1, 0)]),
   (32, [(1, 58, 1, 0)]),
   (32, [(1, 59, 1, 0)]),
   (1, []),
   (32, [(1, 61, 1, 0)]),
   (32, [(1, 62, 1, 0)]),
   (32, [(0, 58, 2, 0), (1, 58, -1, 0)]),
   (32, [(1, 64, 1, 0)]),
   (32, [(1, 65, 1, 0)]),
   (32, [(1, 66, 1, 0)]),
   (32, [(0, 54, 2, 0), (1, 54, -1, 0)]),
   (16, [(0, 56, -1, 0)]),
   (32, [(1, 69, 1, 0)]),
   (16, [(0, 60, -1, 0)]),
   (32, [(0, 62, 2, 0), (1, 62, -1, 0)]),
   (1, []),
   (32, [(1, 73, 1, 0)]),
   (32, [(1, 74, 1, 0)]),
   (32, [(1, 75, 1, 0)]),
   (16, [(0, 72, -1, 0)]),
   (32, [(0, 74, 2, 0), (1, 74, -1, 0)]),
   (32, [(1, 78, 1, 0)]),
   (32, [(0, 78, 2, 0), (1, 78, -1, 0)]),
   (1, [])]

theorem check_quadrupole_D_4h : checkTable 4 [.C4z, .C2x, .inv] quadrupole_D_4h cert_quadrupole_D_4h = true := by decide +kernel

/-- For `quadrupole['D_2d']`. -/
def cert_quadrupole_D_2d : List Cert :=
  [(16, [(0, 0, 1, 0)]),
   (32, [(1, 1, 1, 0)]),
   (32, [(1, 2, 1, 0)]),
   (32, [(1, 3, 1, 0)]),
   (16, [(0, 4, 1, 0)]),
   (32, [(0, 5, 2, 0), (1, 38, 1, 0)]),
   (32, [(1, 6, 1, 0)]),
   (32, [(0, 7, 2, 0), (1, 42, 1, 0)]),
   (1, []),
   (32, [(1, 9, 1, 0)]),
   (16, [(0, 10, 1, 0)]),
   (32, [(0, 11, 2, 0), (1, 32, 1, 0)]),
   (16, [(0, 12, 1, 0)]),
   (32, [(1, 13, 1, 0)]),
   (32, [(1, 14, 1, 0)]),
   (32, [(0, 15, 2, 0), (1, 34, 1, 0)]),
   (32, [(1, 16, 1, 0)]),
   (32, [(1, 17, 1, 0)]),
   (32, [(1, 18, 1, 0)]),
   (32, [(0, 19, 2, 0), (1, 48, 1, 0)]),
   (1, []),
   (32, [(0, 21, 2, 0), (1, 46, 1, 0)]),
   (32, [(1, 22, 1, 0)]),
   (32, [(1, 23, 1, 0)]),
   (1, []),
   (32, [(1, 25, 1, 0)]),
   (32, [(1, 26, 1, 0)]),
   (32, [(1, 27, 1, 0)]),
   (1, []),
   (32, [(0, 14, 2, 0), (1, 14, -1, 0)]),
   (1, []),
   (32, [(1, 31, 1, 0)]),
   (32, [(1, 32, 1, 0)]),
   (32, [(0, 16, 2, 0), (1, 16, -1, 0)]),
   (32, [(1, 34, 1, 0)]),
   (32, [(1, 35, 1, 0)]),
   (1, []),
   (32, [(1, 37, 1, 0)]),
   (32, [(1, 38, 1, 0)]),
   (32, [(1, 39, 1, 0)]),
   (1, []),
   (32, [(0, 2, 2, 0), (1, 2, -1, 0)]),
   (32, [(1, 42, 1, 0)]),
   (32, [(0, 6, 2, 0), (1, 6, -1, 0)]),
   (16, [(0, 8, -1, 0)]),
   (32, [(0, 22, 2, 0), (1, 22, -1, 0)]),
   (32, [(1, 46, 1, 0)]),
   (32, [(1, 47, 1, 0)]),
   (32, [(1, 48, 1, 0)]),
   (32, [(0, 18, 2, 0), (1, 18, -1, 0)]),
   (16, [(0, 20, -1, 0)]),
   (32, [(1, 51, 1, 0)]),
   (16, [(0, 24, -1, 0)]),
   (32, [(0, 26, 2, 0), (1, 26, -1, 0)]),
   (32, [(1, 54, 1, 0)]),
   (32, [(0, 55, 2, 0), (1, 66, 1, 0)]),
   (1, []),
   (32, [(0, 57, 2, 0), (1, 64, 1, 0)]),
   (32, [(1, 58, 1, 0)]),
   (32, [(1, 59, 1, 0)]),
   (1, []),
   (32, [(1, 61, 1, 0)]),
   (32, [(1, 62, 1, 0)]),
   (32, [(0, 58, 2, 0), (1, 58, -1, 0)]),
   (32, [(1, 64, 1, 0)]),
   (32, [(1, 65, 1, 0)]),
   (32, [(1, 66, 1, 0)]),
   (32, [(0, 54, 2, 0), (1, 54, -1, 0)]),
   (16, [(0, 56, -1, 0)]),
   (32, [(1, 69, 1, 0)]),
   (16, [(0, 60, -1, 0)]),
   (32, [(0, 62, 2, 0), (1, 62, -1, 0)]),
   (1, []),
   (32, [(1, 73, 1, 0)]),
   (32, [(1, 74, 1, 0)]),
   (32, [(1, 75, 1, 0)]),
   (16, [(0, 72, -1, 0)]),
   (32, [(0, 74, 2, 0), (1, 74, -1, 0)]),
   (32, [(1, 78, 1, 0)]),
   (32, [(0, 78, 2, 0), (1, 78, -1, 0)]),
   (1, [])]

theorem check_quadrupole_D_2d : checkTable 4 [.S4z, .C2x] quadrupole_D_2d cert_quadrupole_D_2d = true := by decide +kernel

/-- For `quadrupole['C_2']`. -/
def cert_quadrupole_C_2 : List Cert :=
  [(1, []),
   (32, [(0, 1, 1, 0)]),
   (1, []),
   (32, [(0, 3, 1, 0)]),
   (1, []),
   (32, [(0, 5, 1, 0)]),
   (1, []),
   (32, [(0, 7, 1, 0)]),
   (1, []),
   (32, [(0, 9, 1, 0)]),
   (1, []),
   (32, [(0, 11, 1, 0)]),
   (1, []),
   (32, [(0, 13, 1, 0)]),
   (1, []),
   (32, [(0, 15, 1, 0)]),
   (1, []),
   (32, [(0, 17, 1, 0)]),
   (1, []),
   (32, [(0, 19, 1, 0)]),
   (1, []),
   (32, [(0, 21, 1, 0)]),
   (1, []),
   (32, [(0, 23, 1, 0)]),
   (1, []),
   (32, [(0, 25, 1, 0)]),
   (1, []),
   (32, [(0, 27, 1, 0)]),
   (1, []),
   (32, [(0, 29, 1, 0)]),
   (1, []),
   (32, [(0, 31, 1, 0)]),
   (1, []),
   (32, [(0, 33, 1, 0)]),
   (1, []),
   (32, [(0, 35, 1, 0)]),
   (1, []),
   (32, [(0, 37, 1, 0)]),
   (1, []),
   (32, [(0, 39, 1, 0)]),
   (1, []),
   (32, [(0, 41, 1, 0)]),
   (1, []),
   (32, [(0, 43, 1, 0)]),
   (1, []),
   (32, [(0, 45, 1, 0)]),
   (1, []),
   (32, [(0, 47, 1, 0)]),
   (1, []),
   (32, [(0, 49, 1, 0)]),
   (1, []),
   (32, [(0, 51, 1, 0)]),
   (1, []),
   (32, [(0, 53, 1, 0)]),
   (1, []),
   (32, [(0, 55, 1, 0)]),
   (1, []),
   (32, [(0, 57, 1, 0)]),
   (1, []),
   (32, [(0, 59, 1, 0)]),
   (1, []),
   (32, [(0, 61, 1, 0)]),
   (1, []),
   (32, [(0, 63, 1, 0)]),
   (1, []),
   (32, [(0, 65, 1, 0)]),
   (1, []),
   (32, [(0, 67, 1, 0)]),
   (1, []),
   (32, [(0, 69, 1, 0)]),
   (1, []),
   (32, [(0, 71, 1, 0)]),
   (1, []),
   (32, [(0, 73, 1, 0)]),
   (1, []),
   (32, [(0, 75, 1, 0)]),
   (1, []),
   (32, [(0, 77, 1, 0)]),
   (1, []),
   (32, [(0, 79, 1, 0)]),
   (1, [])]

theorem check_quadrupole_C_2 : checkTable 4 [.C2y] quadrupole_C_2 cert_quadrupole_C_2 = true := by decide +kernel

/-- For `quadrupole['C_1h']`. -/
def cert_quadrupole_C_1h : List Cert :=
  [(1, []),
   (32, [(0, 1, 1, 0)]),
   (1, []),
   (32, [(0, 3, 1, 0)]),
   (1, []),
   (32, [(0, 5, 1, 0)]),
   (1, []),
   (32, [(0, 7, 1, 0)]),
   (1, []),
   (32, [(0, 9, 1, 0)]),
   (1, []),
   (32, [(0, 11, 1, 0)]),
   (1, []),
   (32, [(0, 13, 1, 0)]),
   (1, []),
   (32, [(0, 15, 1, 0)]),
   (1, []),
   (32, [(0, 17, 1, 0)]),
   (1, []),
   (32, [(0, 19, 1, 0)]),
   (1, []),
   (32, [(0, 21, 1, 0)]),
   (1, []),
   (32, [(0, 23, 1, 0)]),
   (1, []),
   (32, [(0, 25, 1, 0)]),
   (1, []),
   (32, [(0, 27, 1, 0)]),
   (1, []),
   (32, [(0, 29, 1, 0)]),
   (1, []),
   (32, [(0, 31, 1, 0)]),
   (1, []),
   (32, [(0, 33, 1, 0)]),
   (1, []),
   (32, [(0, 35, 1, 0)]),
   (1, []),
   (32, [(0, 37, 1, 0)]),
   (1, []),
   (32, [(0, 39, 1, 0)]),
   (1, []),
   (32, [(0, 41, 1, 0)]),
   (1, []),
   (32, [(0, 43, 1, 0)]),
   (1, []),
   (32, [(0, 45, 1, 0)]),
   (1, []),
   (32, [(0, 47, 1, 0)]),
   (1, []),
   (32, [(0, 49, 1, 0)]),
   (1, []),
   (32, [(0, 51, 1, 0)]),
   (1, []),
   (32, [(0, 53, 1, 0)]),
   (1, []),
   (32, [(0, 55, 1, 0)]),
   (1, []),
   (32, [(0, 57, 1, 0)]),
   (1, []),
   (32, [(0, 59, 1, 0)]),
   (1, []),
   (32, [(0, 61, 1, 0)]),
   (1, []),
   (32, [(0, 63, 1, 0)]),
   (1, []),
   (32, [(0, 65, 1, 0)]),
   (1, []),
   (32, [(0, 67, 1, 0)]),
   (1, []),
   (32, [(0, 69, 1, 0)]),
   (1, []),
   (32, [(0, 71, 1, 0)]),
   (1, []),
   (32, [(0, 73, 1, 0)]),
   (1, []),
   (32, [(0, 75, 1, 0)]),
   (1, []),
   (32, [(0, 77, 1, 0)]),
   (1, []),
   (32, [(0, 79, 1, 0)]),
   (1, [])]

theorem check_quadrupole_C_1h : checkTable 4 [.my] quadrupole_C_1h cert_quadrupole_C_1h = true := by decide +kernel

/-- For `quadrupole['C_2h']`. -/
def cert_quadrupole_C_2h : List Cert :=
  [(1, []),
   (32, [(0, 1, 1, 0)]),
   (1, []),
   (32, [(0, 3, 1, 0)]),
   (1, []),
   (32, [(0, 5, 1, 0)]),
   (1, []),
   (32, [(0, 7, 1, 0)]),
   (1, []),
   (32, [(0, 9, 1, 0)]),
   (1, []),
   (32, [(0, 11, 1, 0)]),
   (1, []),
   (32, [(0, 13, 1, 0)]),
   (1, []),
   (32, [(0, 15, 1, 0)]),
   (1, []),
   (32, [(0, 17, 1, 0)]),
   (1, []),
   (32, [(0, 19, 1, 0)]),
   (1, []),
   (32, [(0, 21, 1, 0)]),
   (1, []),
   (32, [(0, 23, 1, 0)]),
   (1, []),
   (32, [(0, 25, 1, 0)]),
   (1, []),
   (32, [(0, 27, 1, 0)]),
   (1, []),
   (32, [(0, 29, 1, 0)]),
   (1, []),
   (32, [(0, 31, 1, 0)]),
   (1, []),
   (32, [(0, 33, 1, 0)]),
   (1, []),
   (32, [(0, 35, 1, 0)]),
   (1, []),
   (32, [(0, 37, 1, 0)]),
   (1, []),
   (32, [(0, 39, 1, 0)]),
   (1, []),
   (32, [(0, 41, 1, 0)]),
   (1, []),
   (32, [(0, 43, 1, 0)]),
   (1, []),
   (32, [(0, 45, 1, 0)]),
   (1, []),
   (32, [(0, 47, 1, 0)]),
   (1, []),
   (32, [(0, 49, 1, 0)]),
   (1, []),
   (32, [(0, 51, 1, 0)]),
   (1, []),
   (32, [(0, 53, 1, 0)]),
   (1, []),
   (32, [(0, 55, 1, 0)]),
   (1, []),
   (32, [(0, 57, 1, 0)]),
   (1, []),
   (32, [(0, 59, 1, 0)]),
   (1, []),
   (32, [(0, 61, 1, 0)]),
   (1, []),
   (32, [(0, 63, 1, 0)]),
   (1, []),
   (32, [(0, 65, 1, 0)]),
   (1, []),
   (32, [(0, 67, 1, 0)]),
   (1, []),
   (32, [(0, 69, 1, 0)]),
   (1, []),
   (32, [(0, 71, 1, 0)]),
   (1, []),
   (32, [(0, 73, 1, 0)]),
   (1, []),
   (32, [(0, 75, 1, 0)]),
   (1, []),
   (32, [(0, 77, 1, 0)]),
   (1, []),
   (32, [(0, 79, 1, 0)]),
   (1, [])]

theorem check_quadrupole_C_2h : checkTable 4 [.C2y, .inv] quadrupole_C_2h cert_quadrupole_C_2h = true := by decide +kernel

/-- For `quadrupole['C_2v']`. -/
def cert_quadrupole_C_2v : List Cert :=
  [(1, []),
   (32, [(0, 1, 1, 0)]),
   (32, [(0, 2, 1, 0)]),
   (32, [(0, 3, 1, 0)]),
   (1, []),
   (32, [(1, 5, 1, 0)]),
   (32, [(0, 6, 1, 0)]),
   (32, [(1, 7, 1, 0)]),
   (1, []),
   (32, [(0, 9, 1, 0)]),
   (1, []),
   (32, [(1, 11, 1, 0)]),
   (1, []),
   (32, [(0, 13, 1, 0)]),
   (32, [(0, 14, 1, 0)]),
   (32, [(1, 15, 1, 0)]),
   (32, [(0, 16, 1, 0)]),
   (32, [(0, 17, 1, 0)]),
   (32, [(0, 18, 1, 0)]),
   (32, [(1, 19, 1, 0)]),
   (1, []),
   (32, [(1, 21, 1, 0)]),
   (32, [(0, 22, 1, 0)]),
   (32, [(0, 23, 1, 0)]),
   (1, []),
   (32, [(0, 25, 1, 0)]),
   (32, [(0, 26, 1, 0)]),
   (32, [(0, 27, 1, 0)]),
   (1, []),
   (32, [(1, 29, 1, 0)]),
   (1, []),
   (32, [(0, 31, 1, 0)]),
   (32, [(0, 32, 1, 0)]),
   (32, [(1, 33, 1, 0)]),
   (32, [(0, 34, 1, 0)]),
   (32, [(0, 35, 1, 0)]),
   (1, []),
   (32, [(0, 37, 1, 0)]),
   (32, [(0, 38, 1, 0)]),
   (32, [(0, 39, 1, 0)]),
   (1, []),
   (32, [(1, 41, 1, 0)]),
   (32, [(0, 42, 1, 0)]),
   (32, [(1, 43, 1, 0)]),
   (1, []),
   (32, [(1, 45, 1, 0)]),
   (32, [(0, 46, 1, 0)]),
   (32, [(0, 47, 1, 0)]),
   (32, [(0, 48, 1, 0)]),
   (32, [(1, 49, 1, 0)]),
   (1, []),
   (32, [(0, 51, 1, 0)]),
   (1, []),
   (32, [(1, 53, 1, 0)]),
   (32, [(0, 54, 1, 0)]),
   (32, [(1, 55, 1, 0)]),
   (1, []),
   (32, [(1, 57, 1, 0)]),
   (32, [(0, 58, 1, 0)]),
   (32, [(0, 59, 1, 0)]),
   (1, []),
   (32, [(0, 61, 1, 0)]),
   (32, [(0, 62, 1, 0)]),
   (32, [(1, 63, 1, 0)]),
   (32, [(0, 64, 1, 0)]),
   (32, [(0, 65, 1, 0)]),
   (32, [(0, 66, 1, 0)]),
   (32, [(1, 67, 1, 0)]),
   (1, []),
   (32, [(0, 69, 1, 0)]),
   (1, []),
   (32, [(1, 71, 1, 0)]),
   (1, []),
   (32, [(0, 73, 1, 0)]),
   (32, [(0, 74, 1, 0)]),
   (32, [(0, 75, 1, 0)]),
   (1, []),
   (32, [(1, 77, 1, 0)]),
   (32, [(0, 78, 1, 0)]),
   (32, [(1, 79, 1, 0)]),
   (1, [])]

theorem check_quadrupole_C_2v : checkTable 4 [.mx, .my] quadrupole_C_2v cert_quadrupole_C_2v = true := by decide +kernel

/-- For `quadrupole['D_2']`. -/
def cert_quadrupole_D_2 : List Cert :=
  [(1, []),
   (32, [(0, 1, 1, 0)]),
   (32, [(0, 2, 1, 0)]),
   (32, [(0, 3, 1, 0)]),
   (1, []),
   (32, [(1, 5, 1, 0)]),
   (32, [(0, 6, 1, 0)]),
   (32, [(1, 7, 1, 0)]),
   (1, []),
   (32, [(0, 9, 1, 0)]),
   (1, []),
   (32, [(1, 11, 1, 0)]),
   (1, []),
   (32, [(0, 13, 1, 0)]),
   (32, [(0, 14, 1, 0)]),
   (32, [(1, 15, 1, 0)]),
   (32, [(0, 16, 1, 0)]),
   (32, [(0, 17, 1, 0)]),
   (32, [(0, 18, 1, 0)]),
   (32, [(1, 19, 1, 0)]),
   (1, []),
   (32, [(1, 21, 1, 0)]),
   (32, [(0, 22, 1, 0)]),
   (32, [(0, 23, 1, 0)]),
   (1, []),
   (32, [(0, 25, 1, 0)]),
   (32, [(0, 26, 1, 0)]),
   (32, [(0, 27, 1, 0)]),
   (1, []),
   (32, [(1, 29, 1, 0)]),
   (1, []),
   (32, [(0, 31, 1, 0)]),
   (32, [(0, 32, 1, 0)]),
   (32, [(1, 33, 1, 0)]),
   (32, [(0, 34, 1, 0)]),
   (32, [(0, 35, 1, 0)]),
   (1, []),
   (32, [(0, 37, 1, 0)]),
   (32, [(0, 38, 1, 0)]),
   (32, [(0, 39, 1, 0)]),
   (1, []),
   (32, [(1, 41, 1, 0)]),
   (32, [(0, 42, 1, 0)]),
   (32, [(1, 43, 1, 0)]),
   (1, []),
   (32, [(1, 45, 1, 0)]),
   (32, [(0, 46, 1, 0)]),
   (32, [(0, 47, 1, 0)]),
   (32, [(0, 48, 1, 0)]),
   (32, [(1, 49, 1, 0)]),
   (1, []),
   (32, [(0, 51, 1, 0)]),
   (1, []),
   (32, [(1, 53, 1, 0)]),
   (32, [(0, 54, 1, 0)]),
   (32, [(1, 55, 1, 0)]),
   (1, []),
   (32, [(1, 57, 1, 0)]),
   (32, [(0, 58, 1, 0)]),
   (32, [(0, 59, 1, 0)]),
   (1, []),
   (32, [(0, 61, 1, 0)]),
   (32, [(0, 62, 1, 0)]),
   (32, [(1, 63, 1, 0)]),
   (32, [(0, 64, 1, 0)]),
   (32, [(0, 65, 1, 0)]),
   (32, [(0, 66, 1, 0)]),
   (32, [(1, 67, 1, 0)]),
   (1, []),
   (32, [(0, 69, 1, 0)]),
   (1, []),
   (32, [(1, 71, 1, 0)]),
   (1, []),
   (32, [(0, 73, 1, 0)]),
   (32, [(0, 74, 1, 0)]),
   (32, [(0, 75, 1, 0)]),
   (1, []),
   (32, [(1, 77, 1, 0)]),
   (32, [(0, 78, 1, 0)]),
   (32, [(1, 79, 1, 0)]),
   (1, [])]

theorem check_quadrupole_D_2 : checkTable 4 [.C2x, .C2y] quadrupole_D_2 cert_quadrupole_D_2 = true := by decide +kernel

/-- For `quadrupole['D_2h']`. -/
def cert_quadrupole_D_2h : List Cert :=
  [(1, []),
   (32, [(0, 1, 1, 0)]),
   (32, [(0, 2, 1, 0)]),
   (32, [(0, 3, 1, 0)]),
   (1, []),
   (32, [(1, 5, 1, 0)]),
   (32, [(0, 6, 1, 0)]),
   (32, [(1, 7, 1, 0)]),
   (1, []),
   (32, [(0, 9, 1, 0)]),
   (1, []),
   (32, [(1, 11, 1, 0)]),
   (1, []),
   (32, [(0, 13, 1, 0)]),
   (32, [(0, 14, 1, 0)]),
   (32, [(1, 15, 1, 0)]),
   (32, [(0, 16, 1, 0)]),
   (32, [(0, 17, 1, 0)]),
   (32, [(0, 18, 1, 0)]),
   (32, [(1, 19, 1, 0)]),
   (1, []),
   (32, [(1, 21, 1, 0)]),
   (32, [(0, 22, 1, 0)]),
   (32, [(0, 23, 1, 0)]),
   (1, []),
   (32, [(0, 25, 1, 0)]),
   (32, [(0, 26, 1, 0)]),
   (32, [(0, 27, 1, 0)]),
   (1, []),
   (32, [(1, 29, 1, 0)]),
   (1, []),
   (32, [(0, 31, 1, 0)]),
   (32, [(0, 32, 1, 0)]),
   (32, [(1, 33, 1, 0)]),
   (32, [(0, 34, 1, 0)]),
   (32, [(0, 35, 1, 0)]),
   (1, []),
   (32, [(0, 37, 1, 0)]),
   (32, [(0, 38, 1, 0)]),
   (32, [(0, 39, 1, 0)]),
   (1, []),
   (32, [(1, 41, 1, 0)]),
   (32, [(0, 42, 1, 0)]),
   (32, [(1, 43, 1, 0)]),
   (1, []),
   (32, [(1, 45, 1, 0)]),
   (32, [(0, 46, 1, 0)]),
   (32, [(0, 47, 1, 0)]),
   (32, [(0, 48, 1, 0)]),
   (32, [(1, 49, 1, 0)]),
   (1, []),
   (32, [(0, 51, 1, 0)]),
   (1, []),
   (32, [(1, 53, 1, 0)]),
   (32, [(0, 54, 1, 0)]),
   (32, [(1, 55, 1, 0)]),
   (1, []),
   (32, [(1, 57, 1, 0)]),
   (32, [(0, 58, 1, 0)]),
   (32, [(0, 59, 1, 0)]),
   (1, []),
   (32, [(0, 61, 1, 0)]),
   (32, [(0, 62, 1, 0)]),
   (32, [(1, 63, 1, 0)]),
   (32, [(0, 64, 1, 0)]),
   (32, [(0, 65, 1, 0)]),
   (32, [(0, 66, 1, 0)]),
   (32, [(1, 67, 1, 0)]),
   (1, []),
   (32, [(0, 69, 1, 0)]),
   (1, []),
   (32, [(1, 71, 1, 0)]),
   (1, []),
   (32, [(0, 73, 1, 0)]),
   (32, [(0, 74, 1, 0)]),
   (32, [(0, 75, 1, 0)]),
   (1, []),
   (32, [(1, 77, 1, 0)]),
   (32, [(0, 78, 1, 0)]),
   (32, [(1, 79, 1, 0)]),
   (1, [])]

theorem check_quadrupole_D_2h : checkTable 4 [.C2x, .C2y, .inv] quadrupole_D_2h cert_quadrupole_D_2h = true := by decide +kernel

/-- For `quadrupole['C_1']`. -/
def cert_quadrupole_C_1 : List Cert :=
  [(1, []),
   (1, []),
   (1, []),
   (1, []),
   (1, []),
   (1, []),
   (1, []),
   (1, []),
   (1, []),
   (1, []),
   (1, []),
   (1, []),
   (1, []),
   (1, []),
   (1, []),
   (1, []),
   (1, []),
   (1, []),
   (1, []),
   (1, []),
   (1, []),
   (1, []),
   (1, []),
   (1, []),
   (1, []),
   (1, []),
   (1, []),
   (1, []),
   (1, []),
   (1, []),
   (1, []),
   (1, []),
   (1, []),
   (1, []),
   (1, []),
   (1, []),
   (1, []),
   (1, []),
   (1, []),
   (1, []),
   (1, []),
   (1, []),
   (1, []),
   (1, []),
   (1, []),
   (1, []),
   (1, []),
   (1, []),
   (1, []),
   (1, []),
   (1, []),
   (1, []),
   (1, []),
   (1, []),
   (1, []),
   (1, []),
   (1, []),
   (1, []),
   (1, []),
   (1, []),
   (1, []),
   (1, []),
   (1, []),
   (1, []),
   (1, []),
   (1, []),
   (1, []),
   (1, []),
   (1, []),
   (1, []),
   (1, []),
   (1, []),
   (1, []),
   (1, []),
   (1, []),
   (1, []),
   (1, []),
   (1, []),
   (1, []),
   (1, []),
   (1, [])]

theorem check_quadrupole_C_1 : checkTable 4 [] quadrupole_C_1 cert_quadrupole_C_1 = true := by decide +kernel

end Shgpy.TensorDef
