import Verif.Model.GenExample
import Verif.Model.FformRound

/-!
# Model of the scripts that use `fformgen`

`examples/generate_uft_example.py`, `examples/generate_uft_symb_example.py`, `examples/generate_cft_example.py` and
`examples/generate_cft_quadrupole_example.py`.  Time measurement and logging are not part of this model.
-/

namespace Shgpy
open TensorDef

variable (S : Sympy)

/-- examples/generate_uft_example.py:10-14: the files afterwards, for any angle of incidence and file name; `M` has its default value,
fformgen.py:138-140. -/
def uftExample (nfs : NpFiles) (aoi : ℚ) (pre : Key) : Except Err NpFiles := generateUncontracted S nfs aoi pre 16

/-- examples/generate_uft_symb_example.py:10-12: the files afterwards, for any file name; `M` has its default value,
fformgen.py:391-392. -/
def uftSymbExample (nfs : NpFiles) (pre : Key) : Except Err NpFiles := generateUncontractedSymb S nfs pre 16

/-- examples/generate_cft_example.py:13-27: the files afterwards, for any point group, matrix, number of digits and file names; `M` has
its default value, fformgen.py:640-643. -/
def cftExample (solve : Solver) (ex : Rewriting) {n : ℕ} (D : DecRound n) (Rp : Repr) (fs : Files) (nfs : NpFiles) (g : Key)
    (R : Fin 3 → Fin 3 → ℚ) (save pre : Key) : Except Err Files := do
  let tDipole ← scriptTensor S solve (dipole S) g R
  let tQuad := zerosNd [3, 3, 3, 3]
  generateContractedRounded S ex D Rp fs nfs save pre tDipole tQuad 16

/-- examples/generate_cft_quadrupole_example.py:13-21: the files afterwards, for any point group, number of digits and file names. -/
def cftQuadrupoleExample (solve : Solver) (ex : Rewriting) {n : ℕ} (D : DecRound n) (Rp : Repr) (fs : Files) (nfs : NpFiles) (g : Key)
    (save pre : Key) : Except Err Files := do
  let tDipole := zerosNd [3, 3, 3]
  let t ← Dict.get (quadrupole S) g
  let t ← particularize S solve [] false t
  generateContractedRounded S ex D Rp fs nfs save pre tDipole (makeTensorReal S t) 16

end Shgpy
