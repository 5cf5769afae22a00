import Verif.Model.TensorTable
import Verif.Model.TensorSym
import Verif.Model.Formgen
import Verif.Model.FourierTransform
import Verif.Model.SaveFform
import Verif.Model.FormConvert

/-!
# Model of the scripts `examples/gen_fform_from_form_example.py` and `examples/gen_form_example.py`

The scripts take a tensor from a table, make it symmetric and real, turn it, and generate formulas.  The figure and the logging are not
part of this model.
-/

namespace Shgpy
open TensorDef

/-- The array of numbers that `rotation_matrix_from_two_vectors` returns, as the array of sympy numbers that it becomes in products with
sympy expressions, examples/gen_fform_from_form_example.py:13-16; floats are rational. -/
def numMatrix (R : Fin 3 → Fin 3 → ℚ) : Nd Expr :=
  ⟨[3, 3], fun idx => if h : idx.getD 0 0 < 3 ∧ idx.getD 1 0 < 3 then .num (R ⟨idx.getD 0 0, h.1⟩ ⟨idx.getD 1 0, h.2⟩) else .num 0⟩

/-- `t_dipole`, examples/gen_fform_from_form_example.py:18-20 and examples/gen_form_example.py:20-22, for any table `table`, any entry `g`
and any matrix `R`. -/
def scriptTensor (S : Sympy) (solve : Solver) (table : Dict Key (Nd Expr)) (g : Key) (R : Fin 3 → Fin 3 → ℚ) : Except Err (Nd Expr) := do
  let t ← Dict.get table g
  let t ← particularize S solve [] false t
  transform (exprOps S) (makeTensorReal S t) (numMatrix R)

/-- examples/gen_fform_from_form_example.py:13-33: the files afterwards, for any point group, matrix, angle of incidence and file name.
There is no number pi in the model, so the angle of the script, `sp.pi/18`, is any expression `theta`.  The array `t_quad` of the script is
not used there. -/
def genFformExample (S : Sympy) (solve : Solver) (ex : Rewriting) (Rp : Repr) (fs : Files) (g : Key) (R : Fin 3 → Fin 3 → ℚ) (theta : Expr)
    (save : Key) : Except Err Files := do
  let t ← scriptTensor S solve (dipole S) g R
  let form ← formgen S ex theta (some t) none none
  let fform ← formToFform S form 16
  return saveFform Rp fs fform save

/-- `subs_dict`, examples/gen_form_example.py:28-31; `draw i` is the number that is drawn for the symbol at position `i`. -/
def randomSubs (draw : ℕ → ℚ) (l : List Sym) : Dict Sym Expr :=
  l.zipIdx.foldl (fun d p => if p.1 ≠ phi then Dict.set d p.1 (.num (draw p.2)) else d) []

/-- examples/gen_form_example.py:15-32: `dat`, with the warnings of `form_to_dat`, for any point group, matrix and angle of incidence. -/
noncomputable def genFormExample (S : Sympy) (solve : Solver) (draw : ℕ → ℚ) (g : Key) (R : Fin 3 → Fin 3 → ℚ) (theta : Expr) :
    Except Err (DataContainer ℝ × List Key) := do
  let t ← scriptTensor S solve (dipole S) g R
  let form ← formgenJustDipole S theta t
  let l ← form.getFreeSymbols S
  formToDat S form (randomSubs draw l) 1000

end Shgpy
