import Verif.Model.FloatAngle

/-!
# Model of the operations on values with floating point numbers

`Verif.Model.DataContainer` computes with exact numbers.  Here the products, differences and quotients of `scale_data`, `subtract_min`
and `normalize_data` are rounded by `rnd`.  Overflow, underflow, infinities and NaN are not modelled.
-/

namespace Shgpy.DataContainer

/-- `scale_data`, data_handler.py:161-166, with rounded products. -/
noncomputable def scaleDataWith (rnd : ℝ → ℝ) (c : DataContainer ℝ) (s : ℝ) : Except Err (DataContainer ℝ) :=
  if s < 0 then .error .valueError
  else .ok { c with
    data := c.data.mapVals (fun v => v.map (fun p => (p.1, rnd (s * p.2))))
    scale := rnd (c.scale * s) }

/-- `subtract_min`, data_handler.py:168-173, with rounded differences. -/
noncomputable def subtractMinWith (rnd : ℝ → ℝ) (c : DataContainer ℝ) : Except Err (DataContainer ℝ) := do
  match ← c.getMinval with
  | none => return { c with offset := none }
  | some (_, m) =>
    return { c with
      data := c.data.mapVals (fun v => v.map (fun p => (p.1, rnd (p.2 - m))))
      offset := c.offset.map (fun o => rnd (o - m)) }

/-- `normalize_data`, data_handler.py:243-246, with rounded quotient and products. -/
noncomputable def normalizeDataWith (rnd : ℝ → ℝ) (c : DataContainer ℝ) (d : ℝ) : Except Err (DataContainer ℝ) := do
  match ← c.getMaxval with
  | none => scaleDataWith rnd c 0
  | some (_, m) =>
    if m = 0 then (if d < 0 then .error .valueError else .error .nonFinite)
    else scaleDataWith rnd c (rnd (d / m))

end Shgpy.DataContainer
