import Verif.Model.DataContainer

/-!
# Model of `DataContainer.copy` (data_handler.py:67-73)
-/

namespace Shgpy.DataContainer

/-- The attributes of a `DataContainer` instance: those assigned by `__init__` (data_handler.py:49-59), and the methods of
the class (data_handler.py:48-417). -/
def attributes : List String :=
  ["_input_angle_units", "_scale", "_data_dict", "_phase_shift", "_offset", "_coerced",
   "__init__", "__repr__", "_check_angle_units", "_check_defining_iterable", "_coerce_to_oblique_incidence",
   "_convert_data_dict_to_radians", "_get_data_dict_degrees", "_modulate_data_dict", "_remove_duplicates",
   "_sort_data_dict", "as_pandas", "copy", "filter", "get_items", "get_keys", "get_maxval", "get_minval", "get_offset",
   "get_pc", "get_pc_maxval", "get_pc_minval", "get_phase_shift", "get_scale", "get_values", "normalize_data",
   "phase_shift_data", "scale_data", "subtract_min"]

variable {K : Type} [Field K] [LinearOrder K] [FloorRing K] [HasPi K]

/-- Looking up an attribute on the instance: the given value if the attribute exists. -/
def getattr {α : Type} (name : String) (value : α) : Except Err α :=
  if name ∈ attributes then .ok value else .error .attributeError

/-- `copy`, data_handler.py:67-73.  The arguments of the constructor call are evaluated first; the call itself lacks the
required argument `input_angle_units` (`TypeError`). -/
def copy (c : DataContainer K) : Except Err (DataContainer K) := do
  let _ ← getattr "_data_dict" c.data
  let _ ← getattr "coerced" c.coerced
  throw .typeError

end Shgpy.DataContainer
