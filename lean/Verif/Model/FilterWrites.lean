import Verif.Model.DataContainer

/-!
# `DataContainer.filter` with a function that has a memory and writes into its argument (data_handler.py:143-159)

The function receives the row `ydata` of the stored array itself, not a copy.  What it has written stays in the container when
the assignment in line 159 is not reached.
-/

namespace Shgpy

variable {K : Type} [Field K] [LinearOrder K] [FloorRing K] [HasPi K]

/-- A user function.  It may depend on the arrays with which it was called before (`run earlier ydata`).  The first component is
the content of `ydata` when it returns or raises; the second is what it returns or raises. -/
structure Callback (K : Type) where
  run : List (List K) → List K → List K × Except Err (List K)
  length : ∀ h y, (run h y).1.length = y.length

/-- The loop of `filter`, data_handler.py:157-159, after the calls with the arguments `earlier`: the dictionary reached and the
exception that stopped the loop, if any. -/
def filterWrites (f : Callback K) (earlier : List (List K)) : Dict Key (List (K × K)) → Dict Key (List (K × K)) × Option Err
  | [] => ([], none)
  | (k, v) :: r =>
      match (f.run earlier (v.map Prod.snd)).2 with
      | .error e => ((k, (v.map Prod.fst).zip (f.run earlier (v.map Prod.snd)).1) :: r, some e)
      | .ok ys =>
        if ys.length = v.length then
          let (r', e) := filterWrites f (earlier ++ [v.map Prod.snd]) r
          ((k, (v.map Prod.fst).zip ys) :: r', e)
        else ((k, (v.map Prod.fst).zip (f.run earlier (v.map Prod.snd)).1) :: r, some .valueError)

/-- `filter(f)`: the instance afterwards and the exception raised, if any. -/
def DataContainer.filterCall (c : DataContainer K) (f : Callback K) : DataContainer K × Option Err :=
  ({ c with data := (filterWrites f [] c.data).1 }, (filterWrites f [] c.data).2)

end Shgpy
