import Verif.Model.DataContainer

/-!
# Model of `dat_subtract`, `dat_add` (data_handler.py:1427-1488)
-/

namespace Shgpy

variable {K : Type} [Field K] [LinearOrder K] [FloorRing K] [HasPi K]

/-- `np.isclose(a, b)` with numpy's default tolerances: `|a - b| <= 1e-8 + 1e-5 * |b|`. -/
def isclose (a b : K) : Bool := decide (|a - b| ≤ 1 / 10 ^ 8 + 1 / 10 ^ 5 * |b|)

/-- numpy broadcasting of two one-dimensional operands; incompatible lengths raise `ValueError`. -/
def bcast (xs ys : List K) : Except Err (List (K × K)) :=
  if xs.length = ys.length then .ok (xs.zip ys)
  else match xs, ys with
    | [x], ys => .ok (ys.map (fun y => (x, y)))
    | xs, [y] => .ok (xs.map (fun x => (x, y)))
    | _, _ => .error .valueError

/-- The loop body of `dat_subtract`/`dat_add`, data_handler.py:1449-1454 (1481-1487): `p₁`, `p₂` are the
points of the two containers for one key.  An operand of another length than `new_xdata` makes
`np.array([new_xdata, new_ydata])` raise `ValueError`. -/
def combinePts (op : K → K → K) (p₁ p₂ : List (K × K)) : Except Err (List (K × K)) := do
  let xx ← bcast (p₁.map Prod.fst) (p₂.map Prod.fst)
  if xx.all (fun ab => isclose ab.1 ab.2) then
    let yy ← bcast (p₁.map Prod.snd) (p₂.map Prod.snd)
    if yy.length = p₁.length then
      .ok ((p₁.map Prod.fst).zip (yy.map (fun ab => op ab.1 ab.2)))
    else .error .valueError
  else .error .valueError

/-- The loop of `dat_subtract`/`dat_add`, data_handler.py:1449-1455 (1481-1487). -/
def combineLoop (op : K → K → K) (d₁ d₂ : Dict Key (List (K × K))) :
    List Key → Except Err (List (Key × List (K × K)))
  | [] => .ok []
  | k :: ks => do
      let p₁ ← Dict.get d₁ k
      let p₂ ← Dict.get d₂ k
      let p ← combinePts op p₁ p₂
      let r ← combineLoop op d₁ d₂ ks
      return (k, p) :: r

/-- `dat_subtract` (`op = (· - ·)`) and `dat_add` (`op = (· + ·)`), data_handler.py:1427-1456 and 1459-1488.
The intermediate dictionary is keyed by the (distinct) keys of `dat1`.  The dtype of the result is not
tracked: integer angles of a container already lie in `[0, 2π)`, so the truncation in the constructor does
not apply to them. -/
def datCombine (op : K → K → K) (c₁ c₂ : DataContainer K) : Except Err (DataContainer K × List Key) :=
  if setEq c₁.getKeys c₂.getKeys = false then .error .valueError
  else do
    let v₁ ← pyGet (← c₁.getValues sRadians) 0
    let v₂ ← pyGet (← c₂.getValues sRadians) 0
    if v₁.length ≠ v₂.length then .error .valueError
    else do
      let items ← combineLoop op c₁.data c₂.data c₁.getKeys
      DataContainer.init
        (items.map (fun it => (.str it.1, .arr2 .float [it.2.map Prod.fst, it.2.map Prod.snd]))) sRadians false

/-- `dat_subtract`, data_handler.py:1427-1456. -/
def datSubtract (c₁ c₂ : DataContainer K) : Except Err (DataContainer K × List Key) :=
  datCombine (fun a b => a - b) c₁ c₂

/-- `dat_add`, data_handler.py:1459-1488. -/
def datAdd (c₁ c₂ : DataContainer K) : Except Err (DataContainer K × List Key) :=
  datCombine (fun a b => a + b) c₁ c₂

end Shgpy
