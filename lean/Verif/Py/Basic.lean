import Mathlib.Data.List.Basic
import Mathlib.Data.List.Nodup
import Mathlib.Algebra.Order.Ring.Int

/-!
# Python basics

Exceptions as values, insertion-ordered dictionaries and list indexing.
-/

namespace Shgpy

/-- The exception classes that the modelled code can raise.  `nonFinite` is not a Python exception: it
marks the results (`inf`/`nan` produced by a floating point division by zero) that lie outside the model's
number domain. -/
inductive Err
  | valueError
  | typeError
  | keyError
  | indexError
  | attributeError
  | assertionError
  | zeroDivisionError
  | notImplementedError
  | fileNotFoundError
  | osError
  | unboundLocalError
  | nonFinite
  deriving DecidableEq, Repr

/-- A Python `str`, as its sequence of characters. -/
abbrev Key := List Char

/-- A Python `dict` with keys `κ`: its items in insertion order.  The dictionaries built by the operations
below never repeat a key (`Dict.WF`). -/
abbrev Dict (κ : Type) (α : Type) := List (κ × α)

namespace Dict

variable {κ : Type} [DecidableEq κ] {α β : Type}

/-- `list(d.keys())`. -/
def keys (d : Dict κ α) : List κ := d.map Prod.fst

/-- `list(d.values())`. -/
def values (d : Dict κ α) : List α := d.map Prod.snd

/-- `d[k]` when present. -/
def get? (d : Dict κ α) (k : κ) : Option α :=
  match d with
  | [] => none
  | (k', v) :: r => if k' = k then some v else get? r k

/-- `d[k]`, raising `KeyError` when absent. -/
def get (d : Dict κ α) (k : κ) : Except Err α :=
  match get? d k with
  | some v => .ok v
  | none => .error .keyError

/-- `d[k] = v`: overwrite in place, or append. -/
def set (d : Dict κ α) (k : κ) (v : α) : Dict κ α :=
  match d with
  | [] => [(k, v)]
  | (k', v') :: r => if k' = k then (k, v) :: r else (k', v') :: set r k v

/-- `dict(pairs)`: later pairs overwrite earlier ones and keep the earlier position. -/
def ofPairs (l : List (κ × α)) : Dict κ α := l.foldl (fun d p => set d p.1 p.2) []

/-- `{k: f(v) for k, v in d.items()}` for a dictionary without repeated keys. -/
def mapVals (f : α → β) (d : Dict κ α) : Dict κ β := d.map (fun p => (p.1, f p.2))

/-- `{k: f(v) for k, v in d.items()}` with a function that may raise. -/
def mapValsM (f : α → Except Err β) : Dict κ α → Except Err (Dict κ β)
  | [] => .ok []
  | (k, v) :: r => do
    let v' ← f v
    let r' ← mapValsM f r
    return (k, v') :: r'

/-- No key occurs twice. -/
def WF (d : Dict κ α) : Prop := (keys d).Nodup

end Dict

/-- Python list/array indexing `l[i]` with an integer index: negative indices count from the end,
anything outside `[-len, len)` raises `IndexError`. -/
def pyGet {α : Type} (l : List α) (i : ℤ) : Except Err α :=
  if 0 ≤ i then
    match l[i.toNat]? with
    | some v => .ok v
    | none => .error .indexError
  else
    if 0 ≤ i + l.length then
      match l[(i + l.length).toNat]? with
      | some v => .ok v
      | none => .error .indexError
    else .error .indexError

/-- `set(a) == set(b)` for two lists of hashable values. -/
def setEq {α : Type} [DecidableEq α] (a b : List α) : Bool :=
  a.all (fun x => decide (x ∈ b)) && b.all (fun x => decide (x ∈ a))

end Shgpy
