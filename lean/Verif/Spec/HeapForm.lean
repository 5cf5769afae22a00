import Verif.Model.HeapForm

/-!
# Containers that share nothing

What a caller with several `fFormContainer`s should see: each of them is a value of its own, a method call changes that one and a copy
is one more.  No heap occurs here.
-/

namespace Shgpy.Spec

/-- One action of the caller, if the containers are separate values. -/
def separateStep (S : Sympy) (cs : List FFormContainer) : HFForm.Ev → List FFormContainer
  | .call i op => cs.modify i (fun c => (FFormContainer.step S c op).1)
  | .copy i =>
      match cs[i]? with
      | some c => cs ++ (c.copy S).toOption.toList
      | none => cs
  | _ => cs

/-- The caller's actions, if the containers are separate values. -/
def separate (S : Sympy) (cs : List FFormContainer) (evs : List HFForm.Ev) : List FFormContainer :=
  evs.foldl (separateStep S) cs

/-- The caller does not ask for the arrays themselves. -/
def NoLive : HFForm.Ev → Prop
  | .getItems _ => False
  | .getValues _ => False
  | _ => True

/-- The calls among `calls` that go to the copy (`true`) or to the original (`false`). -/
def callsOn (b : Bool) (calls : List (Bool × FFormContainer.Op)) : List FFormContainer.Op :=
  (calls.filter (fun p => p.1 == b)).map Prod.snd

end Shgpy.Spec
