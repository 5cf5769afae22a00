import Verif.Model.FFormFit

/-!
# Model of the selection of combinations in `examples/fit_partial_fform_example.py`
-/

namespace Shgpy

/-- `iterable = {}; for k,v in fform.get_items(): if k in pcs: iterable[k] = v` and `shgpy.fFormContainer(iterable, M)`,
examples/fit_partial_fform_example.py:23-27 (there with the default `M = 16`). -/
def partialFform (S : Sympy) (fform : FFormContainer) (pcs : List Key) (M : ℕ) : Except Err FFormContainer := do
  let iterable := fform.getItems.foldl (fun (d : Dict Key FArr) kv => if kv.1 ∈ pcs then Dict.set d kv.1 kv.2 else d) []
  FFormContainer.init S (iterable.map (fun kv => (.str kv.1, kv.2.toRaw))) M

end Shgpy
