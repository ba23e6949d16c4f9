import Verif.Model.NetAttrs

/-! Which object the attributes of an edge come from, for C129. -/
namespace Ditto.NetAttrs.Spec
open Ditto Ditto.Net

/-- the object has a name, and it joins the ends of the edge or is a device at its upper end -/
def On {V : Type} (o : AttrObj V) (k : String × String) : Prop :=
  (o.name ≠ none ∧ ((o.fromEl = some k.1 ∧ o.toEl = some k.2) ∨ (o.fromEl = some k.2 ∧ o.toEl = some k.1))) ∨
    (o.connecting = some k.1 ∧ o.name = some k.2)

/-- attributes that are not private -/
def Public (a : String) : Prop := ¬ ∃ cs, a.toList = '_' :: cs

end Ditto.NetAttrs.Spec
