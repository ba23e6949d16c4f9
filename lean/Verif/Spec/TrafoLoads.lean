import Verif.Spec.CenterTap

/-! Loads below transformers. -/
namespace Ditto.Net

/-- the last transformer on the route from the source `s` to the load is called `t` -/
def FeedsLoad (n : Network) (s : String) (t : Option String) (o : NetObj) : Prop :=
  ∃ x es pre e post, o.connecting = some x ∧ Route n.digraph s es x ∧ es = pre ++ e :: post ∧ TrafoEdge n e t ∧
    ∀ e' ∈ post, ∀ nm, ¬ TrafoEdge n e' nm

end Ditto.Net
