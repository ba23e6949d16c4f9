import Verif.Model.Network

/-! Routes in the directed network. -/
namespace Ditto.Net

/-- `es` are the edges passed from `s` to `x` along directed edges -/
inductive Route (d : List Edge) (s : String) : List Edge → String → Prop
  | nil : Route d s [] s
  | snoc {es : List Edge} {u : String} {e : Edge} : Route d s es u → e ∈ d → e.u = u → Route d s (es ++ [e]) e.v

/-- the edge belongs to equipment that is not a transformer, as lines do -/
def Edge.Plain (e : Edge) : Prop := ∃ ty nm, e.equip = some (ty, nm) ∧ ty ≠ "PowerTransformer"

end Ditto.Net
