import Verif.Model.Recloser
import Mathlib.Data.List.Basic

/-! What `replace_kth_switch_with_recloser` is to achieve. -/
namespace Ditto.Net

/-- the equipment on the way from `x` along the first edge at each node, down to the end of the network; every edge of it has equipment -/
inductive FirstPath (n : Network) : String → List (Option String) → Prop
  | stop {x : String} : successors n.digraph x = [] → FirstPath n x []
  | step {x y ty : String} {nm : Option String} {ys : List String} {ps : List (Option String)} : successors n.digraph x = y :: ys →
      n.graph.equipOf x y = some (ty, nm) → FirstPath n y ps → FirstPath n x (nm :: ps)

/-- the objects of the model called `ps` that are closed switches -/
def closedOn (os : List SwObj) (ps : List (Option String)) : List (Option String) :=
  ps.filter fun nm => os.any fun o => o.name = nm && o.closedSwitch

/-- the objects are the same, but for some closed switches that are now reclosers, at most `k` of them -/
inductive Replaced : Nat → List SwObj → List SwObj → Prop
  | nil (k : Nat) : Replaced k [] []
  | same {k : Nat} {o : SwObj} {os os' : List SwObj} : Replaced k os os' → Replaced k (o :: os) (o :: os')
  | switch {k : Nat} {o : SwObj} {os os' : List SwObj} : o.isSwitch = some true → o.wires.head? = some false →
      Replaced k os os' → Replaced (k + 1) (o :: os) ({ o with isSwitch := some false, isRecloser := some true } :: os')

end Ditto.Net
