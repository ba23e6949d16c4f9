import Verif.Model.GroupVoltages
import Verif.Spec.Voltage
import Verif.Spec.Walk
import Verif.Spec.Connect

/-! Groups of nodes between transformers. -/
namespace Ditto.Net
open Ditto.Spec

/-- an edge between `a` and `b` that is not a transformer -/
def Graph.CutAdj (g : Graph) (a b : String) : Prop := ∃ e ∈ g.edges, e.joins a b ∧ ∀ nm, ¬ e.Trafo nm

/-- the groups are the classes of nodes connected without passing a transformer, each with its elements in any order -/
structure IsGroups (g : Graph) (groups : List (List String)) : Prop where
  nodup : groups.flatten.Nodup
  all : ∀ x ∈ g.nodes, ∃ c ∈ groups, x ∈ c
  nodes : ∀ c ∈ groups, ∀ x ∈ c, x ∈ g.nodes
  class_ : ∀ c ∈ groups, ∀ x ∈ c, ∀ y, y ∈ c ↔ Reach g.CutAdj x y
  nonempty : ∀ c ∈ groups, c ≠ []

/-- the transformer called `nm` gives the voltage `v`: that of its low side, or `none` if it has no name or no windings -/
def SideVoltage (devs : List VoltDev) (nm : Option String) (v : Option ℚ) : Prop :=
  (nm = none ∧ v = none) ∨ ∃ x, nm = some x ∧
    ((∃ y, LowSide devs x y ∧ v = some y) ∨ ∃ t ∈ devs, t.net.name = some x ∧ t.windings = none ∧ v = none)

/-- `v` is the voltage that the last transformer on the route gives, `none` if there is no transformer -/
def UpVoltage (devs : List VoltDev) (es : List Edge) (v : Option ℚ) : Prop :=
  ((∀ e ∈ es, ∀ nm, ¬ e.Trafo nm) ∧ v = none) ∨
    ∃ pre e post nm, es = pre ++ e :: post ∧ e.Trafo nm ∧ (∀ e' ∈ post, ∀ nm', ¬ e'.Trafo nm') ∧ SideVoltage devs nm v

/-- the transformer of the network whose low side is nearest above the end of the route, if any -/
def UpTrafo (es : List Edge) (nm : Option String) : Prop :=
  ((∀ e ∈ es, ∀ nm, ¬ e.Trafo nm) ∧ nm = none) ∨
    ∃ pre e post, es = pre ++ e :: post ∧ e.Trafo nm ∧ ∀ e' ∈ post, ∀ nm', ¬ e'.Trafo nm'

/-- the network has no loops: every connection is directed -/
def Radial (n : Network) : Prop := ∀ e ∈ n.graph.edges, (∃ e' ∈ n.digraph, e'.u = e.u ∧ e'.v = e.v) ∨ ∃ e' ∈ n.digraph, e'.u = e.v ∧ e'.v = e.u

end Ditto.Net
