import Verif.Model.Split
import Verif.Spec.Walk
import Verif.Spec.Connect

/-! Parts of a network. -/
namespace Ditto.Net
open Ditto.Spec

/-- an edge between `a` and `b`, which are both in the list -/
def Graph.AdjIn (g : Graph) (l : List String) (a b : String) : Prop := g.Adj a b ∧ a ∈ l ∧ b ∈ l

/-- the part of the network with the nodes `l` is connected: it is possible to go from each node to each other one without leaving it -/
def Graph.ConnectedIn (g : Graph) (l : List String) : Prop := ∀ a ∈ g.nodes, a ∈ l → ∀ b ∈ g.nodes, b ∈ l → Reach (g.AdjIn l) a b

/-- `l` has a node of the network and all its nodes can be connected through the network -/
def Graph.Joinable (g : Graph) (l : List String) : Prop :=
  (∃ x ∈ g.nodes, x ∈ l) ∧ ∀ a ∈ g.nodes, a ∈ l → ∀ b ∈ g.nodes, b ∈ l → Reach g.Adj a b

/-- nodes of the network that were not in the list, each one once, have been appended -/
def Graph.Grown (g : Graph) (l l' : List String) : Prop := ∃ extra, l' = l ++ extra ∧ extra.Nodup ∧ ∀ x ∈ extra, x ∈ g.nodes ∧ x ∉ l

/-- `p` is the part of the network with the nodes `l` -/
def Graph.IsPart (g : Graph) (l : List String) (p : Graph) : Prop :=
  (∀ x, x ∈ p.nodes ↔ x ∈ g.nodes ∧ x ∈ l) ∧ ∀ e, e ∈ p.edges ↔ e ∈ g.edges ∧ e.u ∈ l ∧ e.v ∈ l

/-- `p` is a path from `a` to `b` -/
def Graph.IsPath (g : Graph) (a b : String) (p : List String) : Prop := p.head? = some a ∧ p.getLast? = some b ∧ p.IsChain g.Adj

/-- networkx gives the components of the part with the nodes `l` in some order, and a path between connected nodes -/
structure SplitOps.Correct (g : Graph) (ops : SplitOps) : Prop where
  nonempty : ∀ l, ∀ c ∈ ops.comps l, c ≠ []
  nodup : ∀ l, (ops.comps l).flatten.Nodup
  nodes : ∀ l x, x ∈ (ops.comps l).flatten ↔ x ∈ g.nodes ∧ x ∈ l
  same : ∀ l, ∀ c ∈ ops.comps l, ∀ x ∈ c, ∀ y, y ∈ c ↔ Reach (g.AdjIn l) x y
  path : ∀ a b, Reach g.Adj a b → g.IsPath a b (ops.path a b)

end Ditto.Net
