import Verif.Model.Py
import Verif.Model.Search
import Mathlib.Data.Rat.Defs

/-!
`ditto.network.network.Network` and the graph methods of `Store`.

A `networkx.Graph` is its list of nodes and its list of edges, both in the order they were added. `adj[u]` is then the list
of the other ends of the edges at `u`.
-/
namespace Ditto.Net
open Ditto Ditto.Search

/-- What `Network` reads of an object of the model. `none` stands for `None` and for a missing trait. -/
structure NetObj where
  cls : String
  name : Option String
  fromEl : Option String := none
  toEl : Option String := none
  connecting : Option String := none
  length : Option ℚ := none
  /-- `is_switch`, `is_breaker` and `is_open` of the wires; only lines have the first two -/
  isSwitch : Option Bool := none
  isBreaker : Option Bool := none
  isLine : Bool := false
  wires : List (Option Bool) := []
deriving DecidableEq, Repr

/-- Edge with its attributes: `equip` is `equipment` and `equipment_name`. Undirected in `Graph`, directed from `u` to `v`
in `DiGraph`. -/
structure Edge where
  u : String
  v : String
  equip : Option (String × Option String)
  length : Option ℚ
deriving DecidableEq, Repr

/-- `networkx.Graph` -/
structure Graph where
  nodes : List String
  edges : List Edge
deriving DecidableEq, Repr

/-- the edge joins `a` and `b` -/
def Edge.joins (e : Edge) (a b : String) : Prop := (e.u = a ∧ e.v = b) ∨ (e.u = b ∧ e.v = a)

instance (e : Edge) (a b : String) : Decidable (e.joins a b) := by unfold Edge.joins; infer_instance

/-- `graph.add_node(n)` -/
def Graph.addNode (g : Graph) (n : String) : Graph := if n ∈ g.nodes then g else { g with nodes := g.nodes ++ [n] }

/-- `graph.add_edge(u, v, **attrs)`: a new edge, or new values of the given attributes of the old one -/
def Graph.addEdge (g : Graph) (u v : String) (equip : Option (String × Option String)) (length : Option ℚ) : Graph :=
  if g.edges.any (fun e => e.joins u v) then
    { g with edges := g.edges.map fun e =>
        if e.joins u v then { e with equip := equip.or e.equip, length := length.or e.length } else e }
  else { g with edges := g.edges ++ [⟨u, v, equip, length⟩] }

/-- `graph[u]` -/
def Graph.neighbors (g : Graph) (x : String) : List String :=
  g.edges.filterMap fun e => if e.u = x then some e.v else if e.v = x then some e.u else none

/-- the edge between two nodes -/
def Graph.find (g : Graph) (a b : String) : Option Edge := g.edges.find? fun e => e.joins a b

/-- First part of the body of the loop of `build`: ditto/network/network.py:57-97. `ot` is the variable `object_type`, which
keeps the class of the last named object, and is unbound before. -/
def addTwoTerminal (ot : Option String) (g : Graph) (o : NetObj) : Py Graph :=
  match o.fromEl, o.toEl with
  | some f, some t =>
    match ot with
    | none => .error .unboundLocalError
    | some ty => .ok (((g.addNode t).addNode f).addEdge f t (some (ty, o.name)) (some (o.length.getD 0)))
  | _, _ => .ok g

/-- Second part of the body of the loop of `build`: ditto/network/network.py:99-120. `None` cannot be a node of a graph
(ValueError in networkx 2.6 and later). That an edge is not added again if it is in `graph_edges` makes no difference. -/
def addOneTerminal (g : Graph) (o : NetObj) : Py Graph :=
  match o.connecting with
  | none => .ok g
  | some c =>
    match o.name with
    | none => .error .valueError
    | some n => .ok (((g.addNode c).addNode n).addEdge c n none none)

/-- One iteration of the loop of `build`: ditto/network/network.py:50-120 -/
def buildStep (st : Option String × Graph) (o : NetObj) : Py (Option String × Graph) :=
  let ot := if o.name.isSome then some o.cls else st.1
  match addTwoTerminal ot st.2 o with
  | .error e => .error e
  | .ok g =>
    match addOneTerminal g o with
    | .error e => .error e
    | .ok g => .ok (ot, g)

/-- The graph made by `build`: ditto/network/network.py:46-120 -/
def buildGraph (objs : List NetObj) : Py Graph :=
  match objs.foldlM buildStep (none, ⟨[], []⟩) with
  | .error e => .error e
  | .ok (_, g) => .ok g

/-- `Network.bfs_order`: ditto/network/network.py:442-444. `graph[source]` raises `KeyError` for an unknown source. The
result is a python set; the order of this list has no meaning. -/
def bfsOrder (g : Graph) (source : String) : Py (List (String × String)) :=
  if source ∈ g.nodes then .ok (bfsEdges g.neighbors g.nodes.length source) else .error .keyError

/-- The directed graph made of the edges `t`, with the equipment of the undirected ones:
ditto/network/network.py:128-147 and 157-176. -/
def mkDigraph (g : Graph) (t : List (String × String)) : List Edge :=
  t.map fun p => ⟨p.1, p.2, (g.find p.1 p.2).bind (·.equip), none⟩

structure Network where
  graph : Graph
  digraph : List Edge
deriving DecidableEq, Repr

/-- `Network.rebuild_digraph`: ditto/network/network.py:156-176 (the rest, 177-238, copies attributes of the objects: `NetAttrs`) -/
def rebuildDigraph (g : Graph) (source : String) : Py Network :=
  match bfsOrder g source with
  | .error e => .error e
  | .ok t => .ok ⟨g, mkDigraph g t⟩

/-- `Network.build`: ditto/network/network.py:46-149 -/
def build (objs : List NetObj) (source : String) : Py Network :=
  match buildGraph objs with
  | .error e => .error e
  | .ok g => rebuildDigraph g source

/-! ### remove_open_switches -/

/-- the condition in `remove_open_switches`, ditto/network/network.py:324-332, together with the test of the wires 333-340 -/
def removable (o : NetObj) : Bool :=
  o.isLine && (o.isSwitch == some true || o.isBreaker.isSome) && o.fromEl.isSome && o.toEl.isSome && !o.wires.isEmpty &&
    o.wires.all (fun w => w != some false)

/-- one iteration of `remove_open_switches`: ditto/network/network.py:323-347. `remove_edge` raises `NetworkXError` if there
is no such edge. -/
def removeStep (n : Network) (o : NetObj) : Py Network :=
  if removable o then
    match o.fromEl, o.toEl with
    | some f, some t =>
      if n.graph.edges.any (fun e => e.joins f t) then
        .ok ⟨{ n.graph with edges := n.graph.edges.filter fun e => !(e.joins f t) },
          n.digraph.filter fun e => !(e.joins f t)⟩
      else .error .networkXError
    | _, _ => .ok n
  else .ok n

/-- `Network.remove_open_switches`: ditto/network/network.py:322-347 -/
def removeOpenSwitches (n : Network) (objs : List NetObj) : Py Network := objs.foldlM removeStep n

/-! ### get_upstream_transformer -/

/-- The loop of `get_upstream_transformer`: ditto/network/network.py:356-361. The predecessor is the first one. `none`: the
loop has not ended after the given number of rounds. -/
def upstreamLoop (d : List Edge) : Nat → String → Option (Py (Option String))
  | 0, _ => none
  | n + 1, x =>
    match d.find? (fun e => e.v = x) with
    | none => some (.ok none)
    | some e =>
      match e.equip with
      | none => some (.error .keyError)
      | some (ty, nm) => if ty = "PowerTransformer" then some (.ok nm) else upstreamLoop d n e.u

/-- `Network.get_upstream_transformer`: ditto/network/network.py:349-362. A node that is not in the directed graph has no
`predecessors` (NetworkXError). -/
def upstreamTransformer (d : List Edge) (x : String) : Option (Py (Option String)) :=
  if d.any (fun e => e.u = x || e.v = x) then upstreamLoop d (d.length + 1) x else some (.error .networkXError)

/-! ### get_all_elements_downstream -/

/-- nodes of a directed graph, with repetitions -/
def diNodes (d : List Edge) : List String := d.flatMap fun e => [e.u, e.v]

/-- `digraph[x]` -/
def successors (d : List Edge) (x : String) : List String := (d.filter fun e => e.u = x).map (·.v)

/-- The names collected in `_elts`: ditto/network/network.py:389-411. The source has to be in the directed graph. An edge
without `equipment_name` contributes its ends only. -/
def downstreamNames (n : Network) (source : String) : Py (List (Option String)) :=
  if source ∈ diNodes n.digraph then
    .ok ((dfsEdges (successors n.digraph) (diNodes n.digraph) source).flatMap fun p =>
      [some p.1, some p.2] ++
        match (n.graph.find p.1 p.2).bind (·.equip) with
        | some (_, nm) => [nm]
        | none => [])
  else .error .valueError

/-- `model[x]`, `ValueError` if there is none -/
def lookupAll {β : Type} (names : Option String → Option β) : List (Option String) → Py (List β)
  | [] => .ok []
  | x :: xs =>
    match names x with
    | none => .error .valueError
    | some r =>
      match lookupAll names xs with
      | .error e => .error e
      | .ok rs => .ok (r :: rs)

/-- `Network.get_all_elements_downstream`: ditto/network/network.py:364-422 on a built network. `names` is `model[...]`. The
names are a python set: duplicates are removed, the order has no meaning. -/
def elementsDownstream {β : Type} (n : Network) (names : Option String → Option β) (source : String) : Py (List β) :=
  match downstreamNames n source with
  | .error e => .error e
  | .ok l => lookupAll names l.dedup

/-! ### find_internal_edges -/

/-- `Network.find_internal_edges`: ditto/network/network.py:446-463. The result is a set of equipment names. -/
def internalEdges (g : Graph) (nodeset : List String) : List (Option String) :=
  let all : List (String × String) := nodeset.flatMap fun x =>
    if x ∈ g.nodes then (g.neighbors x).map fun y => (x, y) else []
  all.filterMap fun p =>
    if p.1 ∈ nodeset ∧ p.2 ∈ nodeset then ((g.find p.1 p.2).bind (·.equip)).map (·.2) else none

/-! ### direct_from_source -/

/-- one iteration of the loop of `Store.direct_from_source`: ditto/store.py:157-171 -/
def orient (t : List (String × String)) (o : NetObj) : NetObj :=
  match o.fromEl, o.toEl with
  | some f, some g => if (g, f) ∈ t ∧ (f, g) ∉ t then { o with fromEl := some g, toEl := some f } else o
  | _, _ => o

/-- `Store.direct_from_source`: ditto/store.py:154-171 -/
def directFromSource (g : Graph) (objs : List NetObj) (source : String) : Py (List NetObj) :=
  match bfsOrder g source with
  | .error e => .error e
  | .ok t => .ok (objs.map (orient t))

end Ditto.Net
