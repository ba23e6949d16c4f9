import Verif.Model.GroupVoltages

/-! `split_network_into_feeders` of `ditto/metrics/network_analysis.py`. -/
namespace Ditto.Net
open Ditto

/-- `graph.subgraph(nodes)`: nodes that are not in the graph are ignored -/
def Graph.induced (g : Graph) (nodes : List String) : Graph :=
  ⟨g.nodes.filter fun x => x ∈ nodes, g.edges.filter fun e => e.u ∈ nodes ∧ e.v ∈ nodes⟩

/-- `nx.is_connected`, which is not defined for the graph without nodes -/
def connectedGraph (g : Graph) : Py Bool :=
  match g.nodes with
  | [] => .error .networkXPointlessConcept
  | s :: _ => .ok (isConnected g s)

/-- What networkx and python leave open: the order of the components of the subgraph of some nodes and of the elements that `pop` takes
from them, and which of the shortest paths is taken. -/
structure SplitOps where
  comps : List String → List (List String)
  path : String → String → List String

/-- `nx.shortest_path(graph, a, b)` -/
def findPath (g : Graph) (ops : SplitOps) (a b : String) : Py (List String) :=
  match bfsOrder g a with
  | .error _ => .error .nodeNotFound
  | .ok t => if b ∈ a :: t.map (·.2) then .ok (ops.path a b) else .error .networkXNoPath

/-- the nodes of the path that are not in the list are appended: ditto/metrics/network_analysis.py:584-588 -/
def addNodes (l path : List String) : List String := path.foldl (fun l x => if x ∈ l then l else l ++ [x]) l

/-- `connect_disconnected_components` for the feeder with the index `idx`: ditto/metrics/network_analysis.py:545-588. The lists of
different feeders are different objects. -/
def connectComponents (g : Graph) (ops : SplitOps) (lists : List (List String)) (idx : Nat) : Py (List (List String)) :=
  match lists[idx]? with
  | none => .error .indexError
  | some l =>
    match ops.comps l with
    | [] => .error .stopIteration
    | [_] => .error .stopIteration
    | [] :: _ => .error .keyError
    | _ :: [] :: _ => .error .keyError
    | (a :: _) :: (b :: _) :: _ =>
      if a = b then .error .valueError
      else
        match findPath g ops a b with
        | .error e => .error e
        | .ok p => .ok (lists.set idx (addNodes l p))

/-- The loop `while not nx.is_connected(...)` for the feeder `cpt`: ditto/metrics/network_analysis.py:257-262. `idx` is the first index of
the name of the feeder. `none`: it has not ended within the given number of iterations. -/
def splitLoop (g : Graph) (ops : SplitOps) (cpt idx : Nat) : Nat → List (List String) → Option (Py (List (List String)))
  | 0, _ => none
  | k + 1, lists =>
    match lists[cpt]? with
    | none => some (.error .indexError)
    | some l =>
      match connectedGraph (g.induced l) with
      | .error e => some (.error e)
      | .ok true => some (.ok lists)
      | .ok false =>
        match connectComponents g ops lists idx with
        | .error e => some (.error e)
        | .ok lists => splitLoop g ops cpt idx k lists

/-- `feeder_nodes`, `feeder_networks` and `node_feeder_mapping`. The last two are dictionaries, here the assignments in their order. -/
structure Feeders where
  lists : List (List String)
  networks : List (String × Graph)
  mapping : List (String × String)
deriving DecidableEq, Repr

/-- `node_feeder_mapping[x]` -/
def Feeders.feederOf (f : Feeders) (x : String) : Option String := (f.mapping.reverse.find? fun a => a.1 = x).map (·.2)

/-- one iteration for the feeder `cpt` with the name `nm`: ditto/metrics/network_analysis.py:247-267 -/
def splitFeeder (g : Graph) (ops : SplitOps) (names : List String) (cpt : Nat) (nm : String) (f : Feeders) : Option (Py Feeders) :=
  match splitLoop g ops cpt (names.idxOf nm) (g.nodes.length + 1) f.lists with
  | none => none
  | some (.error e) => some (.error e)
  | some (.ok lists) =>
    match lists[cpt]? with
    | none => some (.error .indexError)
    | some l =>
      some (.ok ⟨lists, f.networks ++ [(nm, g.induced l)], f.mapping ++ (g.induced l).nodes.map fun x => (x, nm)⟩)

/-- the loop over the feeders from the index `cpt` -/
def splitFeeders (g : Graph) (ops : SplitOps) (names : List String) : Nat → List String → Feeders → Option (Py Feeders)
  | _, [], f => some (.ok f)
  | cpt, nm :: rest, f =>
    match splitFeeder g ops names cpt nm f with
    | none => none
    | some (.error e) => some (.error e)
    | some (.ok f) => splitFeeders g ops names (cpt + 1) rest f

/-- `add_feeder_information` (ditto/metrics/network_analysis.py:202-234, without the types) followed by `split_network_into_feeders`
(236-267) -/
def splitNetwork (g : Graph) (ops : SplitOps) (names : List String) (lists : List (List String)) : Option (Py Feeders) :=
  if names.length ≠ lists.length then some (.error .valueError)
  else splitFeeders g ops names 0 names ⟨lists, [], []⟩

end Ditto.Net
