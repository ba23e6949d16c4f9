import Verif.Model.Voltages

/-! `set_nominal_voltages` of `ditto/modify/system_structure.py`, which groups the nodes between transformers. -/
namespace Ditto.Net
open Ditto

/-- `graph.remove_edges_from(edges_to_remove)`: ditto/modify/system_structure.py:548-556 -/
def cutGraph (g : Graph) : Graph :=
  { g with edges := g.edges.filter fun e => e.equip.map (·.1) ≠ some "PowerTransformer" }

/-- `nx.is_connected`, for a graph with the node `s` -/
def isConnected (g : Graph) (s : String) : Bool :=
  match bfsOrder g s with
  | .error _ => false
  | .ok t => g.nodes.all fun x => x ∈ s :: t.map (·.2)

/-- the volunteer, and what is left of the group: ditto/modify/system_structure.py:577-580. The group is a python set, of which `pop`
takes elements in the order of the list. `pop` of an empty set raises `KeyError`. -/
def volunteer (devs : List VoltDev) : List String → Py (String × List String)
  | [] => .error .keyError
  | x :: xs =>
    match named (·.net.name) devs (some x) with
    | .error e => .error e
    | .ok d => if d.net.cls = "Node" then .ok (x, xs) else volunteer devs xs

/-- `secondary_voltage` of the upstream transformer, `None` if it has no windings: ditto/modify/system_structure.py:590-610 -/
def secondaryVoltage (devs : List VoltDev) (nm : String) : Py (Option ℚ) :=
  match named (·.net.name) devs (some nm) with
  | .error e => .error e
  | .ok t =>
    match t.windings with
    | none => .ok none
    | some ws =>
      match minQ (ws.filterMap id) with
      | .error e => .error e
      | .ok y => .ok (some y)

/-- what is found out about a group: the nodes that are left in it, the transformer and the voltage -/
structure GroupInfo where
  rest : List String
  trafo : Option String
  voltage : Option ℚ
deriving DecidableEq, Repr

/-- one iteration of the first loop: ditto/modify/system_structure.py:574-610. `get_upstream_transformer` always ends (C18), so that
the case that it has not ended does not occur. -/
def groupInfo (n : Network) (devs : List VoltDev) (group : List String) : Py GroupInfo :=
  match volunteer devs group with
  | .error e => .error e
  | .ok (x, rest) =>
    match upstreamTransformer n.digraph x with
    | none => .error .recursionError
    | some (.error e) => .error e
    | some (.ok none) => .ok ⟨rest, none, none⟩
    | some (.ok (some nm)) =>
      match secondaryVoltage devs nm with
      | .error e => .error e
      | .ok v => .ok ⟨rest, some nm, v⟩

/-- the object with the voltage of its group. An object without the trait gets the attribute. -/
def GroupInfo.set (i : GroupInfo) (d : VoltDev) : VoltDev :=
  { d with hasVoltage := true, voltage := i.voltage, upstream := if d.net.cls = "Load" then i.trafo else d.upstream }

/-- body of the inner loop: ditto/modify/system_structure.py:618-623 -/
def assignMember (i : GroupInfo) (devs : List VoltDev) (x : String) : Py (List VoltDev) :=
  match named (·.net.name) devs (some x) with
  | .error e => .error e
  | .ok _ => .ok (updateNamed (·.net.name) (some x) i.set devs)

/-- the second loop: ditto/modify/system_structure.py:612-623 -/
def assignGroups (infos : List GroupInfo) (devs : List VoltDev) : Py (List VoltDev) :=
  infos.foldlM (fun devs i => i.rest.foldlM (assignMember i) devs) devs

/-- the first two loops, on the groups `groups` -/
def nodeVoltages (n : Network) (groups : List (List String)) (devs : List VoltDev) : Py (List VoltDev) :=
  match groups.mapM (groupInfo n devs) with
  | .error e => .error e
  | .ok infos => assignGroups infos devs

/-- `set_nominal_voltages`: ditto/modify/system_structure.py:523-640, for a network with the source `s`. `groups` are the connected
components of `cutGraph`, each in the order in which the elements of the set are taken. -/
def setGroupVoltages (n : Network) (s : String) (groups : List (List String)) (devs : List VoltDev) : Py (List VoltDev) :=
  if isConnected n.graph s then
    match nodeVoltages n groups devs with
    | .error e => .error e
    | .ok devs => lineVoltages [] devs
  else .error .assertionError

end Ditto.Net
