import Verif.Model.Network

/-! `ditto/consistency`: the checks of connections. -/
namespace Ditto.Net
open Ditto Ditto.Search

/-- `all_sources`: ditto/consistency/check_loads_connected.py:22-26 (the same in the other checks) -/
def sources (objs : List NetObj) : List NetObj := objs.filter fun o => o.cls = "PowerSource" && o.connecting.isSome

/-- `all_loads`: ditto/consistency/check_loads_connected.py:27-29. A python set of objects; every order is possible. -/
def loads (objs : List NetObj) : List NetObj := objs.filter fun o => o.cls = "Load"

/-- `build`, `set_attributes`, `remove_open_switches`: ditto/consistency/check_loads_connected.py:36-39 (the same in the other
checks). The attributes are not modelled. -/
def closedNetwork (objs : List NetObj) (s : String) : Py Network :=
  match build objs s with
  | .error e => .error e
  | .ok n => removeOpenSwitches n objs

/-- the nodes of `nx.single_source_shortest_path(graph, s)` -/
def reachable (g : Graph) (s : String) : List String := s :: (bfsEdges g.neighbors g.nodes.length s).map (·.2)

/-! ### check_loads_connected -/

/-- `load_source_map` -/
abbrev SourceMap := List (Option String × List String)

/-- `if load_connection in all_paths: load_source_map[load.name].append(source_name)`:
ditto/consistency/check_loads_connected.py:43-47 -/
def addLoad (r : List String) (s : String) (m : SourceMap) (l : NetObj) : SourceMap :=
  match l.connecting with
  | none => m
  | some c => if c ∈ r then m.map fun p => if p.1 = l.name then (p.1, p.2 ++ [s]) else p else m

/-- one iteration of the loop over the sources: ditto/consistency/check_loads_connected.py:35-47 -/
def addSource (objs : List NetObj) (m : SourceMap) (src : NetObj) : Py SourceMap :=
  match src.connecting with
  | none => .ok m
  | some s =>
    match closedNetwork objs s with
    | .error e => .error e
    | .ok n => .ok ((loads objs).foldl (addLoad (reachable n.graph s) s) m)

/-- `check_loads_connected`: ditto/consistency/check_loads_connected.py:16-72. In line 59 `load` is the name of the load, so
that `load.name` raises `AttributeError`. -/
def checkLoadsConnected (objs : List NetObj) : Py Bool :=
  if sources objs = [] then .ok false
  else
    match (sources objs).foldlM (addSource objs) (((loads objs).map (·.name)).dedup.map fun nm => (nm, [])) with
    | .error e => .error e
    | .ok m => if m.any (fun p => p.2.length > 1) then .error .attributeError else .ok (m.all fun p => p.2.length ≠ 0)

/-! ### check_loops -/

/-- the ends of the edges -/
def ends (es : List Edge) : List String := es.flatMap fun e => [e.u, e.v]

/-- number of edges of `es` whose ends are already connected by the edges before them -/
def cycleRank : List Edge → List Edge → Nat
  | _, [] => 0
  | pre, e :: es => (if e.v ∈ reachable ⟨e.u :: ends pre, pre⟩ e.u then 1 else 0) + cycleRank (pre ++ [e]) es

/-- `len(nx.cycle_basis(graph))`: the cyclomatic number, counted edge by edge -/
def basisSize (g : Graph) : Nat := cycleRank [] g.edges

/-- the loop of `check_loops`: ditto/consistency/check_loops.py:28-43. The concatenation with `None` raises `TypeError`. -/
def loopsLoop (objs : List NetObj) : List NetObj → Py Bool
  | [] => .ok false
  | src :: rest =>
    match src.name, src.connecting with
    | none, _ => .error .typeError
    | some _, none => loopsLoop objs rest
    | some _, some s =>
      match closedNetwork objs s with
      | .error e => .error e
      | .ok n => if basisSize n.graph = 0 then .ok true else loopsLoop objs rest

/-- `check_loops`: ditto/consistency/check_loops.py:16-43. `raise('...')` is a `TypeError`. -/
def checkLoops (objs : List NetObj) : Py Bool :=
  if sources objs = [] then .error .typeError else loopsLoop objs (sources objs)

/-! ### check_unique_path -/

/-- the simple paths from `x` to `t` that avoid `vis`; the first number bounds the length -/
def pathsFrom (nb : String → List String) (t : String) : Nat → List String → String → List (List String)
  | 0, _, _ => []
  | n + 1, vis, x =>
    if x = t then [[x]]
    else ((nb x).filter (· ∉ vis)).flatMap fun y => (pathsFrom nb t n (y :: vis) y).map (x :: ·)

/-- `list(nx.all_simple_paths(graph, s, t))` for two nodes of the graph: none if they are the same -/
def simplePaths (g : Graph) (s t : String) : List (List String) :=
  if s = t then [] else pathsFrom g.neighbors t g.nodes.length [s] s

/-- `nx.all_simple_paths(graph, s, name)`, networkx 2.5: a `target` that is not a node is taken as a collection of nodes, so a
string stands for its characters; `None` raises `NodeNotFound`. If the source is one of them there are none. -/
def targetPaths (g : Graph) (s : String) : Option String → Py (List (List String))
  | none => .error .nodeNotFound
  | some t =>
    if t ∈ g.nodes then .ok (simplePaths g s t)
    else
      let cs := (t.toList.map fun c => String.ofList [c]).dedup
      if s ∈ cs then .ok [] else .ok ((cs.filter (· ∈ g.nodes)).flatMap (simplePaths g s))

/-- The loop over the loads: ditto/consistency/check_unique_path.py:54-77, on the names of the loads in the order of the python
set. `brk` is `break_load`. -/
def uniqueLoads (showAll : Bool) (g : Graph) (s : String) : List (Option String) → Bool → Bool → Py Bool
  | [], _, res => .ok res
  | nm :: rest, brk, res =>
    match targetPaths g s nm with
    | .error e => .error e
    | .ok ps =>
      if brk then .ok res
      else if ps.length > 1 then uniqueLoads showAll g s rest (!showAll) false
      else if ps.length = 0 then .ok false
      else uniqueLoads showAll g s rest false res

/-- one iteration of the loop over the sources: ditto/consistency/check_unique_path.py:48-77 -/
def uniqueSource (showAll : Bool) (objs ls : List NetObj) (res : Bool) (src : NetObj) : Py Bool :=
  match src.connecting with
  | none => .ok res
  | some s =>
    match closedNetwork objs s with
    | .error e => .error e
    | .ok n => uniqueLoads showAll n.graph s (ls.map (·.name)) false res

/-- `check_unique_path`: ditto/consistency/check_unique_path.py:21-87. `ls` are the loads of the model in the order of the
python set. -/
def checkUniquePath (showAll : Bool) (objs ls : List NetObj) : Py Bool :=
  if sources objs = [] then .ok false
  else (sources objs).foldlM (uniqueSource showAll objs ls) true

end Ditto.Net
