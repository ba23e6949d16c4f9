import Verif.Model.Heap
import Verif.Model.Network
import Mathlib.Data.List.Permutation
import Mathlib.Data.List.Sublists

/-! `Store.delete_disconnected_nodes`, `Store.delete_cycles`, over the heap. -/
namespace Ditto.Net
open Ditto Ditto.Heap

/-- a string trait, `None` or missing: `none` -/
def strOf : Option AttrVal → Option String
  | some (.plain (some (.str s))) => some s
  | _ => none

/-- a number -/
def numOf : Option AttrVal → Option ℚ
  | some (.plain (some (.num q))) => some q
  | _ => none

/-- a boolean -/
def boolOf : Option AttrVal → Option Bool
  | some (.plain (some (.bool b))) => some b
  | _ => none

/-- `w.is_open` of an element of `wires` -/
def openOf (h : Heap) : Elem → Option Bool
  | .raw _ _ => none
  | .ref r => boolOf ((h[r]?).bind (·.get "is_open"))

/-- what `Network` reads of an object -/
def netOf (h : Heap) (o : Obj) : NetObj where
  cls := o.cls
  name := strOf (o.get "name")
  fromEl := strOf (o.get "from_element")
  toEl := strOf (o.get "to_element")
  connecting := strOf (o.get "connecting_element")
  length := numOf (o.get "length")
  isSwitch := boolOf (o.get "is_switch")
  isBreaker := boolOf (o.get "is_breaker")
  isLine := (o.get "is_switch").isSome
  wires := match o.get "wires" with
    | some (.list (some es)) => es.map (openOf h)
    | _ => []

/-- the objects of a store as the `Network` sees them -/
def netObjs (h : Heap) (ms : List Ref) : List NetObj := ms.filterMap fun r => (h[r]?).map (netOf h)

/-- one iteration of `delete_disconnected_nodes`: ditto/store.py:174-183 -/
def disconnectStep (h : Heap) (limit : Nat) (g : Graph) (ms : List Ref) (r : Ref) : Py (List Ref) :=
  if clsOf h r = some "Node" then
    match nameOf h r with
    | some (some a) => if ∃ n ∈ g.nodes, a = .str n then .ok ms else deleteElement h limit ms r
    | some none => removeElement ms r
    | none => .ok ms
  else .ok ms

/-- the loop of `delete_disconnected_nodes`: ditto/store.py:174-183. `self.models` is a copy of the list of models, made
before the loop; `g` is the graph of the last `build`. -/
def disconnectLoop (h : Heap) (limit : Nat) (g : Graph) (ms : List Ref) : Py (List Ref) :=
  ms.foldlM (disconnectStep h limit g) ms

/-- `Store.delete_disconnected_nodes`: ditto/store.py:173-184. The models afterwards, and the result of the
`build_networkx()` with the default source in the end (without `set_attributes`). -/
def deleteDisconnectedNodes (h : Heap) (limit : Nat) (g : Graph) (ms : List Ref) : Py (List Ref × Py Network) :=
  match disconnectLoop h limit g ms with
  | .error e => .error e
  | .ok ms' => .ok (ms', build (netObjs h ms') "sourcebus")

/-! ### Cycles -/

/-- directed edge -/
def hasEdge (d : List Edge) (u v : String) : Bool := d.any fun e => e.u = u && e.v = v

/-- the list goes on along directed edges from `cur`, and back to `x` in the end -/
def closes (d : List Edge) (x : String) : String → List String → Bool
  | cur, [] => hasEdge d cur x
  | cur, y :: ys => hasEdge d cur y && closes d x y ys

/-- the nodes of a directed cycle, in order -/
def isCycle (d : List Edge) : List String → Bool
  | [] => false
  | x :: xs => closes d x x xs

/-- `nx.simple_cycles(digraph)`, by its documented result: the elementary cycles. (One for each cycle in networkx; here one
for each starting point. `find_cycles` keeps one for each set of nodes in any case.) -/
def simpleCycles (d : List Edge) : List (List String) :=
  ((diNodes d).dedup.sublists'.flatMap List.permutations').filter (isCycle d)

/-- `if not (sorted in all_cycles): ...`: ditto/network/network.py:470-477 -/
def addCycle (acc : List (List String)) (c : List String) : List (List String) :=
  if acc.any (fun c' => c'.isPerm c) then acc else acc ++ [c]

/-- `Network.find_cycles`: ditto/network/network.py:465-478 -/
def findCycles (d : List Edge) : List (List String) := (simpleCycles d).foldl addCycle []

/-- `Network.middle_single_phase`: ditto/network/network.py:487-540. It always raises: `rand` is undefined if one of the
nodes has no `phases`, and otherwise the list is indexed by a float (true division). -/
def middleSinglePhase (phases : String → Option Nat) (c : List String) : PyErr :=
  if c.any (fun x => (phases x).isNone) then .nameError else .typeError

/-- one round of the loop of `delete_cycles`: ditto/store.py:143-151; the deletion is never reached -/
def cycleStep (phases : String → Option Nat) (_ : Unit) (c : List String) : Py Unit :=
  if c.length > 2 then .error (middleSinglePhase phases c) else .ok ()

/-- `Store.delete_cycles`: ditto/store.py:137-152, with the objects `objs` of the store. The objects are never changed; the
result is the network built in the end. -/
def deleteCycles (phases : String → Option Nat) (n : Network) (objs : List NetObj) : Py Network :=
  match (findCycles n.digraph).foldlM (cycleStep phases) () with
  | .error e => .error e
  | .ok _ => build objs "sourcebus"

end Ditto.Net
