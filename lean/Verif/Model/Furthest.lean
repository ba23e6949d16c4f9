import Verif.Model.Py
import Mathlib.Data.Rat.Defs
import Mathlib.Algebra.Order.Ring.Rat

/-! The node that is furthest from the source: ditto/metrics/network_analysis.py. -/
namespace Ditto.Furthest
open Ditto

/-- an edge of the graph, in any direction, with its `length` -/
structure LenEdge where
  u : String
  v : String
  length : ℚ
deriving DecidableEq

/-- `nx.degree(graph, node)`. Simplification: an edge from a node to itself would count twice. -/
def degree (edges : List LenEdge) (x : String) : Nat := (edges.filter fun e => decide (e.u = x ∨ e.v = x)).length

/-- `dist`: ditto/metrics/network_analysis.py:2295-2296, 2308-2312. `dist` is `nx.shortest_path_length` from the source (networkx), nothing if there is no path. -/
def distances (dist : String → Option ℚ) : List String → Py (List ℚ)
  | [] => .ok []
  | x :: xs =>
    match dist x with
    | none => .error .networkXNoPath
    | some d =>
      match distances dist xs with
      | .error e => .error e
      | .ok ds => .ok (d :: ds)

/-- `np.max(...) * 0.000621371`: ditto/metrics/network_analysis.py:2297, 2313 -/
def maxMiles : List ℚ → Py ℚ
  | [] => .error .valueError
  | d :: ds => .ok (ds.foldl max d * (621371 / 1000000000))

/-- `furtherest_node_miles`: ditto/metrics/network_analysis.py:2274-2297, of the network itself -/
def furthest (nodes : List String) (dist : String → Option ℚ) : Py ℚ :=
  match distances dist nodes with
  | .error e => .error e
  | .ok ds => maxMiles ds

/-- `furtherest_node_miles_clever`: ditto/metrics/network_analysis.py:2299-2313 -/
def furthestClever (nodes : List String) (edges : List LenEdge) (dist : String → Option ℚ) : Py ℚ :=
  match distances dist (nodes.filter fun x => decide (degree edges x = 1)) with
  | .error e => .error e
  | .ok ds => maxMiles ds

end Ditto.Furthest
