import Verif.Model.Network
import Verif.Spec.Connect

/-! `get_transformer_load_mapping` of `ditto/metrics/network_analysis.py`. -/
namespace Ditto.Net
open Ditto

/-- The walk upstream: ditto/metrics/network_analysis.py:2054-2105, with the name of the transformer found, `some none` if the source is
reached before. The attributes of an edge are looked up in both directions. An edge has both an equipment type and a name or neither, so
that the `ValueError` is not reachable. `none`: the loop has not ended within the given number of iterations. -/
def mapWalk (n : Network) : Nat → String → Option (Option (Option String))
  | 0, _ => none
  | k + 1, x =>
    match n.digraph.find? (fun e => e.v = x) with
    | none => some none
    | some e =>
      match n.graph.equipOf e.u e.v with
      | none => mapWalk n k e.u
      | some (ty, nm) => if ty = "PowerTransformer" then some (some nm) else mapWalk n k e.u

/-- the transformer above the load: ditto/metrics/network_analysis.py:2049-2055 -/
def mapUp (n : Network) (o : NetObj) : Option (Option (Option String)) :=
  match o.connecting with
  | none => some none
  | some x => if n.digraph.any (fun e => e.u = x || e.v = x) then mapWalk n (n.digraph.length + 1) x else some none

/-- a python dictionary, in the order of its keys -/
abbrev TrafoDict := List (Option String × List (Option String))

/-- ditto/metrics/network_analysis.py:2095-2102 -/
def addMapped (m : TrafoDict) (t nm : Option String) : TrafoDict :=
  if t ∈ m.map (·.1) then m.map fun p => if p.1 = t then (p.1, p.2 ++ [nm]) else p else m ++ [(t, [nm])]

/-- the loop over the loads: ditto/metrics/network_analysis.py:2046-2105; `none` if a walk does not end -/
def mapLoads (n : Network) : List NetObj → TrafoDict → Option TrafoDict
  | [], m => some m
  | o :: os, m =>
    match mapUp n o with
    | none => none
    | some none => mapLoads n os m
    | some (some t) => mapLoads n os (addMapped m t o.name)

/-- `get_transformer_load_mapping`: ditto/metrics/network_analysis.py:2030-2107. Only loads have the class `Load`. -/
def trafoLoads (n : Network) (objs : List NetObj) : Option TrafoDict :=
  mapLoads n (objs.filter fun o => o.cls = "Load") []

end Ditto.Net
