import Verif.Model.Feeders

/-! `tag_objects` and `get_feeder` of `ditto/metrics/network_analysis.py`. -/
namespace Ditto.Net
open Ditto

/-- What the methods read and write of an object. `series` are `feeder_name` and `substation_name` of the elements of `timeseries`, each
of which belongs to one object. -/
structure TagDev where
  net : NetObj
  feeder : Option String := none
  substation : Option String := none
  series : List (Option String × Option String) := []
deriving DecidableEq, Repr

/-- the classes with a `connecting_element` and a `feeder_name` -/
def oneTerminalClasses : List String := ["Capacitor", "Generator", "Load", "Photovoltaic", "Storage"]

/-- the classes with a `from_element` and a `feeder_name` -/
def twoTerminalClasses : List String := ["Line", "PowerTransformer", "Reactor", "Regulator"]

/-- `hasattr(obj, "feeder_name") and hasattr(obj, "name")`. `Timeseries` has no name. -/
def TagDev.hasFeeder (d : TagDev) : Bool := d.net.cls = "Node" || d.net.cls ∈ oneTerminalClasses || d.net.cls ∈ twoTerminalClasses

/-- the node that is looked up for the object -/
def TagDev.anchor (d : TagDev) : Option String :=
  if d.net.cls = "Node" then d.net.name else if d.net.cls ∈ oneTerminalClasses then d.net.connecting else d.net.fromEl

/-- ditto/metrics/network_analysis.py:412-415, 418-423 and 439-442. `mp` is `node_feeder_mapping`, `subs` is `substations`. -/
def TagDev.setOwn (mp subs : String → Option String) (d : TagDev) : TagDev :=
  match d.anchor.bind mp with
  | none => d
  | some f => { d with feeder := some f, substation := (subs f).or d.substation }

/-- ditto/metrics/network_analysis.py:425-432 -/
def TagDev.setSeries (d : TagDev) : TagDev := { d with series := d.series.map fun _ => (d.feeder, d.substation) }

/-- body of the first loop: ditto/metrics/network_analysis.py:409-445 -/
def tagFirst (mp subs : String → Option String) (d : TagDev) : TagDev :=
  if d.hasFeeder then
    if d.net.cls ∈ oneTerminalClasses then (d.setOwn mp subs).setSeries else d.setOwn mp subs
  else d

/-- The walk to the predecessors: ditto/metrics/network_analysis.py:451-475, 485-508 and 512-535, with the object found. `None`: the root
was reached (`StopIteration`). `is not ""` compares with the only empty string. `none`: the loop has not ended within the given number
of iterations. -/
def tagUp (n : Network) (mp : String → Option String) (devs : List TagDev) : Nat → String → Option (Py (Option TagDev))
  | 0, _ => none
  | k + 1, x =>
    if n.digraph.any (fun e => e.u = x || e.v = x) then
      match n.digraph.find? (fun e => e.v = x) with
      | none => some (.ok none)
      | some e =>
        match named (·.net.name) devs (some e.u) with
        | .error err => some (.error err)
        | .ok p => if p.hasFeeder && isSet p.feeder && (mp e.u).isSome then some (.ok (some p)) else tagUp n mp devs k e.u
    else some (.error .networkXError)

/-- the second loop: ditto/metrics/network_analysis.py:447-543. `predecessors(None)` raises `NetworkXError`. -/
def tagSecond (n : Network) (mp : String → Option String) : List TagDev → List TagDev → Option (Outcome (List TagDev))
  | done, [] => some ⟨done, none⟩
  | done, d :: rest =>
    if d.hasFeeder && (d.anchor.bind mp).isNone then
      match d.anchor with
      | none => some ⟨done ++ d :: rest, some .networkXError⟩
      | some a =>
        match tagUp n mp (done ++ d :: rest) (n.digraph.length + 1) a with
        | none => none
        | some (.error e) => some ⟨done ++ d :: rest, some e⟩
        | some (.ok none) => tagSecond n mp (done ++ [d]) rest
        | some (.ok (some p)) => tagSecond n mp (done ++ [{ d with feeder := p.feeder, substation := p.substation }]) rest
    else tagSecond n mp (done ++ [d]) rest

/-- `tag_objects`: ditto/metrics/network_analysis.py:405-543 -/
def tagObjects (n : Network) (mp subs : String → Option String) (devs : List TagDev) : Option (Outcome (List TagDev)) :=
  tagSecond n mp [] (devs.map (tagFirst mp subs))

/-- `get_feeder`: ditto/metrics/network_analysis.py:1369-1388 -/
def getFeeder (mp : String → Option String) (o : NetObj) : Option String :=
  (o.name.bind mp).or ((o.connecting.bind mp).or (o.fromEl.bind mp))

end Ditto.Net
