import Verif.Model.CymeTable

/-! The header, the head nodes and the nodes of CYME files: `parse_header`, `parse_head_nodes`, `parse_subnetwork_connections` and
`parse_nodes` in ditto/readers/cyme/read.py. -/
namespace Ditto.Cyme
open Ditto Glm

/-- The variables of `parse_header`. `bound` tells whether `a` and `b` are assigned. -/
structure HeaderVars where
  version : Option Text := none
  bound : Bool := false
  si : Option Bool := none
deriving DecidableEq

/-- the version in a line: ditto/readers/cyme/read.py:940-943 -/
def versionIn (old : Option Text) (line : Text) : Option Text :=
  match Net.splitCh '=' line with
  | _ :: a :: _ => some (Net.pyStrip a)
  | _ => old

/-- `a, b = cyme_version.split(".")` and the use of `a`: ditto/readers/cyme/read.py:946-956. The warning is not represented. -/
def splitVersion (bound : Bool) (version : Text) : Py Bool :=
  if '.' ∈ version then
    if (Net.splitCh '.' version).length = 2 then .ok true
    else if bound then .ok true
    else .error .unboundLocalError
  else .ok bound

/-- the version: ditto/readers/cyme/read.py:939-956 -/
def headerVersion (v : HeaderVars) (line : Text) : Py HeaderVars :=
  if inText "cyme_version".toList (lower line) then
    match versionIn v.version line with
    | none => .ok v
    | some t =>
      match splitVersion v.bound t with
      | .error e => .error e
      | .ok b => .ok { v with version := some t, bound := b }
  else .ok v

/-- the unit system after a line: ditto/readers/cyme/read.py:958-964 -/
def headerUnits (si : Option Bool) (line : Text) : Option Bool :=
  if inText "[imperial]".toList (lower line) then some false
  else if inText "[si]".toList (lower line) then some true
  else si

/-- the lines: ditto/readers/cyme/read.py:938-964 -/
def headerLines : HeaderVars → List Text → Py HeaderVars
  | v, [] => .ok v
  | v, line :: rest =>
    match headerVersion v line with
    | .error e => .error e
    | .ok v' => headerLines { v' with si := headerUnits v'.si line } rest

/-- `parse_header`: ditto/readers/cyme/read.py:925-971. The version, and whether the units are metric. -/
def parseHeader (content : List Text) : Py (Option Text × Bool) :=
  match headerLines {} content with
  | .error e => .error e
  | .ok v =>
    match v.si with
    | none => .error .valueError
    | some b => .ok (v.version, b)

/-- the table of the head nodes: ditto/readers/cyme/read.py:1000-1008 -/
def headQuery : Query where
  headers := ["[HEADNODES]".toList]
  attrs := ["nodeid".toList, "networkid".toList]
  mapping := [("nodeid".toList, 0), ("networkid".toList, 1)]

/-- the description of a feeder: its name and its head node -/
structure FeederRec where
  name : Text
  headnode : Text
deriving DecidableEq

/-- one head node: ditto/readers/cyme/read.py:1010-1013 -/
def headNode (d : Values) : Py FeederRec :=
  match getEntry "networkid".toList d, getEntry "nodeid".toList d with
  | some a, some b => .ok ⟨lower (Net.pyStrip a), lower (Net.pyStrip b)⟩
  | _, _ => .error .keyError

/-- the loop over the head nodes -/
def headNodes : List (Text × Values) → Py (List FeederRec)
  | [] => .ok []
  | p :: d =>
    match headNode p.2 with
    | .error e => .error e
    | .ok f =>
      match headNodes d with
      | .error e => .error e
      | .ok fs => .ok (f :: fs)

/-- `parse_head_nodes`: ditto/readers/cyme/read.py:996-1013 -/
def parseHeadNodes (content : List Text) : Py (List FeederRec) :=
  match readTables headQuery content with
  | .error e => .error e
  | .ok d => headNodes d

/-- the table of the connections of a substation: ditto/readers/cyme/read.py:979-989 -/
def connectionQuery : Query where
  headers := ["[SUBNETWORK CONNECTIONS]".toList]
  attrs := ["nodeid".toList]
  mapping := [("nodeid".toList, 1)]

/-- the loop over the connections: ditto/readers/cyme/read.py:991-994. `names` are the names in the model; the result are the names of the
objects that are marked. -/
def markConnections (names : List Text) : List (Text × Values) → Py (List Text)
  | [] => .ok []
  | p :: d =>
    match getEntry "nodeid".toList p.2 with
    | none => .error .keyError
    | some n =>
      if n ∈ names then
        match markConnections names d with
        | .error e => .error e
        | .ok ns => .ok (n :: ns)
      else .error .keyError

/-- `parse_subnetwork_connections`: ditto/readers/cyme/read.py:973-994 -/
def parseConnections (names : List Text) (content : List Text) : Py (List Text) :=
  match readTables connectionQuery content with
  | .error e => .error e
  | .ok d => markConnections names d

/-- default positions of the columns: ditto/readers/cyme/read.py:1346-1355 -/
def nodeColumns : List (Text × Nat) :=
  [("nodeid".toList, 0), ("ratedvoltage".toList, 48), ("coordx".toList, 2), ("coordy".toList, 3), ("coordx1".toList, 2), ("coordy1".toList, 3),
    ("coordx2".toList, 4), ("coordy2".toList, 5)]

/-- the table of the nodes: ditto/readers/cyme/read.py:1360-1379 -/
def nodeQuery : Query where
  headers := ["[NODE]".toList]
  attrs := ["nodeid".toList, "coordx".toList, "coordy".toList, "ratedvoltage".toList]
  mapping := nodeColumns
  more := ["nodeid".toList, "coordx1".toList, "coordy1".toList, "coordx2".toList, "coordy2".toList, "ratedvoltage".toList]

/-- the table of the connectors of buses: ditto/readers/cyme/read.py:1380-1386 -/
def connectorQuery : Query where
  headers := ["[NODE CONNECTOR]".toList]
  attrs := ["nodeid".toList, "coordx".toList, "coordy".toList]
  mapping := nodeColumns

/-- A node. Positions are longitude and latitude; an elevation of zero is not represented. Only positions that were added to the node are. -/
structure NodeRec (N : Type) where
  name : Text
  points : List (N × N)
  voltage : Option N
deriving DecidableEq

/-- `float(d[k])`, or nothing after an exception -/
def numberOf {N : Type} (num : Text → Option N) (d : Values) (k : Text) : Option N :=
  match getEntry k d with
  | none => none
  | some t => num t

/-- a position, or nothing after an exception: ditto/readers/cyme/read.py:1401-1405, 1408-1412, 1417-1421, 1423-1427 -/
def pointOf {N : Type} (num : Text → Option N) (kx ky : Text) (d : Values) : Option (N × N) :=
  match numberOf num d kx, numberOf num d ky with
  | some x, some y => some (x, y)
  | _, _ => none

/-- The loop over the connectors of a bus: ditto/readers/cyme/read.py:1413-1422. The positions, and whether there was no exception. The
first argument bounds the rounds; the number of keys is enough. -/
def connectorPoints {N : Type} (num : Text → Option N) (conns : List (Text × Values)) : Nat → Text → List (N × N) × Bool
  | 0, _ => ([], true)
  | n + 1, id =>
    match getEntry id conns with
    | none => ([], true)
    | some d =>
      match pointOf num "coordx".toList "coordy".toList d with
      | none => ([], false)
      | some p => (p :: (connectorPoints num conns n (id ++ ['*'])).1, (connectorPoints num conns n (id ++ ['*'])).2)

/-- the last position of a bus: ditto/readers/cyme/read.py:1423-1427 -/
def lastPoint {N : Type} (num : Text → Option N) (d : Values) : List (N × N) :=
  match pointOf num "coordx2".toList "coordy2".toList d with
  | none => []
  | some p => [p]

/-- the positions of a bus: ditto/readers/cyme/read.py:1407-1427 -/
def busPoints {N : Type} (num : Text → Option N) (conns : List (Text × Values)) (id : Text) (d : Values) : List (N × N) :=
  match pointOf num "coordx1".toList "coordy1".toList d with
  | none => []
  | some p => p :: ((connectorPoints num conns conns.length id).1 ++
      if (connectorPoints num conns conns.length id).2 then lastPoint num d else [])

/-- the positions: ditto/readers/cyme/read.py:1399-1429 -/
def nodePoints {N : Type} (num : Text → Option N) (conns : List (Text × Values)) (id : Text) (d : Values) : List (N × N) :=
  match getEntry "coordx".toList d with
  | some _ =>
    match pointOf num "coordx".toList "coordy".toList d with
    | none => []
    | some p => [p]
  | none =>
    match getEntry "coordx1".toList d with
    | some _ => busPoints num conns id d
    | none => []

/-- one node: ditto/readers/cyme/read.py:1390-1438 -/
def nodeOf {N : Type} (num : Text → Option N) (conns : List (Text × Values)) (p : Text × Values) : NodeRec N :=
  ⟨p.1, nodePoints num conns p.1 p.2, numberOf num p.2 "ratedvoltage".toList⟩

/-- `parse_nodes`: ditto/readers/cyme/read.py:1333-1440. `num` is `float`. -/
def parseNodes {N : Type} (num : Text → Option N) (content : List Text) : Py (List (NodeRec N)) :=
  match readTables nodeQuery content with
  | .error e => .error e
  | .ok nodes =>
    match readTables connectorQuery content with
    | .error e => .error e
    | .ok conns => .ok (nodes.map (nodeOf num conns))

end Ditto.Cyme
