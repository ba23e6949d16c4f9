import Verif.Model.CymeNodeWrite
import Mathlib.Algebra.Order.Ring.Rat
import Mathlib.Algebra.Field.Rat

/-! Substations in the CYME writer: the tables `[SUBNETWORKS]` and `[SUBNETWORK CONNECTIONS]` of the network file, ditto/writers/cyme/write.py. Numbers are
exact. -/
namespace Ditto.Cyme
open Ditto Glm

/-- A `Node` as these tables see it: ditto/models/node.py:28-58. Positions are longitude and latitude. -/
structure SubNode where
  dropped : Bool
  name : Option Text
  substation : Option Text
  connection : Bool
  voltage : Option ℚ
  points : List (ℚ × ℚ)
deriving DecidableEq

/-- the test for connections of a substation: ditto/writers/cyme/write.py:4257-4261, 4354-4358 -/
def ofSubnet (s : Text) (n : SubNode) : Bool := n.substation = some s && n.connection

/-- `by_nominal_voltage_X` and `by_nominal_voltage_Y` together, `defaultX` and `defaultY`, `all_coordsX` and `all_coordsY` -/
structure SubnetPoints where
  groups : List (ℚ × List (ℚ × ℚ)) := []
  defaults : List (ℚ × ℚ) := []
  all : List (ℚ × ℚ) := []
deriving DecidableEq

/-- a position of a voltage: ditto/writers/cyme/write.py:4271-4289 -/
def addPoint (v : ℚ) (p : ℚ × ℚ) : List (ℚ × List (ℚ × ℚ)) → List (ℚ × List (ℚ × ℚ))
  | [] => [(v, [p])]
  | g :: gs => if g.1 = v then (g.1, g.2 ++ [p]) :: gs else g :: addPoint v p gs

/-- One node: ditto/writers/cyme/write.py:4244-4301. -/
def pointStep (s : Text) (st : SubnetPoints) (n : SubNode) : SubnetPoints :=
  match n.points with
  | [] => st
  | p :: _ =>
    if ofSubnet s n then
      match n.voltage with
      | some v => { st with groups := addPoint v p st.groups, all := st.all ++ [p] }
      | none => { st with defaults := st.defaults ++ [p], all := st.all ++ [p] }
    else { st with all := st.all ++ [p] }

/-- the positions of all nodes: ditto/writers/cyme/write.py:4235-4301 -/
def gatherPoints (s : Text) (ns : List SubNode) : SubnetPoints := ns.foldl (pointStep s) {}

/-- the positions of the lowest voltage, or those without voltage: ditto/writers/cyme/write.py:4302-4310 -/
def chosenPoints (st : SubnetPoints) : List (ℚ × ℚ) :=
  match (st.groups.map (·.1)).min? with
  | none => st.defaults
  | some v =>
    match st.groups.find? fun g => g.1 = v with
    | none => []
    | some g => g.2

/-- `np.mean` -/
def meanOf (xs : List ℚ) : ℚ := xs.sum / xs.length

/-- `X` and `Y`, nothing if they are zero for want of positions: ditto/writers/cyme/write.py:4302-4327 -/
def subnetPoint (s : Text) (ns : List SubNode) : Option (ℚ × ℚ) :=
  if chosenPoints (gatherPoints s ns) ≠ [] then
    some (meanOf ((chosenPoints (gatherPoints s ns)).map (·.1)), meanOf ((chosenPoints (gatherPoints s ns)).map (·.2)) + 50 / 2)
  else if (gatherPoints s ns).all ≠ [] then
    some (meanOf ((gatherPoints s ns).all.map (·.1)), meanOf ((gatherPoints s ns).all.map (·.2)))
  else none

/-- two coordinates -/
def pointCells (pr : ℚ → Text) : Option (ℚ × ℚ) → List Text
  | none => ["0".toList, "0".toList]
  | some p => [pr p.1, pr p.2]

/-- the row of a substation: ditto/writers/cyme/write.py:4328-4336 -/
def subnetRow (pr : ℚ → Text) (ns : List SubNode) (s : Text) : List Text :=
  [s, "0".toList] ++ pointCells pr (subnetPoint s ns) ++
    ["50.0".toList, "50.0".toList, "-1".toList, "Geographically Referenced".toList, "-1".toList, "5".toList, "0.251957".toList, "1".toList]

/-- the row of a connection: ditto/writers/cyme/write.py:4359-4375 -/
def connectionRow (pr : ℚ → Text) (s : Text) (n : SubNode) : List Text := [s, nameText n.name] ++ pointCells pr n.points.head?

/-- the connections of a substation: ditto/writers/cyme/write.py:4353-4375 -/
def connectionRows (pr : ℚ → Text) (ns : List SubNode) (s : Text) : List (List Text) := (ns.filter (ofSubnet s)).map (connectionRow pr s)

/-- the names of the substations among the networks: ditto/writers/cyme/write.py:4227-4228, 4259, 4330, 4347-4348, 4357, 4370 -/
def subnetNames : List Text → Py (List Text)
  | [] => .ok []
  | net :: nets =>
    if inText "substation".toList net then
      match subnetName net with
      | .error e => .error e
      | .ok s =>
        match subnetNames nets with
        | .error e => .error e
        | .ok r => .ok (s :: r)
    else subnetNames nets

/-- The rows of both tables: ditto/writers/cyme/write.py:4222-4375. `have_` is `self.network_have_substations`, `nets` are the keys of
`self.section_line_feeder_mapping`. Rows written before an exception are not represented. -/
def subnetTables (pr : ℚ → Text) (have_ : Bool) (nets : List Text) (ns : List SubNode) : Py (List (List Text) × List (List Text)) :=
  if have_ then
    match subnetNames nets with
    | .error e => .error e
    | .ok ss => .ok (ss.map (subnetRow pr ns), ss.flatMap (connectionRows pr ns))
  else .ok ([], [])

/-- ditto/writers/cyme/write.py:4345 -/
def connectionFormat : Text := "FORMAT_SUBNETWORKCONNECTIONS=SubNetID,NodeID,ConnectorCoordX,ConnectorCoordY".toList

end Ditto.Cyme
