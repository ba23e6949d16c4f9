import Verif.Model.CymeSectionWrite
import Verif.Model.CymeLineCodes
import Verif.Model.CymeRegWrite

/-! Nodes in the CYME writer: `[NODE]` and `[NODE CONNECTOR]`, ditto/writers/cyme/write.py. -/
namespace Ditto.Cyme
open Ditto Glm

/-- A `Node` as the writer sees it. Positions are longitude and latitude, which are always numbers: ditto/models/position.py:7-10. A missing list of positions
is an empty one. -/
structure NodeIn (N : Type) where
  dropped : Bool
  name : Option Text
  points : List (N × N)
deriving DecidableEq

/-- the ends of an element: its nodes and the indices of its connections there -/
structure EndsIn where
  source : Option Text
  target : Option Text
  sourceIndex : Option Int
  targetIndex : Option Int
deriving DecidableEq

/-- a name in a format -/
def nameText : Option Text → Text
  | none => "None".toList
  | some n => n

/-- the section of an element: ditto/writers/cyme/write.py:353-372 -/
def endsSection (hash : Text → Text) (e : EndsIn) : Text := shorten hash (nameText e.source ++ '_' :: nameText e.target)

/-- One end of an element: ditto/writers/cyme/write.py:347-372. -/
def putEnd (hash : Text → Text) (e : EndsIn) (n : Option Text) (i : Option Int) (m : List ((Text × Int) × Text)) : List ((Text × Int) × Text) :=
  match n, i with
  | some n, some i => putCode (n, i) (endsSection hash e) m
  | _, _ => m

/-- `self.node_connector_string_mapping`: ditto/writers/cyme/write.py:346-399 -/
def connectorMap (hash : Text → Text) (es : List EndsIn) : List ((Text × Int) × Text) :=
  es.foldl (fun m e => putEnd hash e e.target e.targetIndex (putEnd hash e e.source e.sourceIndex m)) []

/-- the rows of nodes, buses and connectors: `self.node_string_list`, `self.bus_string_list`, `self.node_connector_string_list` -/
structure NodeRows where
  rows : List (List Text) := []
  buses : List (List Text) := []
  connectors : List (List Text) := []
deriving DecidableEq

/-- the section of a connector, or nothing: ditto/writers/cyme/write.py:602-606 -/
def connectorSection (m : List ((Text × Int) × Text)) (name : Text) (j : Nat) : Text :=
  match codeOf (name, (j : Int)) m with
  | none => []
  | some t => t

/-- the connectors of a bus: ditto/writers/cyme/write.py:601-615. `j` is the index of the first one. -/
def connectorRows {N : Type} (pr : N → Text) (m : List ((Text × Int) × Text)) (name : Text) : Nat → List (N × N) → List (List Text)
  | _, [] => []
  | j, p :: ps => [name, pr p.1, pr p.2, connectorSection m name j] :: connectorRows pr m name (j + 1) ps

/-- One node: ditto/writers/cyme/write.py:404-405, 539-626. Rows are lists of cells. -/
def nodeStep {N : Type} (pr : N → Text) (m : List ((Text × Int) × Text)) (s : NodeRows) (n : NodeIn N) : NodeRows :=
  if n.dropped then s
  else
    match n.name with
    | none => s
    | some name =>
      match n.points with
      | [] => { s with rows := s.rows ++ [[name, "0".toList, "0".toList]] }
      | [p] => { s with rows := s.rows ++ [[name, pr p.1, pr p.2]] }
      | p :: q :: ps =>
        { s with
          buses := s.buses ++ [[name, pr p.1, pr p.2, pr ((q :: ps).getLast (List.cons_ne_nil _ _)).1, pr ((q :: ps).getLast (List.cons_ne_nil _ _)).2,
            "2".toList]]
          connectors := s.connectors ++ connectorRows pr m name 0 (q :: ps).dropLast }

/-- the nodes of a model -/
def nodeRows {N : Type} (pr : N → Text) (m : List ((Text × Int) × Text)) (ns : List (NodeIn N)) : NodeRows := ns.foldl (nodeStep pr m) {}

/-- a row as a line -/
def cellsLine : List Text → Text
  | [] => []
  | c :: cs => c ++ withCommas cs

/-- ditto/writers/cyme/write.py:4039 -/
def nodeFormat : Text := "FORMAT_NODE=NodeID,CoordX,CoordY".toList

/-- ditto/writers/cyme/write.py:4045 -/
def busFormat : Text := "FORMAT_NODE=NodeID,CoordX1,CoordY1,CoordX2,CoordY2,Width".toList

/-- ditto/writers/cyme/write.py:4530 -/
def connectorFormat : Text := "FORMAT_NODECONNECTOR=NodeID,CoordX,CoordY,SectionID".toList

/-- the lines after the header `[NODE]`: ditto/writers/cyme/write.py:4039-4047 -/
def nodeTableLines (s : NodeRows) : List Text :=
  (nodeFormat ++ ['\n']) :: (s.rows.map (fun r => cellsLine r ++ ['\n']) ++
    if s.buses = [] then [] else (busFormat ++ ['\n']) :: s.buses.map fun r => cellsLine r ++ ['\n'])

end Ditto.Cyme
