import Verif.Model.GlmParse

/-! Nodes in GridLAB-D files: `write_nodes` in ditto/writers/gridlabd/write.py and the part for nodes of `parse` in
ditto/readers/gridlabd/read.py. Files are lists of rows: a text of a file is its rows, each followed by the end of the row. -/
namespace Ditto.Glm
open Ditto

/-- the attributes of a `Node` that are written. Phases are the texts in the list `phases`. -/
structure GNode (K : Type) where
  name : Option Text := none
  phases : List Text := []
  voltage : Option K := none
deriving DecidableEq

/-- a row with a keyword and a value, after blanks -/
def entryRow (blanks : Text) (k v : Text) : Text := blanks ++ k ++ ' ' :: (v ++ [';'])

/-- four blanks -/
def four : Text := [' ', ' ', ' ', ' ']

/-- the rows before the nodes: ditto/writers/gridlabd/write.py:71-73 -/
def moduleRows : List Text :=
  ["module powerflow{".toList, "    solver_method NR;".toList, "    NR_iteration_limit 50;".toList, "};".toList, []]

/-- name and kind of node: ditto/writers/gridlabd/write.py:163-167 -/
def nodeNameRows (source : Text) : Option Text → List Text
  | none => []
  | some n => entryRow four "name".toList ('n' :: n) :: (if n = source then [entryRow four "bustype".toList "SWING".toList] else [])

/-- phases: ditto/writers/gridlabd/write.py:169-174 -/
def nodePhaseRows (phases : List Text) : List Text :=
  if phases = [] then [] else [entryRow four "phases".toList (phases.flatten ++ ['N'])]

/-- nominal voltage: ditto/writers/gridlabd/write.py:176-184 -/
def nodeVoltageRow {K : Type} (shown : K → Text) : Option K → Text
  | some v => entryRow (' ' :: four) "nominal_voltage".toList (shown v)
  | none => entryRow four "nominal_voltage".toList "12470".toList

/-- one node: ditto/writers/gridlabd/write.py:160-186 -/
def nodeRows {K : Type} (shown : K → Text) (source : Text) (n : GNode K) : List Text :=
  "object node {".toList :: (nodeNameRows source n.name ++ nodePhaseRows n.phases ++ [nodeVoltageRow shown n.voltage]) ++ ["};".toList, []]

/-- `write_nodes`: ditto/writers/gridlabd/write.py:149-188 -/
def writeNodeRows {K : Type} (shown : K → Text) (source : Text) (ns : List (GNode K)) : List Text := ns.flatMap (nodeRows shown source)

/-- the file with the nodes only: ditto/writers/gridlabd/write.py:65-81 -/
def writeNodeFile {K : Type} (shown : K → Text) (ns : List (GNode K)) : List Text :=
  moduleRows ++ writeNodeRows shown "sourcebus".toList ns

/-- a node or power source that is read -/
structure GReadNode (K : Type) where
  source : Bool
  name : Text
  phases : List Text
  voltage : Option K
deriving DecidableEq

/-- `float(obj["nominal_voltage"])`, if there is one: ditto/readers/gridlabd/read.py:640-643, 663-666 -/
def readVoltage {K : Type} (flt : Text → Option K) (o : GldObj) : Py (Option K) :=
  match getEntry "nominal_voltage".toList o.attrs with
  | none => .ok none
  | some t =>
    match flt t with
    | some v => .ok (some v)
    | none => .error .valueError

/-- phases of a node without the last letter: ditto/readers/gridlabd/read.py:645-654 -/
def readNodePhases (o : GldObj) : List Text :=
  match getEntry "phases".toList o.attrs with
  | none => []
  | some t => t.dropLast.map fun c => [c]

/-- phases of a triplex node: numbers instead of the letters without the first and the last one:
ditto/readers/gridlabd/read.py:668-679 -/
def readTriplexPhases (o : GldObj) : List Text :=
  match getEntry "phases".toList o.attrs with
  | none => []
  | some t => (List.range (t.drop 1).dropLast.length).map fun i : Nat => (toString (i + 1)).toList

/-- whether a node is the source: ditto/readers/gridlabd/read.py:627-634 -/
def isSwing (o : GldObj) : Bool := getEntry "bustype".toList o.attrs == some "SWING".toList

/-- the name under which an object is stored: ditto/readers/gridlabd/read.py:635-638 -/
def readName (o : GldObj) : Text :=
  match getEntry "name".toList o.attrs with
  | some n => n
  | none => []

/-- one object: ditto/readers/gridlabd/read.py:621-679. Objects of other classes give no nodes here. -/
def readNode {K : Type} (flt : Text → Option K) (o : GldObj) : Py (List (GReadNode K)) :=
  if o.cls = "node".toList ∨ o.cls = "meter".toList then
    match readVoltage flt o with
    | .error e => .error e
    | .ok v => .ok [⟨isSwing o, readName o, readNodePhases o, v⟩]
  else if o.cls = "triplex_node".toList ∨ o.cls = "triplex_meter".toList then
    match readVoltage flt o with
    | .error e => .error e
    | .ok v => .ok [⟨false, readName o, readTriplexPhases o, v⟩]
  else .ok []

/-- all nodes and power sources, in the order of the dictionary: ditto/readers/gridlabd/read.py:620-679 -/
def readGldNodes {K : Type} (flt : Text → Option K) : List (Text × GldObj) → Py (List (GReadNode K))
  | [] => .ok []
  | (_, o) :: l =>
    match readNode flt o with
    | .error e => .error e
    | .ok a =>
      match readGldNodes flt l with
      | .error e => .error e
      | .ok b => .ok (a ++ b)

/-- the nodes of a file -/
def readNodeFile {K : Type} (schema : Schema) (due : List Text → Py Bool) (files : Text → Option (List Text)) (flt : Text → Option K)
    (before : List (Text × GldObj)) (rows : List Text) : Py (List (GReadNode K)) :=
  match readGlm schema due files before rows with
  | .error e => .error e
  | .ok s => readGldNodes flt s.objects

end Ditto.Glm
