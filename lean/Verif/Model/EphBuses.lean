import Verif.Model.GlmParse
import Verif.Model.Py
import Mathlib.Algebra.Field.Defs

/-! The sheets Switch, Bus and Vsource of the ePHASOR writer: ditto/writers/ephasor/write.py. Columns that grow together are modelled as rows. Numbers are
exact. The checks with `hasattr` always succeed, as the traits are declared; the list of wires or phases is never `None`. -/
namespace Ditto.Eph
open Ditto
open Ditto.Glm (Text)

/-- `str.lower()`, of ASCII texts: ditto/writers/ephasor/write.py:165, 168, 171, 1003 -/
def lowered (t : Text) : Text := t.map Char.toLower

/-- the name of a bus, a node or device with a phase: ditto/writers/ephasor/write.py:165, 168, 171, 332, 351, 946, 1006, 1174 -/
def busName (element phase : Text) : Text := element ++ '_' :: lowered phase

/-- the attributes of a `Wire` that are used: ditto/models/wire.py:21-23, 69-72 -/
structure EphWire where
  phase : Option Text
  isOpen : Option Bool
deriving DecidableEq

/-- the attributes of a `Line` that are used here: ditto/models/line.py:36-71 -/
structure EphSwitch where
  isSwitch : Option Bool
  name : Option Text
  source : Option Text
  sink : Option Text
  wires : List EphWire
deriving DecidableEq

/-- a row of the sheet Switch: ditto/writers/ephasor/write.py:139-144 -/
structure SwitchRow where
  source : Text
  sink : Text
  name : Text
  status : Text
deriving DecidableEq

/-- a wire of a switch: ditto/writers/ephasor/write.py:157-176. A switch without a name raises TypeError. -/
def switchWire (source sink : Text) (name : Option Text) (w : EphWire) : Except PyErr (Option SwitchRow) :=
  match w.phase with
  | none => .ok none
  | some p =>
    if p = ['N'] then .ok none
    else match name with
      | none => .error .typeError
      | some n => .ok (some ⟨busName source p, busName sink p, busName n p, if w.isOpen = some true then ['0'] else ['1']⟩)

/-- the rows of a line: ditto/writers/ephasor/write.py:147-176 -/
def switchRows (l : EphSwitch) : Except PyErr (List SwitchRow) :=
  if l.isSwitch = some true then
    match l.source, l.sink with
    | some s, some t => (l.wires.mapM (switchWire s t l.name)).map (·.filterMap id)
    | _, _ => .ok []
  else .ok []

/-- `switch`: ditto/writers/ephasor/write.py:138-181 -/
def switchSheet (lines : List EphSwitch) : Except PyErr (List SwitchRow) := (lines.mapM switchRows).map List.flatten

section numbers
variable {K : Type}

/-- the attributes of a `Node` that are used: ditto/models/node.py:28-36. A phase is the default value of its `Unicode` trait. -/
structure EphNode (K : Type) where
  name : Option Text
  voltage : Option K
  phases : List (Option Text)
deriving DecidableEq

/-- the columns of the sheet Bus that grow in each phase: ditto/writers/ephasor/write.py:980-986. Both columns of voltages have the same values. -/
structure BusCells (K : Type) where
  bus : Text
  voltage : Option K
  type : Text
deriving DecidableEq

/-- a row of the sheet Bus: ditto/writers/ephasor/write.py:980-986, 1077 -/
structure BusRow (K : Type) where
  cells : BusCells K
  angle : Int
deriving DecidableEq

/-- the letters that get rows: ditto/writers/ephasor/write.py:999-1005 -/
def letterPhases (phases : List (Option Text)) : List Text :=
  (phases.filterMap (·.map lowered)).filter fun p => p = ['a'] ∨ p = ['b'] ∨ p = ['c']

/-- the cells of a phase of a node: ditto/writers/ephasor/write.py:1006-1029. `root` is the square root of 3. A node without a name raises TypeError. -/
def busCells [Field K] (root : K) (n : EphNode K) (p : Text) : Except PyErr (BusCells K) :=
  match n.name with
  | none => .error .typeError
  | some m => .ok ⟨busName m p, n.voltage.map (· / root), if lowered m = "sourcebus".toList then "SLACK".toList else "PQ".toList⟩

/-- the angles of a node, in a fixed order and of each letter once: ditto/writers/ephasor/write.py:1031-1036 -/
def busAngles (letters : List Text) : List Int :=
  (if ['a'] ∈ letters then [0] else []) ++ (if ['b'] ∈ letters then [120] else []) ++ (if ['c'] ∈ letters then [-120] else [])

/-- the cells of a node: ditto/writers/ephasor/write.py:998-1029 -/
def nodeCells [Field K] (root : K) (n : EphNode K) : Except PyErr (List (BusCells K)) := (letterPhases n.phases).mapM (busCells root n)

/-- `bus`: ditto/writers/ephasor/write.py:969-1079. Columns of different lengths raise ValueError in the constructor of the frame. -/
def busSheet [Field K] (root : K) (nodes : List (EphNode K)) : Except PyErr (List (BusRow K)) :=
  match nodes.mapM (nodeCells root) with
  | .error e => .error e
  | .ok cells =>
    let angles := nodes.flatMap fun n => busAngles (letterPhases n.phases)
    if cells.flatten.length = angles.length then .ok (List.zipWith BusRow.mk cells.flatten angles) else .error .valueError

/-- the attributes of a `PowerSource` that are used: ditto/models/power_source.py:23-98 -/
structure EphSource (K : Type) where
  name : Option Text
  element : Option Text
  voltage : Option K
  angle : Option K
  emergency : Option K
  phases : List (Option Text)
  z1 : Option (K × K)
  z0 : Option (K × K)
deriving DecidableEq

/-- a row of the sheet Vsource: ditto/writers/ephasor/write.py:895-908 -/
structure SourceRow (K : Type) where
  busA : Option Text := none
  busB : Option Text := none
  busC : Option Text := none
  name : Option Text
  voltage : K
  angle : Option K
  short1 : Option K
  short3 : Option K
  rPos : Option K := none
  xPos : Option K := none
  rZero : Option K := none
  xZero : Option K := none
deriving DecidableEq

/-- a phase of a source: ditto/writers/ephasor/write.py:942-947. A phase without a value raises AttributeError, a source without a node TypeError. -/
def sourcePhase (element : Option Text) (r : SourceRow K) (phase : Option Text) : Except PyErr (SourceRow K) :=
  match phase with
  | none => .error .attributeError
  | some p =>
    if lowered p = ['a'] ∨ lowered p = ['b'] ∨ lowered p = ['c'] then
      match element with
      | none => .error .typeError
      | some e =>
        .ok (if lowered p = ['a'] then { r with busA := some (busName e p) }
          else if lowered p = ['b'] then { r with busB := some (busName e p) } else { r with busC := some (busName e p) })
    else .ok r

/-- a source: ditto/writers/ephasor/write.py:911-947. A source without a voltage raises TypeError. -/
def sourceRow [Field K] (s : EphSource K) : Except PyErr (SourceRow K) :=
  match s.voltage with
  | none => .error .typeError
  | some v =>
    s.phases.foldlM (sourcePhase s.element)
      { name := s.name, voltage := v / 1000, angle := s.angle, short1 := s.emergency.map (· / 1000000), short3 := s.emergency.map (· / 1000000) }

/-- `source`: ditto/writers/ephasor/write.py:883-967 -/
def sourceSheet [Field K] (sources : List (EphSource K)) : Except PyErr (List (SourceRow K)) := sources.mapM sourceRow

end numbers
end Ditto.Eph
