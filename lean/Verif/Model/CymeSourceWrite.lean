import Verif.Model.CymeNodes
import Mathlib.Algebra.Field.Defs

/-! Power sources in the CYME writer: the tables `[SOURCE]`, `[HEADNODES]` and `[SOURCE EQUIVALENT]` of the network file and `[SUBSTATION]` of the equipment
file, ditto/writers/cyme/write.py. Numbers are of any field; their texts are not represented. -/
namespace Ditto.Cyme
open Ditto Glm

/-- A `PowerSource` as the writer sees it: ditto/models/power_source.py:21-98. Impedances are pairs of resistance and reactance. No negative sequence
impedance is a trait of the class. -/
structure PowerRec (N : Type) where
  dropped : Bool
  sourcebus : Bool
  element : Option Text
  voltage : Option N
  angle : Option N
  positive : Option (N × N)
  zero : Option (N × N)
  power : Option N
deriving DecidableEq

/-- a cell of a row: nothing, the text None, the text DEFAULT or a number -/
inductive SourceCell (N : Type)
  | blank
  | noneText
  | default
  | num (v : N)
deriving DecidableEq

/-- A row of `[SOURCE EQUIVALENT]`: the node, or the text None, and the cells up to the last one, which is always 0:
ditto/writers/cyme/write.py:4112 -/
structure EquivRow (N : Type) where
  node : Option Text
  cells : List (SourceCell N)
deriving DecidableEq

/-- An element of `self.substations`: ditto/writers/cyme/write.py:414-424, 436-438, 449, 457, 471-476, 490-495, 532, 4082. -/
structure SubRec (N : Type) where
  element : Option Text := none
  kvll : Option N := none
  angle : Option N := none
  positive : Option (N × N) := none
  zero : Option (N × N) := none
  mva : Option N := none
  id : Option Nat := none
deriving DecidableEq

/-- `self.sources`, of which only the keys are used, `self.substations` and `source_string_list` -/
structure SourceState (N : Type) where
  keys : List Text := []
  subs : List (SubRec N) := []
  rows : List (EquivRow N) := []
deriving DecidableEq

/-- a value or an empty cell -/
def numberCell {N : Type} : Option N → SourceCell N
  | none => .blank
  | some v => .num v

/-- the two cells of an impedance: ditto/writers/cyme/write.py:461-478 -/
def impedanceCells {N : Type} : Option (N × N) → List (SourceCell N)
  | none => [.blank, .blank]
  | some z => [.num z.1, .num z.2]

/-- the three angles: ditto/writers/cyme/write.py:453-459 -/
def angleCells {N : Type} [Field N] : Option N → List (SourceCell N)
  | none => [.blank, .blank, .blank]
  | some a => [.num a, .num (a - 120), .num (a + 120)]

/-- the voltage of a source: ditto/writers/cyme/write.py:428-451. `voltageOf` is the nominal voltage of an object by its name, if there is any. -/
def writtenVoltage {N : Type} (voltageOf : Text → Option N) (s : PowerRec N) (e : Text) : Option N :=
  match s.voltage with
  | some v => some v
  | none => voltageOf e

/-- the row of a source: ditto/writers/cyme/write.py:421-535 -/
def equivRow {N : Type} [Field N] (voltageOf : Text → Option N) (s : PowerRec N) (e : Text) : EquivRow N where
  node := some e
  cells := [numberCell ((writtenVoltage voltageOf s e).map (· / 1000))] ++ angleCells s.angle ++ impedanceCells s.positive ++ impedanceCells s.zero ++
    impedanceCells s.zero ++ [numberCell (s.voltage.map (· / 1000)), numberCell (s.voltage.map (· / 1000)), numberCell (s.voltage.map (· / 1000))]

/-- One power source: ditto/writers/cyme/write.py:404-535. -/
def sourceStep {N : Type} [Field N] (voltageOf : Text → Option N) (st : SourceState N) (s : PowerRec N) : SourceState N :=
  if s.dropped then st
  else if s.sourcebus then
    match s.element with
    | none => { st with subs := st.subs ++ [{}] }
    | some e =>
      { keys := if e ∈ st.keys then st.keys else st.keys ++ [e]
        subs := st.subs ++ [{ element := some e, kvll := (writtenVoltage voltageOf s e).map (· / 1000), angle := s.angle, positive := s.positive
                              zero := s.zero, mva := s.power.map (· / 1000000) }]
        rows := st.rows ++ [equivRow voltageOf s e] }
  else st

/-- all of them: ditto/writers/cyme/write.py:329-331, 402-535 -/
def sourceRun {N : Type} [Field N] (voltageOf : Text → Option N) (ss : List (PowerRec N)) : SourceState N := ss.foldl (sourceStep voltageOf) {}

/-- The node and the network of a source: ditto/writers/cyme/write.py:4074-4078. `feeders` has names and head nodes; without a feeder the variables keep their
values. -/
def feederOf (feeders : List (Text × Option Text)) (last : Option (Text × Text)) (e : Text) : Option (Text × Text) :=
  feeders.foldl (fun acc f => if f.2 = some e then some (e, f.1) else acc) last

/-- the number of a source in the substations: ditto/writers/cyme/write.py:4080-4082 -/
def numberSubs {N : Type} (e : Text) (k : Nat) : List (SubRec N) → Py (List (SubRec N))
  | [] => .ok []
  | s :: ss =>
    match s.element with
    | none => .error .keyError
    | some x =>
      match numberSubs e k ss with
      | .error err => .error err
      | .ok r => .ok ((if x = e then { s with id := some k } else s) :: r)

/-- The rows of `[SOURCE]`, a number, a node and a network, and the substations after it: ditto/writers/cyme/write.py:4068-4088. -/
def sourceLoop {N : Type} (feeders : List (Text × Option Text)) :
    Nat → Option (Text × Text) → List (SubRec N) → List Text → Py (List (Nat × Text × Text) × List (SubRec N))
  | _, _, subs, [] => .ok ([], subs)
  | k, last, subs, e :: es =>
    match numberSubs e (k + 1) subs with
    | .error err => .error err
    | .ok subs =>
      match feederOf feeders last e with
      | none => .error .unboundLocalError
      | some p =>
        match sourceLoop feeders (k + 1) (some p) subs es with
        | .error err => .error err
        | .ok r => .ok ((k + 1, p) :: r.1, r.2)

/-- `[SOURCE]` of a model: ditto/writers/cyme/write.py:4066-4088 -/
def sourceTable {N : Type} (feeders : List (Text × Option Text)) (st : SourceState N) : Py (List (Nat × Text × Text) × List (SubRec N)) :=
  sourceLoop feeders 0 none st.subs st.keys

/-- a number or the text DEFAULT: ditto/writers/cyme/write.py:4588-4615 -/
def defaultCells {N : Type} : Option (N × N) → List (SourceCell N)
  | none => [.default, .default]
  | some z => [.num z.1, .num z.2]

/-- The rows of `[SUBSTATION]` of the equipment file, a number and the cells up to the angle: ditto/writers/cyme/write.py:4568-4619. The second voltage is the
first one, converted to a number and back. -/
def substationRows {N : Type} (subs : List (SubRec N)) : List (Nat × List (SourceCell N)) :=
  subs.filterMap fun s => s.id.map fun k =>
    (k, [numberCell s.mva, numberCell s.kvll, numberCell s.kvll] ++ defaultCells s.positive ++ defaultCells s.zero ++ defaultCells s.zero ++ [numberCell s.angle])

/-- A `Feeder_metadata`: ditto/models/feeder_metadata.py:17-63. `data` has the three angles and the resistances and reactances of the positive, zero and negative
sequence. -/
structure FeederData (N : Type) where
  headnode : Option Text
  voltage : Option N
  data : List (Option N)
deriving DecidableEq

/-- an object found by its name: a feeder, or something else with a nominal voltage if it has this attribute -/
inductive NamedObj (N : Type)
  | feeder (f : FeederData N)
  | other (voltage : Option (Option N))
deriving DecidableEq

/-- One row of `[HEADNODES]`: ditto/writers/cyme/write.py:4103-4106. -/
def headOf {N : Type} (find : Text → Option (NamedObj N)) (name : Text) : Py (Option Text) :=
  match find name with
  | none => .error .keyError
  | some (.other _) => .error .attributeError
  | some (.feeder f) => .ok f.headnode

/-- `[HEADNODES]`, head node and network: ditto/writers/cyme/write.py:4097-4106 -/
def headRows {N : Type} (find : Text → Option (NamedObj N)) : List Text → Py (List (Option Text × Text))
  | [] => .ok []
  | name :: names =>
    if name = [] then headRows find names
    else
      match headOf find name with
      | .error e => .error e
      | .ok h =>
        match headRows find names with
        | .error e => .error e
        | .ok r => .ok ((h, name) :: r)

/-- the voltage of the head node: ditto/writers/cyme/write.py:4129 -/
def headVoltage {N : Type} [Field N] (find : Text → Option (NamedObj N)) (h : Option Text) : Py N :=
  match h with
  | none => .error .keyError
  | some h =>
    match find h with
    | none => .error .keyError
    | some (.other none) => .error .attributeError
    | some (.other (some none)) => .error .typeError
    | some (.other (some (some v))) => .ok (v / 1000)
    | some (.feeder f) =>
      match f.voltage with
      | none => .error .typeError
      | some v => .ok (v / 1000)

/-- a number or the text None -/
def textCell {N : Type} : Option N → SourceCell N
  | none => .noneText
  | some v => .num v

/-- the voltage of a feeder: ditto/writers/cyme/write.py:4123-4129 -/
def feederVoltage {N : Type} [Field N] (find : Text → Option (NamedObj N)) (f : FeederData N) : Py N :=
  match f.voltage with
  | some v => .ok (v / 1000)
  | none => headVoltage find f.headnode

/-- the row of a feeder: ditto/writers/cyme/write.py:4131-4145 -/
def feederRow {N : Type} (f : FeederData N) (v : N) : EquivRow N where
  node := f.headnode
  cells := [.num v] ++ f.data.map textCell ++ [.num v, .num v, .num v]

/-- is a network a feeder? ditto/writers/cyme/write.py:4121 -/
def plainNetwork (name : Text) : Bool := name ≠ "subtransmission".toList && !inText "substation".toList name

/-- The rows of the feeders: ditto/writers/cyme/write.py:4120-4145. `ids` are the nodes of the rows before. -/
def feederRows {N : Type} [Field N] (find : Text → Option (NamedObj N)) (ids : List Text) : List Text → Py (List (EquivRow N))
  | [] => .ok []
  | name :: names =>
    if plainNetwork name then
      match find name with
      | none => .error .keyError
      | some (.other none) => .error .attributeError
      | some (.other (some _)) => .error .attributeError
      | some (.feeder f) =>
        match feederVoltage find f with
        | .error e => .error e
        | .ok v =>
          match feederRows find ids names with
          | .error e => .error e
          | .ok r =>
            match f.headnode with
            | none => .ok (feederRow f v :: r)
            | some h => .ok (if h ∈ ids then r else feederRow f v :: r)
    else feederRows find ids names

/-- the text of a cell up to a comma: `split(",")[0]`, ditto/writers/cyme/write.py:4117 -/
def upToComma (t : Text) : Text := t.takeWhile (· ≠ ',')

/-- the nodes of the rows of sources: ditto/writers/cyme/write.py:4115-4117 -/
def idsOf {N : Type} (rows : List (EquivRow N)) : List Text := rows.filterMap fun r => r.node.map upToComma

/-- `[SOURCE EQUIVALENT]`: ditto/writers/cyme/write.py:4110-4145 -/
def equivTable {N : Type} [Field N] (find : Text → Option (NamedObj N)) (st : SourceState N) (networks : List Text) : Py (List (EquivRow N)) :=
  match feederRows find (idsOf st.rows) networks with
  | .error e => .error e
  | .ok r => .ok (st.rows ++ r)

end Ditto.Cyme
