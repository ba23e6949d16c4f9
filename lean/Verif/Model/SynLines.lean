import Verif.Model.SynLoads
import Verif.Model.Units

/-! Lines of Synergi databases: ditto/readers/synergi/read.py, the part of `parse` that reads the tables InstSection, DevConductors,
DevConfig, InstReclosers, InstSwitches, InstFuses and InstProtectiveDevices. Simplifications: numbers are rational; a flag of a table is a
Bool, and 0 and 1 are accepted for it by the model of ditto. -/
namespace Ditto.Syn
open Ditto Glm

/-- a row of the table InstSection, as far as lines depend on it -/
structure LineRow where
  sec : SecRow
  length : ℚ
  height : ℚ
  note : Text
  conductor : Text
  neutral : Text
  config : Text
  deriving DecidableEq

/-- a row of the table DevConductors -/
structure CondRow where
  name : Text
  gmr : ℚ
  diameter : ℚ
  resistance : ℚ
  r1 : ℚ
  x1 : ℚ
  r0 : ℚ
  x0 : ℚ
  b1 : ℚ
  b0 : ℚ
  continuous : ℚ
  interrupt : ℚ
  strandDiameter : ℚ
  strandResistance : ℚ
  strandCount : ℤ
  outside : ℚ
  overInsulation : ℚ
  deriving DecidableEq

/-- a row of the table DevConfig: X and Y of the three phases and of the neutral -/
structure ConfRow where
  name : Text
  p1 : ℚ × ℚ
  p2 : ℚ × ℚ
  p3 : ℚ × ℚ
  n : ℚ × ℚ
  deriving DecidableEq

/-- a row of the tables InstReclosers and InstFuses: section, AmpRating, InterruptRatingAmps or CutoffAmps, RecloserIsOpen or FuseIsOpen -/
structure CutRow where
  sec : Text
  rating : ℚ
  interrupt : ℚ
  isOpen : Bool
  deriving DecidableEq

/-- a row of the table InstSwitches -/
structure SwitchRow where
  sec : Text
  type : Text
  isOpen : Bool
  deriving DecidableEq

/-- a row of the table DevSwitches -/
structure DevSwitchRow where
  name : Text
  continuous : ℚ
  emergency : ℚ
  deriving DecidableEq

/-- the rows after `ToLowerCase`: ditto/readers/synergi/db_parser.py:50-55 -/
def lowerLine (r : LineRow) : LineRow :=
  { r with sec := lowerSec r.sec, note := lower r.note, conductor := lower r.conductor, neutral := lower r.neutral, config := lower r.config }

/-- the rows after `ToLowerCase`: ditto/readers/synergi/db_parser.py:50-55 -/
def lowerCond (c : CondRow) : CondRow := { c with name := lower c.name }

/-- the rows after `ToLowerCase`: ditto/readers/synergi/db_parser.py:50-55 -/
def lowerConf (c : ConfRow) : ConfRow := { c with name := lower c.name }

/-- the rows after `ToLowerCase`: ditto/readers/synergi/db_parser.py:50-55 -/
def lowerCut (c : CutRow) : CutRow := { c with sec := lower c.sec }

/-- the rows after `ToLowerCase`: ditto/readers/synergi/db_parser.py:50-55 -/
def lowerSwitch (s : SwitchRow) : SwitchRow := { s with sec := lower s.sec, type := lower s.type }

/-- the rows after `ToLowerCase`: ditto/readers/synergi/db_parser.py:50-55 -/
def lowerDevSwitch (d : DevSwitchRow) : DevSwitchRow := { d with name := lower d.name }

/-- the tables of a database that lines depend on -/
structure LineDb where
  /-- FeederId and SubstationId of InstFeeders -/
  feederTable : List (Text × Text)
  /-- SectionId of InstRegulators and InstPrimaryTransformers -/
  skipped : List Text
  /-- LengthUnits of SAI_Equ_Control -/
  units : Text
  lines : List LineRow
  conds : List CondRow
  confs : List ConfRow
  reclosers : List CutRow
  switches : List SwitchRow
  devSwitches : List DevSwitchRow
  fuses : List CutRow
  /-- SectionId and UniqueDeviceId of InstProtectiveDevices -/
  protectors : List (Text × Text)
  /-- ProtectiveDeviceTypeName of DevProtectiveDevices -/
  protectorTypes : List Text

/-- the tables after `ToLowerCase`: ditto/readers/synergi/db_parser.py:39-42 -/
def lowerLineDb (db : LineDb) : LineDb where
  feederTable := db.feederTable.map fun f => (lower f.1, lower f.2)
  skipped := db.skipped.map lower
  units := lower db.units
  lines := db.lines.map lowerLine
  conds := db.conds.map lowerCond
  confs := db.confs.map lowerConf
  reclosers := db.reclosers.map lowerCut
  switches := db.switches.map lowerSwitch
  devSwitches := db.devSwitches.map lowerDevSwitch
  fuses := db.fuses.map lowerCut
  protectors := db.protectors.map fun p => (lower p.1, lower p.2)
  protectorTypes := db.protectorTypes.map lower

/-- `convert_length_unit(x, t, LengthUnits)`: ditto/readers/synergi/length_units.py:11-107 -/
def inMeters (units : Text) (t : Units.SynergiValueType) (x : ℚ) : Py ℚ := Units.convertLengthUnit x (some t) (some (String.ofList units))

/-- rating, interrupting rating and state of the devices of a section, and whether it has a recloser, a switch or a fuse -/
structure Equip where
  recloser : Bool
  isSwitch : Bool
  fuse : Bool
  /-- `eqt_rating`, `eqt_interrupting_rating` and `eqt_open`, which are set together -/
  values : Option (ℚ × ℚ × Bool)
  deriving DecidableEq

/-- the recloser of a section: ditto/readers/synergi/read.py:900-911 -/
def recloserOf (rows : List CutRow) (sec : Text) (e : Equip) : Equip :=
  match rows.filter fun r => r.sec = sec with
  | [] => e
  | [r] => { e with recloser := true, values := some (r.rating, r.interrupt, r.isOpen) }
  | _ => { e with recloser := true }

/-- `Switch_index_map[...]`, the last type with this name: ditto/readers/synergi/read.py:350-352, 922 -/
def switchType (devs : List DevSwitchRow) (name : Text) : Option DevSwitchRow := devs.reverse.find? fun d => d.name = name

/-- the switch of a section: ditto/readers/synergi/read.py:913-927 -/
def switchOf (rows : List SwitchRow) (devs : List DevSwitchRow) (sec : Text) (e : Equip) : Py Equip :=
  match rows.filter fun r => r.sec = sec with
  | [] => .ok e
  | [r] =>
    match switchType devs r.type with
    | none => .error .keyError
    | some d => .ok { e with isSwitch := true, values := some (d.continuous, d.emergency, r.isOpen) }
  | _ => .ok { e with isSwitch := true }

/-- the fuse of a section: ditto/readers/synergi/read.py:929-940 -/
def fuseOf (rows : List CutRow) (sec : Text) (e : Equip) : Equip :=
  match rows.filter fun r => r.sec = sec with
  | [] => e
  | [r] => { e with fuse := true, values := some (r.rating, r.interrupt, r.isOpen) }
  | _ => { e with fuse := true }

/-- the protective device of a section: ditto/readers/synergi/read.py:942-980. `ProtectiveDeviceType[eqt_id]` with an array `eqt_id` is a
series, which has no `lower`. -/
def protectorOf (rows : List (Text × Text)) (types : List Text) (sec : Text) (e : Equip) : Py Equip :=
  match rows.filter fun r => r.1 = sec with
  | [r] =>
    match types.filter fun t => t = r.2 with
    | [_] => .error .attributeError
    | _ => .ok e
  | _ => .ok e

/-- all devices of a section: ditto/readers/synergi/read.py:893-980 -/
def equipOf (db : LineDb) (sec : Text) : Py Equip :=
  match switchOf db.switches db.devSwitches sec (recloserOf db.reclosers sec ⟨false, false, false, none⟩) with
  | .error e => .error e
  | .ok e => protectorOf db.protectors db.protectorTypes sec (fuseOf db.fuses sec e)

/-- the concentric neutral of a wire: resistance, diameter and gmr of the strands, outside diameter, number of strands, insulation thickness -/
structure SynNeutral where
  resistance : ℚ
  diameter : ℚ
  gmr : ℚ
  outside : ℚ
  strands : ℤ
  thickness : ℚ
  deriving DecidableEq

/-- a wire of ditto -/
structure SynWire where
  phase : Char
  isRecloser : Bool
  isSwitch : Bool
  isFuse : Bool
  ampacity : Option ℚ
  emergency : Option ℚ
  interrupting : Option ℚ
  isOpen : Option Bool
  x : Option ℚ
  y : Option ℚ
  nameclass : Text
  gmr : Option ℚ
  diameter : Option ℚ
  resistance : Option ℚ
  concentric : Option SynNeutral
  deriving DecidableEq

/-- `config`: ditto/readers/synergi/read.py:406-417, 843-852. The last configuration with this name counts; `none` is the empty dictionary. -/
def configOf (confs : List ConfRow) (name : Text) : Option ConfRow :=
  if name = [] then none else confs.reverse.find? fun c => c.name = name

/-- the position of a wire over the position of the line: ditto/readers/synergi/read.py:1127-1192, 1282-1299 -/
def positionOf (config : Option ConfRow) (idx : Nat) (phase : Char) : Option (ℚ × ℚ) :=
  match config with
  | none => none
  | some c =>
    if phase = 'N' then some c.n
    else
      match idx with
      | 0 => some c.p1
      | 1 => some c.p2
      | 2 => some c.p3
      | _ => none

/-- `conductor_name_raw`: ditto/readers/synergi/read.py:1199-1280. The conductors of the second and the third phase are the one of the first
(183-184). The name in `nameclass` is the same, without blanks. -/
def wireConductor (r : LineRow) (idx : Nat) (phase : Char) : Option Text :=
  if phase = 'N' ∧ r.neutral ≠ [] then some r.neutral
  else
    match idx with
    | 0 => if r.conductor ≠ [] then some r.conductor else none
    | 1 => some r.conductor
    | 2 => some r.conductor
    | _ => none

/-- `line_type`: ditto/readers/synergi/read.py:861-867 -/
def lineTypeOf (note : Text) : Text :=
  if lower note = "underground".toList then "underground".toList
  else if lower note = "overhead".toList then "overhead".toList
  else "swgearbus".toList

/-- the beginning of the name of a wire: ditto/readers/synergi/read.py:1300-1305 -/
def wirePrefix (lineType : Text) : Text :=
  if lineType = "underground".toList then "Cable_".toList
  else if lineType = "swgearbus".toList then "Swgearbus".toList
  else "Wire_".toList

/-- `conductor_mapping[name]`, the last conductor with this name: ditto/readers/synergi/read.py:469-486 -/
def conductorOf (conds : List CondRow) (name : Text) : Option CondRow := conds.reverse.find? fun c => c.name = name

/-- the concentric neutral: ditto/readers/synergi/read.py:1362-1407 -/
def concentricOf (c : CondRow) : Option SynNeutral :=
  if c.outside > c.diameter then
    some ⟨c.strandResistance / 160934, c.strandDiameter * 0.0254, c.strandDiameter / 2 * 0.7788 * 0.0254, c.outside * 0.0254, c.strandCount,
      (c.overInsulation - c.diameter) / 2 * 0.0254⟩
  else none

/-- the values of the conductor: ditto/readers/synergi/read.py:1307-1407 -/
def withConductor (units : Text) (c : CondRow) (w : SynWire) : Py SynWire :=
  match inMeters units .MUL c.gmr with
  | .error e => .error e
  | .ok gmr =>
    match inMeters units .SUL c.diameter with
    | .error e => .error e
    | .ok diameter =>
      match inMeters units .Per_LUL c.resistance with
      | .error e => .error e
      | .ok resistance =>
        .ok { w with
          gmr := some gmr
          diameter := some diameter
          ampacity := some (w.ampacity.getD c.continuous)
          emergency := some (w.emergency.getD c.interrupt)
          resistance := some resistance
          concentric := concentricOf c }

/-- ampacity, emergency ampacity, interrupting rating and state of the wires of a section: ditto/readers/synergi/read.py:1029-1093.
Without values `float(None)` is a TypeError. -/
def wireValues (e : Equip) : Py (Option ℚ × Option ℚ × Option ℚ × Option Bool) :=
  if e.recloser || e.isSwitch || e.fuse then
    match e.values with
    | none => .error .typeError
    | some (rating, interrupt, isOpen) => .ok (some rating, some interrupt, if e.recloser || e.fuse then some interrupt else none, some isOpen)
  else .ok (none, none, none, none)

/-- a wire of a line: ditto/readers/synergi/read.py:1020-1407. Without conductor `nameclass` is None and `"Wire_" + None` is a TypeError. -/
def readWire (db : LineDb) (r : LineRow) (e : Equip) (idx : Nat) (phase : Char) : Py SynWire :=
  match wireValues e with
  | .error x => .error x
  | .ok (ampacity, emergency, interrupting, isOpen) =>
    match wireConductor r idx phase with
    | none => .error .typeError
    | some name =>
      let place := positionOf (configOf db.confs r.config) idx phase
      let w : SynWire := ⟨phase, e.recloser, e.isSwitch, e.fuse, ampacity, emergency, interrupting, isOpen, place.map (·.1),
        place.map fun p => r.height + p.2, wirePrefix (lineTypeOf r.note) ++ unblank name, none, none, none, none⟩
      match conductorOf db.conds name with
      | none => .ok w
      | some c => withConductor db.units c w

/-- the wires from the place `idx` on: ditto/readers/synergi/read.py:1020-1417 -/
def wiresFrom (db : LineDb) (r : LineRow) (e : Equip) : Nat → List Char → Py (List SynWire)
  | _, [] => .ok []
  | idx, p :: ps =>
    match readWire db r e idx p with
    | .error x => .error x
    | .ok w =>
      match wiresFrom db r e (idx + 1) ps with
      | .error x => .error x
      | .ok ws => .ok (w :: ws)

/-- the neutral of an underground line is no wire: ditto/readers/synergi/read.py:1411-1417 -/
def keptWires (lineType : Text) (ws : List SynWire) : List SynWire :=
  if lineType = "underground".toList then ws.filter fun w => w.phase ≠ 'N' else ws

/-- a matrix as a list of rows -/
abbrev Rows (V : Type) := List (List V)

/-- number of rows of the matrices of a line with these phases, if it has matrices: ditto/readers/synergi/read.py:1475-1590 -/
def matrixSize (phases : List Char) : Option Nat :=
  match phases.length with
  | 2 => if phases.getLast? = some 'N' then some 1 else some 2
  | 3 => if phases.getLast? = some 'N' then some 2 else some 3
  | 4 => some 3
  | _ => none

/-- a matrix with `a` on the diagonal and `b` elsewhere: ditto/readers/synergi/read.py:1497, 1534, 1562, 1585 -/
def matrixOf {V : Type} (n : Nat) (a b : V) : Rows V :=
  match n with
  | 1 => [[a]]
  | 2 => [[a, b], [b, a]]
  | _ => [[a, b, b], [b, a, b], [b, b, a]]

/-- impedance and capacitance matrix of a line with this conductor, a complex number is a pair: ditto/readers/synergi/read.py:1443-1590 -/
def matricesOf (units : Text) (phases : List Char) (c : CondRow) : Py (Option (Rows (ℚ × ℚ) × Rows ℚ)) :=
  match inMeters units .Per_LUL c.r0, inMeters units .Per_LUL c.r1, inMeters units .Per_LUL c.x0, inMeters units .Per_LUL c.x1,
    inMeters units .Per_LUL c.b1 with
  | .ok r0, .ok r1, .ok x0, .ok x1, .ok b1 =>
    .ok ((matrixSize phases).map fun n =>
      (matrixOf n (2 * (r1 / 3) + r0 / 3, 2 * (x1 / 3) + x0 / 3) (r0 / 3 - r1 / 3, x0 / 3 - x1 / 3),
        matrixOf n (2 * (b1 / 3 / 376.9911)) (-(b1 / 3 / 376.9911))))
  | .error e, _, _, _, _ => .error e
  | _, .error e, _, _, _ => .error e
  | _, _, .error e, _, _ => .error e
  | _, _, _, .error e, _ => .error e
  | _, _, _, _, .error e => .error e

/-- a line of ditto -/
structure SynLine where
  name : Text
  feeder : Option Text
  substation : Option Text
  length : ℚ
  lineType : Text
  fromElement : Text
  toElement : Text
  voltage : ℚ
  isRecloser : Bool
  isSwitch : Bool
  isFuse : Bool
  wires : List SynWire
  impedance : Option (Rows (ℚ × ℚ))
  capacitance : Rows ℚ
  deriving DecidableEq

/-- the matrices of a line: ditto/readers/synergi/read.py:1432-1600. `cap` is the variable `capacitance_matrix`, which keeps its value from the
lines before; it is unbound at first. The first conductor with the name counts. -/
def lineMatrices (db : LineDb) (cap : Option (Rows ℚ)) (r : LineRow) : Py (Option (Rows (ℚ × ℚ)) × Rows ℚ) :=
  match (match db.conds.find? fun c => c.name = r.conductor with
    | none => .ok none
    | some c => matricesOf db.units (secPhases r.sec.phases) c : Py (Option (Rows (ℚ × ℚ) × Rows ℚ))) with
  | .error e => .error e
  | .ok (some (z, c)) => .ok (some z, c)
  | .ok none =>
    match cap with
    | none => .error .unboundLocalError
    | some c => .ok (none, c)

/-- a line: ditto/readers/synergi/read.py:825-1600. `num` is `float`. -/
def readLine (num : Text → Option ℚ) (feeders subs : List (Text × Text)) (db : LineDb) (cap : Option (Rows ℚ)) (r : LineRow) : Py SynLine :=
  match inMeters db.units .MUL r.length with
  | .error e => .error e
  | .ok length =>
    match lineVoltage num r.sec.description with
    | .error e => .error e
    | .ok v =>
      match equipOf db r.sec.id with
      | .error e => .error e
      | .ok e =>
        match wiresFrom db r e 0 (secPhases r.sec.phases) with
        | .error e => .error e
        | .ok ws =>
          match lineMatrices db cap r with
          | .error e => .error e
          | .ok (z, c) =>
            .ok ⟨clean r.sec.id, find feeders r.sec.id, substationOf subs (find feeders r.sec.id), length, lineTypeOf r.note, clean r.sec.fromNode,
              clean r.sec.toNode, v, e.recloser, e.isSwitch, e.fuse, keptWires (lineTypeOf r.note) ws, z, c⟩

/-- the lines of the rows: ditto/readers/synergi/read.py:819-1600 -/
def linesFrom (num : Text → Option ℚ) (feeders subs : List (Text × Text)) (db : LineDb) : Option (Rows ℚ) → List LineRow → Py (List SynLine)
  | _, [] => .ok []
  | cap, r :: rest =>
    match readLine num feeders subs db cap r with
    | .error e => .error e
    | .ok l =>
      match linesFrom num feeders subs db (some l.capacitance) rest with
      | .error e => .error e
      | .ok ls => .ok (l :: ls)

/-- the lines of a database whose texts are in lower case: ditto/readers/synergi/read.py:121-1600, without the errors of other tables.
Sections of regulators and transformers are no lines (822-823). -/
def linesOfTables (num : Text → Option ℚ) (db : LineDb) : Py (List SynLine) :=
  match sectionFeeders (db.lines.map (·.sec)) with
  | .error e => .error e
  | .ok feeders => linesFrom num feeders (feederSubstations db.feederTable) db none (db.lines.filter fun r => r.sec.id ∉ db.skipped)

/-- the lines of a database: ditto/readers/synergi/db_parser.py:39-42, ditto/readers/synergi/read.py:121-1600 -/
def readLines (num : Text → Option ℚ) (db : LineDb) : Py (List SynLine) := linesOfTables num (lowerLineDb db)

end Ditto.Syn
