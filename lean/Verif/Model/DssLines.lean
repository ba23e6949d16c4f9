import Verif.Model.DssLoads
import Verif.Model.Units
import Verif.Model.Matrix

/-! Lines in OpenDSS files: `write_lines` of ditto/writers/opendss/write.py and `parse_lines` of ditto/readers/opendss/read.py for lines that
are described by codes. -/
namespace Ditto.Dss
open Ditto

/-- a wire with its state -/
structure LWire where
  wire : DWire := {}
  isOpen : Option Bool := none
  rating : Option ℚ := none
deriving DecidableEq, Repr

/-- the attributes of a `Line` that are written. Flags are `true` if they are 1 or True. The impedances are in two matrices. -/
structure LLine where
  name : Option String := none
  nameclass : Option String := none
  lineType : Option String := none
  length : Option ℚ := none
  fromEl : Option String := none
  toEl : Option String := none
  wires : List LWire := []
  isSwitch : Bool := false
  isBreaker : Bool := false
  isFuse : Bool := false
  isRecloser : Bool := false
  r : List (List ℚ) := []
  xm : List (List ℚ) := []
  c : List (List ℚ) := []
  faultrate : Option ℚ := none
  positions : List (ℚ × ℚ) := []
  feeder : Option String := none
  substation : Option String := none
deriving DecidableEq, Repr

/-- the part of a line that is used for geometries and codes -/
def LLine.toDLine (l : LLine) : DLine where
  name := l.name
  nameclass := l.nameclass
  lineType := l.lineType
  wires := l.wires.map (·.wire)
  faultrate := l.faultrate
  r := l.r
  xm := l.xm
  c := l.c
  device := l.isSwitch || l.isBreaker || l.isFuse || l.isRecloser
  feeder := l.feeder
  substation := l.substation

/-- the text of a line, as the values after each keyword. `enabled`: `none` if it is not written. `fuse`: the fuse of the line with its rated
current. -/
structure LineText where
  name : String
  units : String := "km"
  length : Option ℚ := none
  bus1 : Option (String × List (Option Nat)) := none
  bus2 : Option (String × List (Option Nat)) := none
  switch : Bool := false
  enabled : Option Bool := none
  phases : Nat := 0
  geometry : Option String := none
  linecode : Option String := none
  fuse : Option (Option ℚ) := none
deriving DecidableEq, Repr

/-- the phases of the buses: ditto/writers/opendss/write.py:2932-2939 -/
def lineSuffix (ws : List LWire) : List (Option Nat) :=
  ((ws.filterMap (·.wire.phase)).filter fun p => !decide (p ∈ ["N", "N1", "N2"])).map toDssPhase

/-- the closed wires: ditto/writers/opendss/write.py:2961-2970 -/
def closedWires (ws : List LWire) : List LWire :=
  ws.filter fun w => decide (w.isOpen ≠ some true) && (match w.wire.phase with | some p => !decide (p ∈ ["N", "N1", "N2"]) | none => false)

/-- the rated current of a fuse: ditto/writers/opendss/write.py:2981-2992 -/
def fuseRating (ws : List LWire) : Option ℚ :=
  match (ws.filterMap (·.rating)).max? with
  | some m => if 0 < m then some m else none
  | none => none

/-- The text of a line: ditto/writers/opendss/write.py:2896-3012. The name of the class has been set by `write_linegeometry` or
`write_linecodes` before. `none`: no name. -/
def writeLine (l : LLine) : Option LineText :=
  l.name.map fun n =>
    { name := n
      length := l.length.map fun x => max (1 / 1000) ((1 / 1000) * x)
      bus1 := l.fromEl.map fun b => (cleanName b, lineSuffix l.wires)
      bus2 := l.toEl.map fun b => (cleanName b, lineSuffix l.wires)
      switch := l.isSwitch || l.isBreaker
      enabled := if l.wires = [] then none else some (decide (closedWires l.wires ≠ []))
      phases := (l.toDLine.wires.filter isPhase).length
      geometry := if useLinecodes l.toDLine then none else l.nameclass
      linecode := if useLinecodes l.toDLine then l.nameclass.map cleanName else none
      fuse := if l.isFuse then some (fuseRating l.wires) else none }

/-- the positions of a line in the file of intermediate points: ditto/writers/opendss/write.py:2907-2911 -/
def positionText (l : LLine) (n : String) : Option (String × List (ℚ × ℚ)) :=
  if l.positions = [] then none else some (n, l.positions)

/-- `feeder_text_intermediate_map`: ditto/writers/opendss/write.py:2897-3013. Unlike the text of the lines it is not continued. -/
def intermediates (sf ss : Bool) (ls : List LLine) : List (String × Option (String × List (ℚ × ℚ))) :=
  ls.foldl (fun m l => match l.name with
    | none => m
    | some n => Json.setKey (groupKey (groupOf sf ss l.feeder l.substation)) (positionText l n) m) []

/-! ### Reader -/

/-- a matrix as reported by OpenDSS: rows of text, or a list of numbers if there is one row -/
inductive RawMatrix
  | rows (m : List (List ℚ))
  | flat (l : List ℚ)
deriving DecidableEq, Repr

/-- what OpenDSS reports of a line; matrices that cannot be read are `none`. Simplification: OpenDSS always reports units and matrices, so
that those of the line code are not needed. -/
structure LineData where
  name : String
  switch : Bool := false
  enabled : Bool := true
  linecode : Option String := none
  units : String
  length : Option ℚ := none
  bus1 : Option (String × Option (List Nat)) := none
  bus2 : Option (String × Option (List Nat)) := none
  phases : Option Nat := none
  r : Option RawMatrix := none
  x : Option RawMatrix := none
  c : Option RawMatrix := none
  faultrate : Option ℚ := none
  normamps : Option ℚ := none
  emergamps : Option ℚ := none
deriving DecidableEq, Repr

/-- a `Wire` that is read -/
structure RWire where
  phase : Option String
  isSwitch : Bool
  isOpen : Option Bool
  isBreaker : Bool
  isRecloser : Bool
  isFuse : Bool
  ampacity : Option ℚ
  emergency : Option ℚ
deriving DecidableEq, Repr

/-- a `Line` that is read -/
structure RLine where
  name : String
  nameclass : Option String
  length : Option ℚ
  fromEl : Option String
  toEl : Option String
  isFuse : Bool
  isRecloser : Bool
  isBreaker : Bool
  isSwitch : Bool
  z : Option (List (List ℚ) × List (List ℚ))
  c : Option (List (List ℚ))
  faultrate : Option ℚ
  wires : List RWire
deriving DecidableEq, Repr

/-- `sub in s` for strings -/
def hasSub (sub s : String) : Bool := s.toList.tails.any fun t => sub.toList.isPrefixOf t

/-- ditto/readers/opendss/read.py:855-856 -/
def lineUnit (u : String) : String := if pyLower u ∈ ["ft", "mi", "m", "km", "kft", "cm", "in"] then u else "km"

/-- the conversion of an entry of a matrix: ditto/readers/opendss/read.py:955-957 -/
def perMeter (u : String) (x : ℚ) : Option ℚ := Units.toMeters (some x) (.str u) (.bool true)

/-- a matrix: ditto/readers/opendss/read.py:942-970; errors are caught and the attribute is left `None` -/
def readMatrix (u : String) : RawMatrix → Option (List (List ℚ))
  | .rows m =>
    match Mat.symmetrize (m.map (List.filterMap (perMeter u))) with
    | .ok (some r) => some r
    | _ => none
  | .flat l => some [l.filterMap (perMeter u)]

/-- `impedance_matrix`: ditto/readers/opendss/read.py:928-1009 -/
def readImpedance (d : LineData) : Option (List (List ℚ) × List (List ℚ)) :=
  match d.r.bind (readMatrix (lineUnit d.units)), d.x.bind (readMatrix (lineUnit d.units)) with
  | some r, some x => some (r, x)
  | _, _ => none

/-- the numbers of the phases of the first bus: ditto/readers/opendss/read.py:865-876 -/
def busNumbers : Option (String × Option (List Nat)) → List Nat
  | none => []
  | some (_, none) => [1, 2, 3]
  | some (_, some ns) => ns

/-- the kinds of devices: ditto/readers/opendss/read.py:904-914 -/
inductive Device
  | fuse | recloser | breaker | switch | none
deriving DecidableEq, Repr

def lineDevice (fuses reclosers : List String) (name : String) (switch : Bool) : Device :=
  if name ∈ fuses then .fuse
  else if name ∈ reclosers ∨ hasSub "recloser" name = true then .recloser
  else if hasSub "breaker" name then .breaker
  else if switch then .switch
  else .none

/-- the wire number `p` of a line without geometry: ditto/readers/opendss/read.py:1105-1157. The name compared with the fuses has the prefix
"line.", so that it is never among them. -/
def readWire (dev : Device) (d : LineData) (p : Nat) : RWire where
  phase := match (busNumbers d.bus1)[p]? with
    | some n => ofDssPhase n
    | none => some "N"
  isSwitch := decide (dev = .switch)
  isOpen := if dev = .switch then some (!d.enabled) else none
  isBreaker := decide (dev = .breaker)
  isRecloser := decide (dev = .recloser)
  isFuse := false
  ampacity := d.normamps
  emergency := d.emergamps

/-- One line of `parse_lines` without geometry: ditto/readers/opendss/read.py:798-1526. `fuses` and `reclosers`: the names of the lines they
are on. `none`: the line is skipped. -/
def readLine (fuses reclosers : List String) (d : LineData) : Option RLine :=
  if d.switch = false ∧ d.enabled = false then none
  else
    let n := pyLower d.name
    let dev := lineDevice fuses reclosers n d.switch
    some
      { name := n
        nameclass := d.linecode
        length := d.length.bind fun x => Units.toMeters (some x) (.str (lineUnit d.units))
        fromEl := d.bus1.map (·.1)
        toEl := d.bus2.map (·.1)
        isFuse := decide (dev = .fuse)
        isRecloser := decide (dev = .recloser)
        isBreaker := decide (dev = .breaker)
        isSwitch := decide (dev = .switch)
        z := readImpedance d
        c := d.c.bind (readMatrix (lineUnit d.units))
        faultrate := d.faultrate
        wires := (List.range (d.phases.getD 3)).map (readWire dev d) }

end Ditto.Dss
