import Verif.Model.CymeRegRead
import Mathlib.Order.Defs.LinearOrder

/-! The capacitors of CYME files: `parse_capacitors` in ditto/readers/cyme/read.py. -/
namespace Ditto.Cyme
open Ditto Glm

/-! ### several kinds of tables in one dictionary -/

/-- The calls of `parser_helper` for one line that update the same dictionary: ditto/readers/cyme/read.py:3869-3913. -/
def sharedHelpers : List Query → List (Text × Values) → Text → List Text → Py (List (Text × Values) × List Text)
  | [], d, _, rest => .ok (d, rest)
  | q :: qs, d, line, rest =>
    match parserHelper q line rest with
    | .error e => .error e
    | .ok (r, rest') => sharedHelpers qs (updateAll d r) line rest'

/-- the loop over the lines. The first argument bounds the number of rounds; the number of lines is enough. -/
def sharedLoop (qs : List Query) : Nat → List (Text × Values) → List Text → Py (List (Text × Values))
  | _, d, [] => .ok d
  | 0, d, _ => .ok d
  | n + 1, d, line :: rest =>
    match sharedHelpers qs d line rest with
    | .error e => .error e
    | .ok (d', rest') => sharedLoop qs n d' rest'

/-- several kinds of tables, read into one dictionary -/
def readShared (qs : List Query) (content : List Text) : Py (List (Text × Values)) := sharedLoop qs content.length [] content

/-! ### what is read -/

/-- ditto/readers/cyme/read.py:3835-3840, 3877-3885. The entry `type`, which is added to each row, is never read; it is not represented. -/
def seriesSettingQuery : Query where
  headers := ["[SERIES CAPACITOR SETTING]".toList]
  attrs := ["sectionid".toList, "eqid".toList, "coordx".toList, "coordy".toList]
  mapping := [("sectionid".toList, 0), ("eqid".toList, 2), ("coordx".toList, 7), ("coordy".toList, 8)]

/-- ditto/readers/cyme/read.py:3841-3853, 3893-3913 -/
def shuntSettingQuery : Query where
  headers := ["[SHUNT CAPACITOR SETTING]".toList]
  attrs := ["sectionid".toList, "shuntcapacitorid".toList, "connection".toList, "fixedkvara".toList, "fixedkvarb".toList, "fixedkvarc".toList,
    "switchedkvara".toList, "switchedkvarb".toList, "switchedkvarc".toList, "kv".toList, "controllingphase".toList]
  mapping := [("sectionid".toList, 0), ("shuntcapacitorid".toList, 39), ("connection".toList, 6), ("fixedkvara".toList, 7), ("fixedkvarb".toList, 8),
    ("fixedkvarc".toList, 9), ("switchedkvara".toList, 13), ("switchedkvarb".toList, 14), ("switchedkvarc".toList, 15), ("kv".toList, 24),
    ("controllingphase".toList, 35)]

/-- ditto/readers/cyme/read.py:3854, 3933-3937 -/
def seriesQuery : Query where
  headers := ["[SERIES CAPACITOR]".toList]
  attrs := ["id".toList, "reactance".toList]
  mapping := [("id".toList, 0), ("reactance".toList, 6)]

/-- ditto/readers/cyme/read.py:3855, 3945-3952 -/
def shuntQuery : Query where
  headers := ["[SHUNT CAPACITOR]".toList]
  attrs := ["id".toList, "kvar".toList, "kv".toList, "type".toList]
  mapping := [("id".toList, 0), ("kvar".toList, 1), ("kv".toList, 2), ("type".toList, 6)]

/-- A `Capacitor`: ditto/models/capacitor.py:21-124. Its positions are not represented: none is ever set, because the attribute is not called
`position` (ditto/readers/cyme/read.py:4000-4008). -/
structure ReadCapacitor (N : Type) where
  name : Text
  element : Option Text
  feeder : Text
  /-- `pt_phase` -/
  control : Option Text
  connection : Option Text
  reactance : Option N
  voltage : Option N
  /-- phases and vars -/
  phases : List (Char × Option N)
deriving DecidableEq

/-- `capacitors_connection_mapping` for a text: ditto/readers/cyme/read.py:534-541 -/
def capConnection (t : Text) : Text :=
  if t = "0".toList ∨ t = "Y".toList then "Y".toList
  else if t = "1".toList ∨ t = "YNG".toList then "Y".toList
  else if t = "2".toList ∨ t = "D".toList then "D".toList
  else t

/-- assigning a list to `pt_phase`, which takes texts: ditto/models/capacitor.py:84-86 -/
def assignControl (_phases : Text) : Py Text := .error .traitError

/-- the phase that is monitored: ditto/readers/cyme/read.py:3980-3987. The value is a list of phases. -/
def controlOf (settings : Values) : Option Text :=
  match getEntry "controllingphase".toList settings with
  | none => none
  | some t =>
    match assignControl t with
    | .error _ => none
    | .ok x => some x

/-- ditto/readers/cyme/read.py:3991-3998 -/
def capConnectionOf (settings : Values) : Option Text :=
  match getEntry "connection".toList settings with
  | none => none
  | some t => some (capConnection t)

/-- the equipment of a row: ditto/readers/cyme/read.py:4010-4021 -/
def capData (caps : List (Text × Values)) (settings : Values) : Option Values :=
  match getEntry "eqid".toList settings with
  | some k => getEntry k caps
  | none =>
    match getEntry "shuntcapacitorid".toList settings with
    | some k => getEntry k caps
    | none => none

/-- a number of the equipment: ditto/readers/cyme/read.py:4023-4035 -/
def dataValue {N : Type} (f : Values → Text → Option N) (data : Option Values) (k : Text) : Option N :=
  match data with
  | none => none
  | some d => f d k

/-- The rated voltage: ditto/readers/cyme/read.py:4040-4059. `s3` is the square root of 3. -/
def capVoltage {N : Type} [Semiring N] (num : Text → Option N) (s3 : N) (settings : Values) (connection : Option Text) (phases : Nat) (old : Option N) :
    Option N :=
  match floatAt num settings "kv".toList with
  | .error _ => old
  | .ok x =>
    if connection = some "D".toList ∨ phases = 3 then some (thousand x * s3)
    else if connection = some "Y".toList ∨ phases = 1 then some (thousand x)
    else old

/-- the values of three columns, none if one of them is missing: ditto/readers/cyme/read.py:4092-4103, 4119-4131. -/
def threeValues {N : Type} (num : Text → Option N) (settings : Values) (a b c : Text) : Py (Option (N × N × N)) :=
  match getEntry a settings, getEntry b settings, getEntry c settings with
  | some _, some _, some _ =>
    match floatAt num settings a, floatAt num settings b, floatAt num settings c with
    | .ok x, .ok y, .ok z => .ok (some (x, y, z))
    | .error e, _, _ => .error e
    | _, .error e, _ => .error e
    | _, _, .error e => .error e
  | _, _, _ => .ok none

/-- the value for a phase: ditto/readers/cyme/read.py:4104-4118, 4132-4146 -/
def phaseValue {N : Type} [Semiring N] (v : N × N × N) (p : Char) : Option N :=
  if p = 'A' then some (thousand v.1) else if p = 'B' then some (thousand v.2.1) else if p = 'C' then some (thousand v.2.2) else none

/-- `max(...) > 0` -/
def somePositive {N : Type} [Semiring N] [LinearOrder N] (v : N × N × N) : Prop := 0 < max v.1 (max v.2.1 v.2.2)

instance {N : Type} [Semiring N] [LinearOrder N] (v : N × N × N) : Decidable (somePositive v) := inferInstanceAs (Decidable (_ < _))

/-- the vars of a phase without fixed ones: ditto/readers/cyme/read.py:4119-4154 -/
def switchedVar {N : Type} [Semiring N] [LinearOrder N] (num : Text → Option N) (settings : Values) (data : Option Values) (p : Char) : Py (Option N) :=
  match threeValues num settings "switchedkvara".toList "switchedkvarb".toList "switchedkvarc".toList with
  | .error e => .error e
  | .ok none => .ok (dataValue (thousandAt num) data "kvar".toList)
  | .ok (some v) => if somePositive v then .ok (phaseValue v p) else .ok (dataValue (thousandAt num) data "kvar".toList)

/-- the vars of a phase: ditto/readers/cyme/read.py:4091-4154 -/
def phaseVar {N : Type} [Semiring N] [LinearOrder N] (num : Text → Option N) (settings : Values) (data : Option Values) (p : Char) : Py (Option N) :=
  match threeValues num settings "fixedkvara".toList "fixedkvarb".toList "fixedkvarc".toList with
  | .error e => .error e
  | .ok none => switchedVar num settings data p
  | .ok (some v) => if somePositive v then .ok (phaseValue v p) else switchedVar num settings data p

/-- the phases of a capacitor: ditto/readers/cyme/read.py:4074-4157 -/
def phaseVars {N : Type} [Semiring N] [LinearOrder N] (num : Text → Option N) (settings : Values) (data : Option Values) : Text → Py (List (Char × Option N))
  | [] => .ok []
  | p :: ps =>
    match phaseVar num settings data p with
    | .error e => .error e
    | .ok x =>
      match phaseVars num settings data ps with
      | .error e => .error e
      | .ok xs => .ok ((p, x) :: xs)

/-- the phases of a section: ditto/readers/cyme/read.py:4037-4038. Not inside of `try`. -/
def sectionPhases (secs : List (Text × Values)) (sec : Text) : Py (Values × Text) :=
  match getEntry sec secs with
  | none => .error .keyError
  | some s =>
    match getEntry "phase".toList s with
    | none => .error .keyError
    | some t => .ok (s, t)

/-- The capacitor of a row: ditto/readers/cyme/read.py:3956-4157. The phase that is monitored is never set, so that the check of it
(ditto/readers/cyme/read.py:4061-4072) never fails. -/
def capacitorOf {N : Type} [Semiring N] [LinearOrder N] (num : Text → Option N) (s3 : N) (secs : List (Text × Values)) (feeders : List (Text × Text))
    (caps : List (Text × Values)) (key : Text) (settings : Values) : Py (ReadCapacitor N) :=
  match getEntry (rowSection key) feeders with
  | none => .error .keyError
  | some feeder =>
    match sectionPhases secs (rowSection key) with
    | .error e => .error e
    | .ok (s, ph) =>
      match phaseVars num settings (capData caps settings) ph with
      | .error e => .error e
      | .ok ps => .ok {
          name := "Cap_".toList ++ rowSection key
          element := getEntry "fromnodeid".toList s
          feeder := feeder
          control := controlOf settings
          connection := capConnectionOf settings
          reactance := dataValue (valueAt num) (capData caps settings) "reactance".toList
          voltage := capVoltage num s3 settings (capConnectionOf settings) ph.length (dataValue (thousandAt num) (capData caps settings) "kv".toList)
          phases := ps }

/-- ditto/readers/cyme/read.py:3954-4159 -/
def allCapacitors {N : Type} [Semiring N] [LinearOrder N] (num : Text → Option N) (s3 : N) (secs : List (Text × Values)) (feeders : List (Text × Text))
    (caps : List (Text × Values)) : List (Text × Values) → Py (List (ReadCapacitor N))
  | [] => .ok []
  | p :: settings =>
    match capacitorOf num s3 secs feeders caps p.1 p.2 with
    | .error e => .error e
    | .ok c =>
      match allCapacitors num s3 secs feeders caps settings with
      | .error e => .error e
      | .ok cs => .ok (c :: cs)

/-- `parse_capacitors`: ditto/readers/cyme/read.py:3830-4164. Not represented: `section_duplicates`. -/
def parseCapacitors {N : Type} [Semiring N] [LinearOrder N] (num : Text → Option N) (s3 : N) (secs : List (Text × Values)) (feeders : List (Text × Text))
    (network equipment : List Text) : Py (List (ReadCapacitor N)) :=
  match readShared [seriesSettingQuery, shuntSettingQuery] network with
  | .error e => .error e
  | .ok settings =>
    match readShared [seriesQuery, shuntQuery] equipment with
    | .error e => .error e
    | .ok caps => allCapacitors num s3 secs feeders caps settings

end Ditto.Cyme
