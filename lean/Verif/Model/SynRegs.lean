import Verif.Model.SynTables
import Verif.Model.SynTrafos
import Mathlib.Algebra.Field.Defs
import Mathlib.Order.Defs.LinearOrder

/-! Regulators of Synergi databases: ditto/readers/synergi/read.py, the part of `parse` that reads the tables InstRegulators and DevRegulators. -/
namespace Ditto.Syn
open Ditto Glm

section
variable {K : Type}

/-- a row of the table InstRegulators. The tap limits are whole numbers, so that `int` does not change them. -/
structure RegRow (K : Type) where
  id : Text
  sec : Text
  type : Text
  delay : K
  high : Int
  low : Int
  phases : Text
  tapsNearFrom : K
  /-- ForwardBWDialPhase1, ForwardBWDialPhase2, ForwardBWDialPhase3 -/
  widths : K × K × K
  /-- ForwardVoltageSettingPhase1, ForwardVoltageSettingPhase2, ForwardVoltageSettingPhase3 -/
  centers : K × K × K
  deriving DecidableEq

/-- a row of the table DevRegulators -/
structure DevRegRow (K : Type) where
  name : Text
  pt : K
  ct : K
  percentZ : K
  xr : K
  code : Text
  kv : K
  kva : K
  deriving DecidableEq

/-- a winding of a regulator of ditto -/
structure RegWinding (K : Type) where
  connection : Option Text
  voltage : Option K
  rated : Option K
  phases : List Char
  deriving DecidableEq

/-- a regulator of ditto -/
structure SynReg (K : Type) where
  name : Text
  feeder : Option Text
  substation : Option Text
  delay : K
  highstep : Int
  lowstep : Int
  tapsNearFrom : K
  bandwidth : Option K
  bandcenter : Option K
  pt : Option K
  ct : Option K
  percentZ : Option K
  xr : Option K
  resistance : Option K
  xhl : Option K
  windings : List (RegWinding K)
  fromElement : Option Text
  toElement : Option Text
  deriving DecidableEq

/-- the row after `ToLowerCase`: ditto/readers/synergi/db_parser.py:50-55 -/
def lowerReg (r : RegRow K) : RegRow K := { r with id := lower r.id, sec := lower r.sec, type := lower r.type, phases := lower r.phases }

/-- the row after `ToLowerCase`: ditto/readers/synergi/db_parser.py:50-55 -/
def lowerDevReg (d : DevRegRow K) : DevRegRow K := { d with name := lower d.name, code := lower d.code }

/-- the feeder of a regulator: ditto/readers/synergi/read.py:2187-2195. Texts are lower case, so `replace("Reg", "")` changes nothing. -/
def regFeeder (feeders : List (Text × Text)) (r : RegRow K) : Option Text :=
  match find feeders r.sec with
  | some f => some f
  | none => find feeders (Net.pyStrip r.id)

/-- the last row of the warehouse with this name: ditto/readers/synergi/read.py:2277-2282 -/
def regType (devs : List (DevRegRow K)) (type : Text) : Option (DevRegRow K) := devs.reverse.find? fun d => d.name = type

/-- the last section with this name: ditto/readers/synergi/read.py:2354-2358 -/
def lastSection (secs : List SecRow) (name : Text) : Option SecRow := secs.reverse.find? fun s => s.id = name

/-- the phases of a winding: ditto/readers/synergi/read.py:2213, 2337-2348 -/
def regPhases (t : Text) : List Char := ((Net.pyStrip t).filter fun c => c ≠ 'N').map Char.toUpper

section
variable [Field K] [LinearOrder K]

/-- one value out of the three ones: ditto/readers/synergi/read.py:2222-2246, 2251-2275 -/
def bandOf (b : K × K × K) : Option K :=
  match [b.1, b.2.1, b.2.2].filter fun x => x ≠ 0 with
  | [] => none
  | x :: l => if ∀ y ∈ l, y = x then some x else some (l.foldl min x)

/-- a winding: ditto/readers/synergi/read.py:2315-2351 -/
def regWinding (phases : Text) (d : Option (DevRegRow K)) : RegWinding K :=
  ⟨d.map fun d => upper (d.code.take 1), d.map fun d => d.kv * 1000, d.map fun d => d.kva * 1000, regPhases phases⟩

/-- the regulator of a row: ditto/readers/synergi/read.py:2178-2370. `sqrt` is the square root. -/
def readReg (sqrt : K → K) (feeders subs : List (Text × Text)) (secs : List SecRow) (devs : List (DevRegRow K)) (r : RegRow K) : SynReg K :=
  let d := regType devs r.type
  let sec := lastSection secs r.sec
  ⟨clean r.id, regFeeder feeders r, substationOf subs (regFeeder feeders r), r.delay, r.high, -r.low, r.tapsNearFrom, bandOf r.widths, bandOf r.centers,
    d.map (·.pt), d.map (·.ct), d.map (·.percentZ), d.map (·.xr), d.map fun d => sqrt (d.percentZ ^ 2 / (d.xr ^ 2 + 1)),
    d.map fun d => sqrt (d.percentZ ^ 2 / (d.xr ^ 2 + 1)) * d.xr, [regWinding r.phases d, regWinding r.phases d],
    sec.map fun s => clean s.fromNode, sec.map fun s => clean s.toNode⟩

/-- the tables of a database that regulators depend on -/
structure RegDb (K : Type) where
  /-- FeederId and SubstationId of InstFeeders -/
  feederTable : List (Text × Text)
  secs : List SecRow
  regs : List (RegRow K)
  devs : List (DevRegRow K)

/-- the regulators of a database: ditto/readers/synergi/read.py:192-218, 529-579, 2178-2370, without the errors of other tables -/
def readRegs (sqrt : K → K) (db : RegDb K) : Py (List (SynReg K)) :=
  match sectionFeeders (db.secs.map lowerSec) with
  | .error e => .error e
  | .ok feeders =>
    .ok ((db.regs.map lowerReg).map (readReg sqrt feeders (feederSubstations (db.feederTable.map fun f => (lower f.1, lower f.2))) (db.secs.map lowerSec)
      (db.devs.map lowerDevReg)))

end
end
end Ditto.Syn
