import Verif.Model.SynTables
import Verif.Model.OpenClose
import Mathlib.Algebra.Field.Defs

/-! Transformers of Synergi databases: ditto/readers/synergi/read.py, the part of `parse` that reads the tables InstPrimaryTransformers and DevTransformers. -/
namespace Ditto.Syn
open Ditto Glm

section
variable {K : Type}

/-- a row of the table InstPrimaryTransformers; `highNearFrom` tells whether HighSideNearFromNode is 1 -/
structure TrafoRow where
  id : Text
  sec : Text
  type : Text
  highNearFrom : Bool
  highCode : Text
  lowCode : Text
  tertCode : Text
  deriving DecidableEq

/-- a row of the table DevTransformers; `three` and `tertiary` tell whether IsThreePhaseUnit and EnableTertiary are 1 -/
structure DevTrafoRow (K : Type) where
  name : Text
  pt : K
  percentZ : K
  percentR : K
  three : Bool
  tertiary : Bool
  highCode : Text
  lowCode : Text
  tertCode : Text
  highKv : K
  lowKv : K
  kva : K
  emergencyKva : K
  deriving DecidableEq

/-- a winding of ditto -/
structure SynWinding (K : Type) where
  resistance : K
  connection : Text
  voltage : K
  rated : K
  emergency : K
  phases : List Char
  deriving DecidableEq

/-- a transformer of ditto -/
structure SynTrafo (K : Type) where
  name : Text
  feeder : Option Text
  substation : Option Text
  fromElement : Option Text
  toElement : Option Text
  pt : Option K
  reactances : List K
  windings : List (SynWinding K)
  deriving DecidableEq

/-- the row after `ToLowerCase`: ditto/readers/synergi/db_parser.py:50-55 -/
def lowerTrafo (r : TrafoRow) : TrafoRow := ⟨lower r.id, lower r.sec, lower r.type, r.highNearFrom, lower r.highCode, lower r.lowCode, lower r.tertCode⟩

/-- the row after `ToLowerCase`: ditto/readers/synergi/db_parser.py:50-55 -/
def lowerDevTrafo (d : DevTrafoRow K) : DevTrafoRow K :=
  { d with name := lower d.name, highCode := lower d.highCode, lowCode := lower d.lowCode, tertCode := lower d.tertCode }

/-- the feeder of a transformer: ditto/readers/synergi/read.py:1622-1633. Texts are lower case, so `replace("Tran", "")` changes nothing. -/
def trafoFeeder (feeders : List (Text × Text)) (r : TrafoRow) : Option Text :=
  match find feeders r.sec with
  | some f => some f
  | none => find feeders (Net.pyStrip r.id)

/-- `code[:1].upper()` -/
def codeLetter (t : Text) : Text := upper (t.take 1)

/-- the connection of the primary winding: ditto/readers/synergi/read.py:1738-1749. `i` is the place of the transformer in its table, `count` the
place of its type in the warehouse. -/
def primaryConnection (rows : List TrafoRow) (devs : List (DevTrafoRow K)) (i count : Nat) : Py Text :=
  match devs[i]? with
  | none => .error .keyError
  | some d =>
    match rows[if 0 < d.highCode.length then i else count]? with
    | none => .error .keyError
    | some r => .ok (codeLetter r.highCode)

/-- the connection of the secondary winding: ditto/readers/synergi/read.py:1759-1770 -/
def secondaryConnection (rows : List TrafoRow) (devs : List (DevTrafoRow K)) (i count : Nat) : Py Text :=
  match devs[i]? with
  | none => .error .keyError
  | some d =>
    if 0 < d.lowCode.length then .ok (codeLetter d.lowCode)
    else
      match rows[count]? with
      | none => .error .keyError
      | some r => .ok (codeLetter r.lowCode)

/-- the phases of a winding: ditto/readers/synergi/read.py:1720-1722, 1815-1819 -/
def windingPhases (t : Text) : List Char := (upper (t.filter fun c => c ≠ ' ')).filter fun c => c ≠ 'N'

section
variable [Field K]

/-- the windings of a transformer: ditto/readers/synergi/read.py:1714-1822. The power of a tertiary winding is a whole column, which the trait refuses;
its connection is found before that, without an error. -/
def readWindings (rows : List TrafoRow) (devs : List (DevTrafoRow K)) (phases : Text) (i count : Nat) (d : DevTrafoRow K) : Py (List (SynWinding K)) :=
  match primaryConnection rows devs i count with
  | .error e => .error e
  | .ok c1 =>
    match secondaryConnection rows devs i count with
    | .error e => .error e
    | .ok c2 =>
      if d.three ∧ d.tertiary then .error .traitError
      else .ok [⟨d.percentR, c1, d.highKv * 1000, d.kva * 1000, d.emergencyKva * 1000, windingPhases phases⟩,
        ⟨d.percentR, c2, d.lowKv * 1000, d.kva * 1000, d.emergencyKva * 1000, windingPhases phases⟩]

/-- the place of the type in the warehouse: ditto/readers/synergi/read.py:1680-1688 -/
def typePlace (devs : List (DevTrafoRow K)) (type : Text) : Option Nat := devs.findIdx? fun d => d.name = type

/-- the transformer of a row: ditto/readers/synergi/read.py:1610-1822. `sqrt` is the square root, none for negative numbers. -/
def readTrafo (sqrt : K → Option K) (feeders subs phases : List (Text × Text)) (secs : List SecRow) (rows : List TrafoRow) (devs : List (DevTrafoRow K))
    (i : Nat) (r : TrafoRow) : Py (SynTrafo K) :=
  let name := clean (r.id.filter fun c => c ≠ ',')
  let feeder := trafoFeeder feeders r
  let sec := firstSection secs r.sec
  let fromE := sec.map fun s => clean (if r.highNearFrom then s.fromNode else s.toNode)
  let toE := sec.map fun s => clean (if r.highNearFrom then s.toNode else s.fromNode)
  match typePlace devs r.type with
  | none => .ok ⟨name, feeder, substationOf subs feeder, fromE, toE, none, [], []⟩
  | some count =>
    match devs[count]? with
    | none => .error .keyError
    | some d =>
      match sqrt (d.percentZ ^ 2 - d.percentR ^ 2) with
      | none => .error .valueError
      | some x =>
        match find phases r.sec with
        | none => .error .keyError
        | some p =>
          match readWindings rows devs p i count d with
          | .error e => .error e
          | .ok ws => .ok ⟨name, feeder, substationOf subs feeder, fromE, toE, some d.pt, [x], ws⟩

/-- the loop over the transformers from the `i`-th on: ditto/readers/synergi/read.py:1610 -/
def trafosFrom (sqrt : K → Option K) (feeders subs phases : List (Text × Text)) (secs : List SecRow) (rows : List TrafoRow) (devs : List (DevTrafoRow K)) :
    Nat → List TrafoRow → Py (List (SynTrafo K))
  | _, [] => .ok []
  | i, r :: rest =>
    match readTrafo sqrt feeders subs phases secs rows devs i r with
    | .error e => .error e
    | .ok t =>
      match trafosFrom sqrt feeders subs phases secs rows devs (i + 1) rest with
      | .error e => .error e
      | .ok l => .ok (t :: l)

/-- the tables of a database that transformers depend on -/
structure TrafoDb (K : Type) where
  /-- FeederId and SubstationId of InstFeeders -/
  feederTable : List (Text × Text)
  secs : List SecRow
  trafos : List TrafoRow
  devs : List (DevTrafoRow K)

/-- the transformers of a database: ditto/readers/synergi/read.py:192-220, 227-229, 285-333, 1610-1822, without the errors of other tables -/
def readTrafos (sqrt : K → Option K) (db : TrafoDb K) : Py (List (SynTrafo K)) :=
  match sectionFeeders (db.secs.map lowerSec) with
  | .error e => .error e
  | .ok feeders =>
    match sectionPhases (db.secs.map lowerSec) with
    | .error e => .error e
    | .ok phases =>
      trafosFrom sqrt feeders (feederSubstations (db.feederTable.map fun f => (lower f.1, lower f.2))) phases (db.secs.map lowerSec)
        (db.trafos.map lowerTrafo) (db.devs.map lowerDevTrafo) 0 (db.trafos.map lowerTrafo)

end
end
end Ditto.Syn
