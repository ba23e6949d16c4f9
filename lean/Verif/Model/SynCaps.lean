import Verif.Model.SynTables
import Mathlib.Algebra.Field.Defs

/-! Capacitors of Synergi databases: ditto/readers/synergi/read.py, the part of `parse` that reads the table InstCapacitors. -/
namespace Ditto.Syn
open Ditto Glm

section
variable {K : Type}

/-- a row of the table InstCapacitors -/
structure CapRow (K : Type) where
  sec : Text
  name : Text
  kv : K
  connection : Text
  delay : K
  mode : Text
  close : K
  trip : K
  pt : K
  ct : K
  /-- FixedKvarPhase1, FixedKvarPhase2, FixedKvarPhase3 -/
  fixed : K × K × K
  /-- Module1KvarPerPhase -/
  module1 : K
  metering : Text
  phases : Text
  deriving DecidableEq

/-- the row after `ToLowerCase`: ditto/readers/synergi/db_parser.py:50-55 -/
def lowerCap (r : CapRow K) : CapRow K :=
  { r with sec := lower r.sec, name := lower r.name, connection := lower r.connection, mode := lower r.mode, metering := lower r.metering, phases := lower r.phases }

/-- a capacitor of ditto -/
structure SynCap (K : Type) where
  name : Text
  feeder : Option Text
  substation : Option Text
  voltage : K
  connection : Text
  delay : K
  mode : Text
  low : K
  high : K
  pt : K
  ct : K
  measuring : Text
  ptPhase : Text
  connecting : Option Text
  phaseCaps : List (Char × K)
  deriving DecidableEq

/-- the control mode: ditto/readers/synergi/read.py:2084, 2097-2103. The dictionary has only one entry; the assignment to another spelling at 2100
is a comparison without effect. -/
def capMode (m : Text) : Text := if m = "VOLTS".toList then "voltage".toList else "voltage".toList

section
variable [Field K] [DecidableEq K]

/-- the reactive powers of the three phases: ditto/readers/synergi/read.py:2140-2150 -/
def capKvar (r : CapRow K) : List K :=
  [if r.fixed.1 = 0 then r.module1 else r.fixed.1, if r.fixed.2.1 = 0 then r.module1 else r.fixed.2.1, if r.fixed.2.2 = 0 then r.module1 else r.fixed.2.2]

/-- the phases of a capacitor: ditto/readers/synergi/read.py:2153-2156 -/
def capPhases (t : Text) : List Char := if 0 < t.length then upper t else ['A', 'B', 'C']

/-- the loop over the phases: ditto/readers/synergi/read.py:2158-2169. The `t`-th phase of the text gets the `t`-th value. -/
def phaseCapsFrom (q : List K) : Nat → List Char → Py (List (Char × K))
  | _, [] => .ok []
  | t, c :: rest =>
    match q[t]? with
    | none => .error .indexError
    | some x =>
      match phaseCapsFrom q (t + 1) rest with
      | .error e => .error e
      | .ok l => .ok ((c, x * 1000) :: l)

/-- the capacitor of a row: ditto/readers/synergi/read.py:2063-2169 -/
def readCap (feeders subs : List (Text × Text)) (secs : List SecRow) (r : CapRow K) : Py (SynCap K) :=
  match phaseCapsFrom (capKvar r) 0 (capPhases r.phases) with
  | .error e => .error e
  | .ok pcs =>
    .ok ⟨clean r.name, find feeders r.sec, substationOf subs (find feeders r.sec), r.kv * 1000, upper (r.connection.take 1), r.delay, capMode r.mode,
      r.close, r.trip, r.pt, r.ct, lower r.sec, upper r.metering, (firstSection secs r.sec).map fun s => clean s.toNode, pcs⟩

/-- the tables of a database that capacitors depend on -/
structure CapDb (K : Type) where
  /-- FeederId and SubstationId of InstFeeders -/
  feederTable : List (Text × Text)
  secs : List SecRow
  caps : List (CapRow K)

/-- the capacitors of a database: ditto/readers/synergi/db_parser.py:39-42, ditto/readers/synergi/read.py:121-2169, without the errors of other tables -/
def readCaps (db : CapDb K) : Py (List (SynCap K)) :=
  match sectionFeeders (db.secs.map lowerSec) with
  | .error e => .error e
  | .ok feeders =>
    (db.caps.map lowerCap).mapM (readCap feeders (feederSubstations (db.feederTable.map fun f => (lower f.1, lower f.2))) (db.secs.map lowerSec))

end
end
end Ditto.Syn
