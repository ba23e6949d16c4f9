import Verif.Model.SynTables
import Mathlib.Algebra.Field.Defs

/-! Loads of Synergi databases: ditto/readers/synergi/read.py, the part of `parse` that reads the tables Loads and InstLargeCust. -/
namespace Ditto.Syn
open Ditto Glm

section
variable {K : Type}

/-- a row of the table Loads; kW and kvar of the three phases -/
structure LoadRow (K : Type) where
  name : Text
  kw : K × K × K
  kvar : K × K × K
  deriving DecidableEq

/-- a row of the table InstLargeCust, as far as loads depend on it -/
structure CustRow (K : Type) where
  device : Text
  sec : Text
  category : Text
  kw : K × K × K
  kvar : K × K × K
  deriving DecidableEq

/-- the rows after `ToLowerCase`: ditto/readers/synergi/db_parser.py:50-55 -/
def lowerLoad (r : LoadRow K) : LoadRow K := { r with name := lower r.name }

/-- the rows after `ToLowerCase`: ditto/readers/synergi/db_parser.py:50-55 -/
def lowerCust (c : CustRow K) : CustRow K := { c with device := lower c.device, sec := lower c.sec, category := lower c.category }

/-- whether a large customer is a load: ditto/readers/synergi/read.py:607 -/
def custIsLoad (c : CustRow K) : Bool := upper c.category = ['L'] || upper c.category = ['C']

/-- large customers are appended to the loads: ditto/readers/synergi/read.py:606-628 -/
def allLoadRows (loads : List (LoadRow K)) (cust : List (CustRow K)) : List (LoadRow K) :=
  loads ++ (cust.filter custIsLoad).map fun c => ⟨c.device, c.kw, c.kvar⟩

section
variable [Zero K] [DecidableEq K]

/-- rows without active power: ditto/readers/synergi/read.py:635 -/
def noKw (r : LoadRow K) : Bool := r.kw.1 = 0 && r.kw.2.1 = 0 && r.kw.2.2 = 0

/-- rows without active power are dropped: ditto/readers/synergi/read.py:633-645 -/
def keptRows (rows : List (LoadRow K)) : List (LoadRow K) := rows.filter fun r => !noKw r
end

/-- `x.rsplit("-", 1)[1]`, if there is a second part -/
def afterDash (t : Text) : Option Text := if '-' ∈ t then some (t.reverse.takeWhile fun c => c ≠ '-').reverse else none

section
variable [Field K]

/-- the nominal voltage of a line: ditto/readers/synergi/read.py:887-889. `num` is `float`. -/
def lineVoltage (num : Text → Option K) (description : Text) : Py K :=
  match afterDash description with
  | none => .error .indexError
  | some t =>
    match num t with
    | none => .error .valueError
    | some v => .ok (v * 1000)

/-- the phases of a section: ditto/readers/synergi/read.py:987-992 -/
def secPhases (phases : Text) : List Char := (phases.filter fun c => c ≠ ' ').map Char.toUpper

/-- `node_nominal_voltage_mapping`, the voltage and the phases of the last line at each node: ditto/readers/synergi/read.py:996-1008. The
newest entry is the first one. `secs` are the sections that become lines. -/
def nodeVoltages (num : Text → Option K) : List (Text × K × List Char) → List SecRow → Py (List (Text × K × List Char))
  | d, [] => .ok d
  | d, s :: rest =>
    match lineVoltage num s.description with
    | .error e => .error e
    | .ok v => nodeVoltages num ((clean s.toNode, v, secPhases s.phases) :: (clean s.fromNode, v, secPhases s.phases) :: d) rest

end

/-- the section of a large customer, if no section has the name of the load: ditto/readers/synergi/read.py:1860-1868. The last customer with
this name and a known section counts. -/
def custSection (secs : List SecRow) (cust : List (CustRow K)) (name : Text) : Option SecRow :=
  ((cust.filter fun c => c.device = name).filterMap fun c => firstSection secs c.sec).getLast?

/-- feeder and section of a load: ditto/readers/synergi/read.py:1847-1868 -/
def loadSite (feeders : List (Text × Text)) (secs : List SecRow) (cust : List (CustRow K)) (name : Text) : Py (Option Text × Option SecRow) :=
  match firstSection secs name with
  | some s => .ok (find feeders name, some s)
  | none =>
    match custSection secs cust name with
    | none => .ok (find feeders name, none)
    | some s =>
      match find feeders s.id with
      | none => .error .keyError
      | some f => .ok (some f, some s)

/-- a load of ditto -/
structure SynLoad (K : Type) where
  name : Text
  feeder : Option Text
  substation : Option Text
  connecting : Option Text
  phaseLoads : List (Char × K × K)
  voltage : Option K
  vmin : Option K
  vmax : Option K
  deriving DecidableEq

section
variable [Field K] [DecidableEq K]

/-- the phase loads: ditto/readers/synergi/read.py:1891-1897, 1926-1946 -/
def phaseLoadsOf (r : LoadRow K) : List (Char × K × K) :=
  [('A', r.kw.1 * 1000, r.kvar.1 * 1000), ('B', r.kw.2.1 * 1000, r.kvar.2.1 * 1000), ('C', r.kw.2.2 * 1000, r.kvar.2.2 * 1000)].filter
    fun x => !(x.2.1 = 0 && x.2.2 = 0)

/-- the nominal voltage of a load with `n` phases, where a line has the voltage `v` and these phases: ditto/readers/synergi/read.py:1990-2031.
`rnd` is `round(_, 1)`. -/
def voltageAt (rnd : K → K) (n : Nat) (v : K) (phases : List Char) : K :=
  if n = 1 ∧ phases.length = 4 then rnd (v / (1732 / 1000))
  else if 1 < n ∧ phases.length = 3 ∧ phases.getLast? = some 'N' then rnd (v * (1732 / 1000))
  else v

/-- the load of a row: ditto/readers/synergi/read.py:1837-2035. A node without line gives `None[1]` or `None[0]`, a TypeError. -/
def readLoad (rnd : K → K) (feeders subs : List (Text × Text)) (volts : List (Text × K × List Char)) (secs : List SecRow)
    (cust : List (CustRow K)) (r : LoadRow K) : Py (SynLoad K) :=
  match loadSite feeders secs cust r.name with
  | .error e => .error e
  | .ok (f, none) => .ok ⟨"Load_".toList ++ clean r.name, f, substationOf subs f, none, [], none, none, none⟩
  | .ok (f, some s) =>
    match find volts (clean s.toNode) with
    | none => .error .typeError
    | some (v, phases) =>
      .ok ⟨"Load_".toList ++ clean r.name, f, substationOf subs f, some (clean s.toNode), phaseLoadsOf r,
        some (voltageAt rnd (phaseLoadsOf r).length v phases), some (65 / 100), some (11 / 10)⟩

/-- the loads of a database whose texts are in lower case: ditto/readers/synergi/read.py:121-2035, without the errors of other tables.
`skipped` are the sections of regulators and transformers, which do not become lines (822-823). -/
def loadsOfTables (rnd : K → K) (num : Text → Option K) (feederTable : List (Text × Text)) (skipped : List Text) (secs : List SecRow)
    (loads : List (LoadRow K)) (cust : List (CustRow K)) : Py (List (SynLoad K)) :=
  match sectionFeeders secs with
  | .error e => .error e
  | .ok feeders =>
    match nodeVoltages num [] (secs.filter fun s => s.id ∉ skipped) with
    | .error e => .error e
    | .ok volts => (keptRows (allLoadRows loads cust)).mapM (readLoad rnd feeders (feederSubstations feederTable) volts secs cust)

/-- the tables of a database that loads depend on -/
structure LoadDb (K : Type) where
  /-- FeederId and SubstationId of InstFeeders -/
  feederTable : List (Text × Text)
  /-- SectionId of InstRegulators and InstPrimaryTransformers -/
  skipped : List Text
  secs : List SecRow
  loads : List (LoadRow K)
  cust : List (CustRow K)

/-- the loads of a database: ditto/readers/synergi/db_parser.py:39-42, ditto/readers/synergi/read.py:121-2035 -/
def readLoads (rnd : K → K) (num : Text → Option K) (db : LoadDb K) : Py (List (SynLoad K)) :=
  loadsOfTables rnd num (db.feederTable.map fun f => (lower f.1, lower f.2)) (db.skipped.map lower) (db.secs.map lowerSec)
    (db.loads.map lowerLoad) (db.cust.map lowerCust)

end
end
end Ditto.Syn
