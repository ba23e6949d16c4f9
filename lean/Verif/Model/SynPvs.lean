import Verif.Model.SynRegs
import Verif.Model.SynLoads
import Verif.Model.OpenClose

/-! Photovoltaics of Synergi databases: ditto/readers/synergi/read.py:2565-2923. The code at 2378-2557 is a text that is never run. -/
namespace Ditto.Syn
open Ditto Glm

section
variable {K : Type}

/-- a row of the table InstLargeCust, as far as photovoltaics depend on it: ditto/readers/synergi/read.py:595-603 -/
structure PvCustRow (K : Type) where
  device : Text
  sec : Text
  genType : Text
  kw : K × K × K
  kvar : K × K × K
  deriving DecidableEq

/-- a row of the table InstGenerators: ditto/readers/synergi/read.py:661-673 -/
structure GenRow (K : Type) where
  id : Text
  sec : Text
  phases : Text
  genType : Text
  pf : K
  kw : K × K × K
  kvar : K × K × K
  deriving DecidableEq

/-- a row of the table InstDGens: ditto/readers/synergi/read.py:649-658 -/
structure DGenRow (K : Type) where
  sec : Text
  genType : Text
  volt : K
  pf : K
  kw : K × K × K
  kvar : K × K × K
  deriving DecidableEq

/-- a row of the table DevGenerators: ditto/readers/synergi/read.py:675-678 -/
structure GenDevRow (K : Type) where
  name : Text
  kind : Text
  kv : K
  kw : K
  deriving DecidableEq

/-- the rows after `ToLowerCase`: ditto/readers/synergi/db_parser.py:50-55 -/
def lowerPvCust (c : PvCustRow K) : PvCustRow K := { c with device := lower c.device, sec := lower c.sec, genType := lower c.genType }

/-- the rows after `ToLowerCase`: ditto/readers/synergi/db_parser.py:50-55 -/
def lowerGen (g : GenRow K) : GenRow K :=
  { g with id := lower g.id, sec := lower g.sec, phases := lower g.phases, genType := lower g.genType }

/-- the rows after `ToLowerCase`: ditto/readers/synergi/db_parser.py:50-55 -/
def lowerDGen (g : DGenRow K) : DGenRow K := { g with sec := lower g.sec, genType := lower g.genType }

/-- the rows after `ToLowerCase`: ditto/readers/synergi/db_parser.py:50-55 -/
def lowerGenDev (d : GenDevRow K) : GenDevRow K := { d with name := lower d.name, kind := lower d.kind }

/-- a photovoltaic of ditto -/
structure SynPv (K : Type) where
  name : Text
  feeder : Option Text
  substation : Option Text
  phases : List Char
  ratedPower : K
  activeRating : Option K
  reactiveRating : Option K
  connecting : Option Text
  voltage : K
  control : Option Text
  powerFactor : Option K
  deriving DecidableEq

/-- whether a generation type means a photovoltaic: ditto/readers/synergi/read.py:2570, and 2674-2677 -/
def isSolar (t : Text) : Bool := t = "photovoltaic".toList || t = "photovoltaic 3p".toList

/-- `x.lower().replace(" ", "-")`: ditto/readers/synergi/read.py:2680 -/
def dashed (t : Text) : Text := (lower t).map fun c => if c = ' ' then '-' else c

section
variable [Field K] [DecidableEq K]

/-- the phases with active power: ditto/readers/synergi/read.py:2590-2598, and in the same way 2695-2704, 2875-2883 -/
def kwLetters (x : K × K × K) : List Char :=
  (if x.1 ≠ 0 then ['A'] else []) ++ (if x.2.1 ≠ 0 then ['B'] else []) ++ if x.2.2 ≠ 0 then ['C'] else []

/-- a letter is appended if it is not there: ditto/readers/synergi/read.py:2711-2712 -/
def addLetter (q : K) (c : Char) (ps : List Char) : List Char := if q ≠ 0 then (if c ∉ ps then ps ++ [c] else ps) else ps

/-- the phases with reactive power are added: ditto/readers/synergi/read.py:2711-2719, and in the same way 2891-2899 -/
def kvarLetters (q : K × K × K) (ps : List Char) : List Char := addLetter q.2.2 'C' (addLetter q.2.1 'B' (addLetter q.1 'A' ps))

/-- the sum of the values that are not zero: ditto/readers/synergi/read.py:2589-2598, 2604-2610, and in the same way 2694-2719, 2874-2899 -/
def sumOf (x : K × K × K) : K := (if x.1 ≠ 0 then x.1 else 0) + (if x.2.1 ≠ 0 then x.2.1 else 0) + if x.2.2 ≠ 0 then x.2.2 else 0

/-- the voltage at the connecting element: ditto/readers/synergi/read.py:2629-2668, and in the same way 2737-2776. Without connecting element or
line, `None` is subscripted. -/
def pvVoltage (rnd : K → K) (volts : List (Text × K × List Char)) (n : Nat) : Option Text → Py K
  | none => .error .typeError
  | some c =>
    match find volts c with
    | none => .error .typeError
    | some (v, phases) => .ok (voltageAt rnd n v phases)

/-- the photovoltaic of a large customer: ditto/readers/synergi/read.py:2572-2668 -/
def readPvCust (rnd : K → K) (feeders subs : List (Text × Text)) (volts : List (Text × K × List Char)) (secs : List SecRow) (c : PvCustRow K) :
    Py (SynPv K) :=
  let connecting := (firstSection secs c.sec).map fun s => unblank s.toNode
  match pvVoltage rnd volts (kwLetters c.kw).length connecting with
  | .error e => .error e
  | .ok v => .ok ⟨clean c.device, find feeders c.sec, substationOf subs (find feeders c.sec), kwLetters c.kw, sumOf c.kw * 1000, none,
      some (sumOf c.kvar * 1000), connecting, v, none, none⟩

/-- the photovoltaic of a generator whose type says that it is one: ditto/readers/synergi/read.py:2679-2776 -/
def readGen (rnd : K → K) (feeders subs : List (Text × Text)) (volts : List (Text × K × List Char)) (secs : List SecRow) (g : GenRow K) :
    Py (SynPv K) :=
  let phases := kvarLetters g.kvar (kwLetters g.kw)
  let connecting := (lastSection secs g.sec).map fun s => clean s.toNode
  match pvVoltage rnd volts phases.length connecting with
  | .error e => .error e
  | .ok v => .ok ⟨dashed g.id, find feeders g.sec, substationOf subs (find feeders g.sec), phases, sumOf g.kw * 1000, none, some (sumOf g.kvar * 1000),
      connecting, v, none, none⟩

/-- the photovoltaic of a generator whose device is one: ditto/readers/synergi/read.py:2797-2848 -/
def devicePv (rnd : K → K) (feeders subs : List (Text × Text)) (secs : List SecRow) (g : GenRow K) (d : GenDevRow K) : SynPv K :=
  let phases := upper (Net.pyStrip g.phases)
  { name := clean g.id
    feeder := find feeders g.sec
    substation := substationOf subs (find feeders g.sec)
    phases := phases
    ratedPower := d.kw * 1000
    activeRating := none
    reactiveRating := none
    connecting := (lastSection secs g.sec).map fun s => clean s.toNode
    voltage := if phases.length = 1 then rnd (d.kv * 1000 / (1732 / 1000)) else d.kv * 1000
    control := none
    powerFactor := some (g.pf / 100) }

/-- the photovoltaics of a row of InstGenerators: ditto/readers/synergi/read.py:2671-2848. `Count` is reset for each device, so that each device
with the right name counts. -/
def readGens (rnd : K → K) (feeders subs : List (Text × Text)) (volts : List (Text × K × List Char)) (secs : List SecRow) (devs : List (GenDevRow K))
    (g : GenRow K) : Py (List (SynPv K)) :=
  if isSolar g.genType then
    match readGen rnd feeders subs volts secs g with
    | .error e => .error e
    | .ok p => .ok [p]
  else .ok ((devs.filter fun d => g.genType = d.name && lower d.kind = "pv".toList).map (devicePv rnd feeders subs secs g))

/-- the photovoltaic of a distributed generator: ditto/readers/synergi/read.py:2860-2923 -/
def dgenPv (feeders : List (Text × Text)) (secs : List SecRow) (g : DGenRow K) : SynPv K where
  name := clean g.sec
  feeder := find feeders g.sec
  substation := none
  phases := kvarLetters g.kvar (kwLetters g.kw)
  ratedPower := sumOf g.kw * 1000
  activeRating := some (sumOf g.kw * 1000)
  reactiveRating := some (sumOf g.kvar * 1000)
  connecting := (lastSection secs g.sec).map fun s => clean s.toNode
  voltage := g.volt * 1000
  control := some "powerfactor".toList
  powerFactor := some (g.pf * (1 / 100))

/-- the photovoltaics of a row of InstDGens, none or one: ditto/readers/synergi/read.py:2852-2923. The last device with the right name counts. -/
def readDGen (feeders : List (Text × Text)) (secs : List SecRow) (devs : List (GenDevRow K)) (g : DGenRow K) : List (SynPv K) :=
  match devs.reverse.find? fun d => g.genType = d.name with
  | none => []
  | some d => if d.kind = "pv".toList then [dgenPv feeders secs g] else []

/-- the tables of a database that photovoltaics depend on -/
structure PvDb (K : Type) where
  /-- FeederId and SubstationId of InstFeeders -/
  feederTable : List (Text × Text)
  /-- SectionId of InstRegulators and InstPrimaryTransformers -/
  skipped : List Text
  secs : List SecRow
  cust : List (PvCustRow K)
  gens : List (GenRow K)
  dgens : List (DGenRow K)
  devs : List (GenDevRow K)

/-- the tables after `ToLowerCase`: ditto/readers/synergi/db_parser.py:39-42, 50-55 -/
def lowerPvDb (db : PvDb K) : PvDb K :=
  ⟨db.feederTable.map fun f => (lower f.1, lower f.2), db.skipped.map lower, db.secs.map lowerSec, db.cust.map lowerPvCust, db.gens.map lowerGen,
    db.dgens.map lowerDGen, db.devs.map lowerGenDev⟩

/-- the photovoltaics of a database whose texts are in lower case: ditto/readers/synergi/read.py:2565-2923, without the errors of other tables -/
def pvsOfTables (rnd : K → K) (num : Text → Option K) (db : PvDb K) : Py (List (SynPv K)) :=
  match sectionFeeders db.secs with
  | .error e => .error e
  | .ok feeders =>
    match nodeVoltages num [] (db.secs.filter fun s => s.id ∉ db.skipped) with
    | .error e => .error e
    | .ok volts =>
      match (db.cust.filter fun c => isSolar c.genType).mapM (readPvCust rnd feeders (feederSubstations db.feederTable) volts db.secs) with
      | .error e => .error e
      | .ok a =>
        match db.gens.mapM (readGens rnd feeders (feederSubstations db.feederTable) volts db.secs db.devs) with
        | .error e => .error e
        | .ok b => .ok (a ++ b.flatten ++ db.dgens.flatMap (readDGen feeders db.secs db.devs))

/-- the photovoltaics of a database: ditto/readers/synergi/read.py:121-2923 -/
def readPvs (rnd : K → K) (num : Text → Option K) (db : PvDb K) : Py (List (SynPv K)) := pvsOfTables rnd num (lowerPvDb db)

end
end
end Ditto.Syn
