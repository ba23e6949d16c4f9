import Verif.Model.SynTables
import Mathlib.Algebra.Field.Defs
import Mathlib.Data.List.Sort

/-! Sources and nodes of Synergi databases: ditto/readers/synergi/read.py, the parts of `parse` that read the tables InstFeeders, InstSubstationTransformers
and Node. -/
namespace Ditto.Syn
open Ditto Glm

section
variable {K : Type}

/-- a row of the table InstFeeders -/
structure FeederRow (K : Type) where
  id : Text
  substation : Text
  kv : K
  connection : Text
  level : K
  /-- PosSequenceResistance, PosSequenceReactance -/
  pos : K × K
  /-- ZeroSequenceResistance, ZeroSequenceReactance -/
  zero : K × K
  angle : K
  deriving DecidableEq

/-- a row of the table InstSubstationTransformers: NominalKvll, BusVoltageLevel, ByPhVoltDegPh1 -/
structure SubtransRow (K : Type) where
  kv : K
  level : K
  angle : K
  deriving DecidableEq

/-- a source of ditto -/
structure SynSource (K : Type) where
  name : Text
  substation : Option Text
  voltage : K
  perUnit : K
  phases : List Char
  isSourcebus : Bool
  connection : Text
  angle : K
  z1 : K × K
  z0 : K × K
  connecting : Text
  deriving DecidableEq

/-- the row after `ToLowerCase`: ditto/readers/synergi/db_parser.py:50-55 -/
def lowerFeeder (r : FeederRow K) : FeederRow K := { r with id := lower r.id, substation := lower r.substation, connection := lower r.connection }

section
variable [Field K]

/-- the source of the `i`-th feeder: ditto/readers/synergi/read.py:700-760. The columns of voltages and angles also have the rows of the substation
transformers; the other columns have none there, so that the exception handlers give constants. -/
def readSource (rows : List (FeederRow K)) (trans : List (SubtransRow K)) (i : Nat) (id : Text) : Py (SynSource K) :=
  match (rows.map (fun r => (r.kv, r.level, r.angle)) ++ trans.map fun t => (t.kv, t.level, t.angle))[i]? with
  | none => .error .keyError
  | some (kv, level, angle) =>
    .ok ⟨clean id, find (feederSubstations (rows.map fun r => (r.id, r.substation))) (clean id), kv * 1000, level / 120, ['A', 'B', 'C'], true,
      match rows[i]? with | some r => upper (r.connection.take 1) | none => ['Y'],
      angle,
      match rows[i]? with | some r => r.pos | none => (1 / 100, 1 / 100),
      match rows[i]? with | some r => r.zero | none => (1 / 100, 1 / 100),
      clean id⟩

/-- the loop over the feeders from the `i`-th on: ditto/readers/synergi/read.py:700 -/
def sourcesFrom (rows : List (FeederRow K)) (trans : List (SubtransRow K)) : Nat → List Text → Py (List (SynSource K))
  | _, [] => .ok []
  | i, id :: ids =>
    match readSource rows trans i id with
    | .error e => .error e
    | .ok s =>
      match sourcesFrom rows trans (i + 1) ids with
      | .error e => .error e
      | .ok l => .ok (s :: l)

/-- a row of the table Node -/
structure NodeRow (K : Type) where
  id : Text
  x : K
  y : K
  deriving DecidableEq

/-- the tables of a database that sources and nodes depend on -/
structure HeadDb (K : Type) where
  feeders : List (FeederRow K)
  trans : List (SubtransRow K)
  secs : List SecRow
  nodes : List (NodeRow K)

/-- the sources of a database: ditto/readers/synergi/read.py:147-162, 189-202, 264-281, 700-760. `extra` is the list of the set of the feeders that only
sections have (line 200), whose order is arbitrary. -/
def readSources (db : HeadDb K) (extra : List Text) : Py (List (SynSource K)) :=
  match sectionFeeders (db.secs.map lowerSec) with
  | .error e => .error e
  | .ok _ => sourcesFrom (db.feeders.map lowerFeeder) db.trans 0 ((db.feeders.map lowerFeeder).map (·.id) ++ extra)

end

/-- a node of ditto -/
structure SynNode (K : Type) where
  name : Text
  feeder : Option Text
  substation : Option Text
  long : K
  lat : K
  phases : List Text
  deriving DecidableEq

/-- `a <= b` for texts -/
def textLe : Text → Text → Bool
  | [], _ => true
  | _ :: _, [] => false
  | a :: x, b :: y => if a.toNat < b.toNat then true else if b.toNat < a.toNat then false else textLe x y

/-- the row after `ToLowerCase`: ditto/readers/synergi/db_parser.py:50-55 -/
def lowerNode (r : NodeRow K) : NodeRow K := { r with id := lower r.id }

/-- the phases of a node: ditto/readers/synergi/read.py:800-810; the sections at the node are found in the dictionary of 222-224, whose
keys are different -/
def nodePhases (secs : List SecRow) (id : Text) : List Text :=
  ((((secs.filter fun s => decide (id = s.fromNode ∨ id = s.toNode)).map (·.phases)).dedup).insertionSort fun a b => textLe a b = true).map upper

/-- the node of a row: ditto/readers/synergi/read.py:770-810 -/
def readNode (feeders subs : List (Text × Text)) (secs : List SecRow) (r : NodeRow K) : SynNode K :=
  ⟨clean r.id, find feeders r.id, substationOf subs (find feeders r.id), r.y, r.x, nodePhases secs r.id⟩

/-- the nodes of a database: ditto/readers/synergi/read.py:165-167, 216-224, 770-810 -/
def readNodes (db : HeadDb K) : Py (List (SynNode K)) :=
  match sectionFeeders (db.secs.map lowerSec) with
  | .error e => .error e
  | .ok feeders =>
    .ok ((db.nodes.map lowerNode).map
      (readNode feeders (feederSubstations (db.feeders.map fun r => (lower r.id, lower r.substation))) (db.secs.map lowerSec)))

end
end Ditto.Syn
