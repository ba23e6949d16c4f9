import Verif.Model.DssMasters
import Verif.Spec.DssFiles

/-! What the master files of feeders should have. -/
namespace Ditto.Spec
open Ditto Ditto.Dss

/-- the base voltage in kV for a nominal voltage in V: voltages below 300 V are those of a phase, others are between phases -/
def lineBase {K : Type} [Field K] [LinearOrder K] (root3 v : K) : K := if v < 300 then v * root3 / 1000 else v / 1000

/-- a list of different voltages in increasing order -/
structure Voltages {K : Type} [LinearOrder K] (l : List K) (P : K → Prop) : Prop where
  sorted : l.Pairwise (· ≤ ·)
  nodup : l.Nodup
  mem : ∀ x, x ∈ l ↔ P x

/-- a node at which a feeder starts: its name and those of feeder and substation -/
structure Start {K : Type} (n : ConnNode K) (name s f : String) : Prop where
  connection : n.connection = true
  name : n.name = some name
  feeder : n.feeder = some f
  substation : n.substation = some s

/-- files are separated by substations and feeders; every feeder of a connection has names that can be used for folders, of which there is just one
connection, and has a folder in which a function has written; functions write one file to a folder -/
structure Startable {K : Type} (m : MasterState K) (nodes : List (ConnNode K)) : Prop where
  feeders : m.sf = true
  substations : m.ss = true
  groups : ∀ p ∈ m.phases, p.groups.Nodup ∧ ∀ g ∈ p.groups, ∃ s f, g = (cleanLower s, cleanLower f) ∧ cleanLower s ≠ ""
  starts : ∀ n ∈ nodes, n.connection = true → ∃ name s f, Start n name s f ∧ cleanLower s ≠ "" ∧ cleanLower f ≠ "" ∧
    m.folders [cleanLower s, cleanLower f] = true ∧ ∃ p ∈ m.phases, (cleanLower s, cleanLower f) ∈ p.groups
  different : nodes.Pairwise fun a b => ∀ na sa fa nb sb fb, Start a na sa fa → Start b nb sb fb → (cleanLower sa, cleanLower fa) ≠ (cleanLower sb, cleanLower fb)

/-- the master file of a feeder starts a circuit at the node and redirects to the files of the feeder, in the order they are written -/
def masterFor {K : Type} [Field K] [LinearOrder K] (m : MasterState K) (n : ConnNode K) (name s f : String) : FeederMaster K :=
  { circuit := some ("feeder_" ++ name)
    bus := cleanName name
    pu := n.setpoint
    kV := n.volt.map (· / 1000)
    redirects := (m.phases.filter fun p => (cleanLower s, cleanLower f) ∈ p.groups).map (·.file)
    bases := feederVoltages m s f
    coords := m.coords }

end Ditto.Spec
