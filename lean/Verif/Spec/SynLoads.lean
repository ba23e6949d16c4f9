import Verif.Model.SynLoads
import Mathlib.Data.List.Forall2
import Mathlib.Algebra.BigOperators.Group.List.Basic

/-! What a Synergi database says about loads. Only the types of tables and results are taken from the model. -/
namespace Ditto.Syn.Spec
open Ditto Glm Syn

/-- names are the same if they only differ in upper and lower case -/
def Same (a b : Text) : Prop := a.map Char.toLower = b.map Char.toLower

instance (a b : Text) : Decidable (Same a b) := inferInstanceAs (Decidable (_ = _))

/-- a name in ditto: lower case, with underscores instead of blanks -/
def shown (t : Text) : Text := t.map fun c => if c = ' ' then '_' else c.toLower

/-- the section is one of the lines: no regulator or transformer is in it -/
def IsLine (skipped : List Text) (secs : List SecRow) (s : SecRow) : Prop := s ∈ secs ∧ ∀ k ∈ skipped, ¬Same k s.id

/-- the section starts or ends at this node of ditto -/
def Touches (s : SecRow) (n : Text) : Prop := shown s.fromNode = n ∨ shown s.toNode = n

/-- the phases of a section, in upper case, without blanks -/
def phasesOf (s : SecRow) : List Char := (s.phases.filter fun c => c ≠ ' ').map Char.toUpper

section
variable {K : Type}

/-- the description of the section ends with its voltage in kV after a dash; `v` is in V -/
def Kv [Field K] (num : Text → Option K) (s : SecRow) (v : K) : Prop :=
  ∃ a b x, s.description.map Char.toLower = a ++ '-' :: b ∧ '-' ∉ b ∧ num b = some x ∧ v = 1000 * x

/-- a load of the database: a row of the table of loads, which has the name of its section, or a large customer -/
structure Demand (K : Type) where
  name : Text
  sec : Text
  kw : K × K × K
  kvar : K × K × K
  deriving DecidableEq

/-- loads and large customers of the categories L and C -/
def demands (db : LoadDb K) : List (Demand K) :=
  (db.loads.map fun r => ⟨r.name, r.name, r.kw, r.kvar⟩) ++
    (db.cust.filter fun c => Same c.category ['L'] ∨ Same c.category ['C']).map fun c => ⟨c.device, c.sec, c.kw, c.kvar⟩

/-- the load has active power -/
def active [Zero K] [DecidableEq K] (d : Demand K) : Bool := decide ¬(d.kw.1 = 0 ∧ d.kw.2.1 = 0 ∧ d.kw.2.2 = 0)

/-- the load is in this section -/
def Site (db : LoadDb K) (d : Demand K) (s : SecRow) : Prop := s ∈ db.secs ∧ Same s.id d.sec

/-- large customers have names of their own -/
structure Separate (db : LoadDb K) : Prop where
  names : ∀ c ∈ db.cust, ∀ s ∈ db.secs, ¬Same c.device s.id
  devices : db.cust.Pairwise fun c d => ¬Same c.device d.device

variable [Field K] [DecidableEq K]

/-- the power of a phase in W and var -/
def phaseOf (d : Demand K) : Char → K × K
  | 'A' => (1000 * d.kw.1, 1000 * d.kvar.1)
  | 'B' => (1000 * d.kw.2.1, 1000 * d.kvar.2.1)
  | 'C' => (1000 * d.kw.2.2, 1000 * d.kvar.2.2)
  | _ => (0, 0)

/-- the voltage of a load with `n` phases at a line with the voltage `v` and these phases: a load with one phase gets the voltage between
phase and neutral of a line with three phases and neutral, and a load with more phases the one between the phases of a line with two phases and
neutral, whose own voltage is the one between phase and neutral -/
def loadVoltage (rnd : K → K) (n : Nat) (v : K) (phases : List Char) : K :=
  if n = 1 ∧ phases.length = 4 then rnd (v / (1732 / 1000))
  else if 2 ≤ n ∧ phases.length = 3 ∧ phases.getLast? = some 'N' then rnd (v * (1732 / 1000))
  else v

/-- `l` is the load `d` at the end of the section `s` -/
structure LoadAt (rnd : K → K) (num : Text → Option K) (db : LoadDb K) (d : Demand K) (s : SecRow) (l : SynLoad K) : Prop where
  name : l.name = "Load_".toList ++ shown d.name
  connecting : l.connecting = some (shown s.toNode)
  feeder : l.feeder = some (shown s.feeder)
  substation : (∀ p ∈ db.feederTable, ∀ q ∈ db.feederTable, shown p.1 = shown q.1 → shown p.2 = shown q.2) →
    ∀ p ∈ db.feederTable, shown p.1 = shown s.feeder → l.substation = some (shown p.2)
  noSubstation : (∀ p ∈ db.feederTable, shown p.1 ≠ shown s.feeder) → l.substation = none
  /-- the phases with active or reactive power, in the order A, B, C -/
  phases : l.phaseLoads.map (·.1) = ['A', 'B', 'C'].filter fun c => phaseOf d c ≠ (0, 0)
  powers : ∀ x ∈ l.phaseLoads, x.2 = phaseOf d x.1
  /-- if all lines at the node have the same voltage and phases -/
  voltage : ∀ v ph, (∀ t, IsLine db.skipped db.secs t → Touches t (shown s.toNode) → Kv num t v ∧ phasesOf t = ph) →
    l.voltage = some (loadVoltage rnd l.phaseLoads.length v ph)
  limits : l.vmin = some (65 / 100) ∧ l.vmax = some (11 / 10)

/-- the sum over three phases -/
def three (x : K × K × K) : K := x.1 + x.2.1 + x.2.2

/-- the whole active power of the database, in kW -/
def totalKw (db : LoadDb K) : K := ((demands db).map fun d => three d.kw).sum

/-- the whole active power of loads in ditto, in W -/
def totalP (ls : List (SynLoad K)) : K := (ls.map fun l => (l.phaseLoads.map fun x => x.2.1).sum).sum

end
end Ditto.Syn.Spec
