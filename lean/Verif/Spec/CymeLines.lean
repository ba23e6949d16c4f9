import Verif.Spec.CymeTable
import Verif.Model.CymeLines

/-! What the lines of a CYME file are, independent of the reader. The rows of the file are given as dictionaries (see C73 for how tables are read). -/
namespace Ditto.Cyme.Spec
open Ditto Glm Cyme

/-- the section of an entry: its key in small letters, without the stars that the reader appends -/
def SectionOf (key sec : Text) : Prop := ∃ k n, '*' ∉ k ∧ key = k ++ List.replicate n '*' ∧ sec = k.map Char.toLower

/-- the section is known, with its network and its phases -/
structure LineSection (secs : List (Text × Values)) (feeders : List (Text × Text)) (key sec : Text) (ends : Values) (feeder phases : Text) : Prop where
  named : SectionOf key sec
  section_ : getEntry sec secs = some ends
  phased : getEntry "phase".toList ends = some phases
  network : getEntry sec feeders = some feeder

/-- no node of the section has a name with `load` in it; both nodes are given, or none -/
def Loadless (settings : Values) : Prop :=
  getEntry "fromnodeid".toList settings = none ∨ ∃ a b, getEntry "fromnodeid".toList settings = some a ∧
    getEntry "tonodeid".toList settings = some b ∧ ¬"load".toList <:+: a.map Char.toLower ∧ ¬"load".toList <:+: b.map Char.toLower

/-- a number of a row, nothing if there is none -/
def numberIn {N : Type} (num : Text → Option N) (d : Values) (k : Text) : Option N := (getEntry k d).bind num

/-- what all lines have -/
structure LineOn {N : Type} (num : Text → Option N) (int : Text → Option ℤ) (sec : Text) (ends : Values) (feeder : Text) (settings : Values)
    (l : ReadLine N) : Prop where
  name : l.name = sec
  start : l.start = getEntry "fromnodeid".toList ends
  stop : l.stop = getEntry "tonodeid".toList ends
  startIndex : l.startIndex = (getEntry "fromnodeindex".toList ends).bind int
  stopIndex : l.stopIndex = (getEntry "tonodeindex".toList ends).bind int
  network : l.feeder = feeder
  length : ∀ x, numberIn num settings "length".toList = some x → l.length = x
  nameclass : l.nameclass = getEntry "eqid".toList settings

/-- the row of that name, empty if there is none -/
def RowFor (table : List (Text × Values)) (name : Option Text) (data : Values) : Prop :=
  (∃ k, name = some k ∧ getEntry k table = some data) ∨ ((∀ k, name = some k → getEntry k table = none) ∧ data = [])

/-- a wire of a phase with the data of its equipment -/
structure WireOf {N : Type} (num : Text → Option N) (data : Values) (phase : Text) (w : LineWire N) : Prop where
  phase : w.phase = phase
  nameclass : w.nameclass = getEntry "id".toList data
  ampacity : w.ampacity = numberIn num data "amps".toList
  emergency : w.emergency = numberIn num data "withstandrating".toList

/-! ### devices -/

/-- types of devices by the tables they stand in -/
def deviceTypes : List (String × Device) :=
  [("switch", .switch), ("sectionalizer", .sectionalizer), ("fuse", .fuse), ("recloser", .recloser), ("breaker", .breaker),
    ("network_protector", .protector)]

/-- the entry is for a device of this kind -/
def IsDevice (settings : Values) (d : Device) : Prop := ∃ t, (t, d) ∈ deviceTypes ∧ getEntry "type".toList settings = some t.toList

/-- the phases that are closed, by their codes -/
def closedBy : List (String × String) :=
  [("0", ""), ("1", "A"), ("2", "B"), ("3", "C"), ("4", "AB"), ("5", "AC"), ("6", "BC"), ("7", "ABC"), ("none", ""), ("NONE", ""), ("A", "A"),
    ("B", "B"), ("C", "C"), ("AB", "AB"), ("AC", "AC"), ("BC", "BC"), ("ABC", "ABC")]

/-- the phases that the row says are closed; all of them if it does not say -/
def ClosedIn (settings : Values) (closed : Text) : Prop :=
  (getEntry "closedphase".toList settings = none ∧ closed = "ABC".toList) ∨
    ∃ c x, (c, x) ∈ closedBy ∧ getEntry "closedphase".toList settings = some c.toList ∧ closed = x.toList

/-- the wires of a device: one for each phase, open unless the phase is closed, and a neutral that is open if all phases are -/
structure DeviceOk {N : Type} [Semiring N] (num : Text → Option N) (d : Device) (data : Values) (closed phases : Text) (l : ReadLine N) : Prop where
  device : l.device = some d
  voltage : l.voltage = (numberIn num data "kvll".toList).map fun x => 1000 * x
  wires : ∃ ws n, l.wires = ws ++ [n] ∧
    List.Forall₂ (fun p w => WireOf num data [p] w ∧ (w.isOpen = false ↔ p ∈ closed)) phases ws ∧
    WireOf num data "N".toList n ∧ (n.isOpen = false ↔ ∃ p ∈ phases, p ∈ closed)
  each : ∀ w ∈ l.wires, w.device = some d ∧ (d ≠ .switch → w.interrupting = numberIn num data "interruptingrating".toList)
  plain : l.lineType = none

/-! ### lines -/

/-- overhead or underground, by the tables the entry stands in -/
def LaidIn (settings : Values) (type : Text) : Prop :=
  (getEntry "type".toList settings ∈ [some "overhead_balanced".toList, some "overhead_unbalanced".toList] ∧ type = "overhead".toList) ∨
    (getEntry "type".toList settings = some "underground".toList ∧ type = "underground".toList)

/-- a line of a table with sequence impedances -/
inductive BalancedData (t : LineTables) (k : Text) : Values → Prop
  | line {d : Values} : getEntry k t.balanced = some d → getEntry "type".toList d = some "balanced_line".toList → getEntry k t.unbalanced = none →
      getEntry k t.concentric = none → getEntry k t.cables = none → BalancedData t k d
  | concentric {d : Values} : getEntry k t.concentric = some d → getEntry k t.cables = none → BalancedData t k d
  | cable {d : Values} : getEntry k t.cables = some d → BalancedData t k d

/-- a line of a table with impedances of each phase -/
structure UnbalancedData (t : LineTables) (k : Text) (d : Values) : Prop where
  row : getEntry k t.unbalanced = some d
  type : getEntry "type".toList d = some "unbalanced_line".toList
  others : getEntry k t.concentric = none ∧ getEntry k t.cables = none

/-- the impedance of a row in the columns `a` and `b` -/
def ImpedanceIn {N : Type} (num : Text → Option N) (d : Values) (a b : Text) (z : N × N) : Prop :=
  numberIn num d a = some z.1 ∧ numberIn num d b = some z.2

/-- The matrix, in ohms per meter, of `n` phases with these sequence impedances in ohms per kilometer: `(z0 + 2 z1) / 3` on the diagonal, and
`(z0 - z1) / 3` elsewhere. -/
def balancedIs {N : Type} [Field N] (z1 z0 : N × N) (n : Nat) : List (List (N × N)) :=
  (List.range n).map fun i => (List.range n).map fun j =>
    if i = j then ((z0.1 + 2 * z1.1) / 3 / 1000, (z0.2 + 2 * z1.2) / 3 / 1000) else ((z0.1 - z1.1) / 3 / 1000, (z0.2 - z1.2) / 3 / 1000)

/-- the columns for two phases -/
def pairColumns : List (Char × Char × String × String) :=
  [('A', 'A', "ra", "xa"), ('B', 'B', "rb", "xb"), ('C', 'C', "rc", "xc"),
    ('A', 'B', "mutualresistanceab", "mutualreactanceab"), ('B', 'A', "mutualresistanceab", "mutualreactanceab"),
    ('B', 'C', "mutualresistancebc", "mutualreactancebc"), ('C', 'B', "mutualresistancebc", "mutualreactancebc"),
    ('C', 'A', "mutualresistanceca", "mutualreactanceca"), ('A', 'C', "mutualresistanceca", "mutualreactanceca")]

/-- the impedance for two phases, in ohms per meter -/
def PairIs {N : Type} [Field N] (num : Text → Option N) (d : Values) (p q : Char) (z : N × N) : Prop :=
  ∃ a b u, (p, q, a, b) ∈ pairColumns ∧ ImpedanceIn num d a.toList b.toList u ∧ z = (u.1 / 1000, u.2 / 1000)

/-- the matrix has a row and a column for each phase, in this order -/
def UnbalancedIs {N : Type} [Field N] (num : Text → Option N) (d : Values) (phases : Text) (m : List (List (N × N))) : Prop :=
  List.Forall₂ (fun p row => List.Forall₂ (fun q z => PairIs num d p q z) phases row) phases m

/-- all impedances of the row are there -/
def Complete {N : Type} (num : Text → Option N) (d : Values) : Prop := ∀ c ∈ pairColumns, ∃ u, ImpedanceIn num d c.2.2.1.toList c.2.2.2.toList u

/-- a line with sequence impedances: one conductor for all phases, and one for the neutral -/
structure BalancedOk {N : Type} [Field N] (num : Text → Option N) (t : LineTables) (d : Values) (phases : Text) (l : ReadLine N) : Prop where
  wires : ∃ ws n c cn, l.wires = ws ++ [n] ∧ RowFor t.conductors (getEntry "phasecondid".toList d) c ∧
    RowFor t.conductors (getEntry "neutralcondid".toList d) cn ∧ List.Forall₂ (fun p w => WireOf num c [p] w) phases ws ∧ WireOf num cn "N".toList n
  impedance : ∀ z1 z0, ImpedanceIn num d "r1".toList "x1".toList z1 → ImpedanceIn num d "r0".toList "x0".toList z0 →
    phases.length = 2 ∨ phases.length = 3 → l.impedance = some (balancedIs z1 z0 phases.length)

/-- a name that is given, and is not `none` -/
def NameGiven (d : Values) (k : Text) (x : Text) : Prop := getEntry k d = some x ∧ x.map Char.toLower ≠ "none".toList

/-- the conductor in a column is known -/
def Known (t : LineTables) (d : Values) (k : Text) (c : Values) : Prop := ∃ x, NameGiven d k x ∧ getEntry x t.conductors = some c

/-- the conductor of a phase, empty if it is not known -/
def ConductorIs (t : LineTables) (d : Values) (k : Text) (c : Values) : Prop := Known t d k c ∨ ((¬∃ c, Known t d k c) ∧ c = [])

/-- the column for the conductor of a phase -/
def conductorColumn (p : Char) : Text := "condid_".toList ++ [p.toLower]

/-- The neutrals of a line: two if both are known, one if only one is. -/
inductive NeutralsAre {N : Type} (num : Text → Option N) (t : LineTables) (d : Values) : List (LineWire N) → Prop
  | two {c1 c2 : Values} {w1 w2 : LineWire N} : Known t d "condid_n1".toList c1 → Known t d "condid_n2".toList c2 →
      WireOf num c1 "N1".toList w1 → WireOf num c2 "N2".toList w2 → NeutralsAre num t d [w1, w2]
  | one {c : Values} {w : LineWire N} : (¬∃ c1 c2, Known t d "condid_n1".toList c1 ∧ Known t d "condid_n2".toList c2) →
      Known t d "condid_n".toList c → WireOf num c "N".toList w → NeutralsAre num t d [w]
  | first {c : Values} {w : LineWire N} : (¬∃ c2, Known t d "condid_n2".toList c2) → (¬∃ c, Known t d "condid_n".toList c) →
      Known t d "condid_n1".toList c → WireOf num c "N".toList w → NeutralsAre num t d [w]
  | none : (¬∃ c, Known t d "condid_n".toList c) → (¬∃ c, Known t d "condid_n1".toList c) → NeutralsAre num t d []

/-- a line with impedances of each phase -/
structure UnbalancedOk {N : Type} [Field N] (num : Text → Option N) (t : LineTables) (d : Values) (phases : Text) (l : ReadLine N) : Prop where
  wires : ∃ ws ns, l.wires = ws ++ ns ∧
    List.Forall₂ (fun p w => ∃ c, ConductorIs t d (conductorColumn p) c ∧ WireOf num c [p] w) phases ws ∧ NeutralsAre num t d ns
  impedance : Complete num d → phases ∈ ["AB".toList, "AC".toList, "BC".toList, "ABC".toList] → ∃ m, l.impedance = some m ∧ UnbalancedIs num d phases m

/-- what an entry of the settings is -/
inductive EntryIs : Type
  | device (d : Device) (data : Values) (closed : Text)
  | balanced (type : Text) (d : Values)
  | unbalanced (type : Text) (d : Values)
  | nothing

/-- what an entry of the settings is, by its rows -/
inductive Describes (t : LineTables) (settings : Values) : EntryIs → Prop
  | device {d : Device} {data : Values} {closed : Text} : IsDevice settings d → RowFor (t.devices d) (getEntry "eqid".toList settings) data →
      ClosedIn settings closed → Describes t settings (.device d data closed)
  | balanced {type k : Text} {d : Values} : LaidIn settings type → getEntry "linecableid".toList settings = some k → BalancedData t k d →
      getEntry "linecableid".toList d = none → Describes t settings (.balanced type d)
  | unbalanced {type k : Text} {d : Values} : LaidIn settings type → getEntry "linecableid".toList settings = some k → UnbalancedData t k d →
      Describes t settings (.unbalanced type d)
  | nothing : getEntry "type".toList settings = none → getEntry "linecableid".toList settings = none →
      getEntry "devicenumber".toList settings = none → Describes t settings .nothing

/-- the line of an entry -/
def LineIs {N : Type} [Field N] (num : Text → Option N) (t : LineTables) (phases : Text) (l : ReadLine N) : EntryIs → Prop
  | .device d data closed => DeviceOk num d data closed phases l
  | .balanced type d => l.device = none ∧ l.lineType = some type ∧ BalancedOk num t d phases l
  | .unbalanced type d => l.device = none ∧ l.lineType = some type ∧ UnbalancedOk num t d phases l
  | .nothing => False

end Ditto.Cyme.Spec
