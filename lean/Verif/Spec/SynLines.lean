import Verif.Model.SynLines
import Verif.Spec.SynLoads

/-! What a Synergi database says about lines. Only the types of tables and results are taken from the model. -/
namespace Ditto.Syn.Spec
open Ditto Glm Syn

/-- meters in a short and a medium length, and long lengths in a meter -/
structure Scale where
  short : ℚ
  medium : ℚ
  perLong : ℚ

/-- inches, feet, and miles (english2) or kilofeet; or millimeters, meters and kilometers. C43 compares these numbers with the exact ones. -/
def scaleOf (units : Text) : Option Scale :=
  if Same units "english2".toList then some ⟨0.0254, 0.3048, 1 / 1609.34⟩
  else if Same units "english1".toList ∨ Same units "english".toList then some ⟨0.0254, 0.3048, 3.28084 / 1000⟩
  else if Same units "metric".toList then some ⟨1 / 1000, 1, 1 / 1000⟩
  else none

/-- sections that are lines: no regulator or transformer is in them -/
def lineRows (db : LineDb) : List LineRow := db.lines.filter fun r => decide (∀ k ∈ db.skipped, ¬Same k r.sec.id)

/-- `c` is the only conductor with this name -/
def ConductorIs (db : LineDb) (name : Text) (c : CondRow) : Prop := c ∈ db.conds ∧ Same c.name name ∧ ∀ x ∈ db.conds, Same x.name name → x = c

/-- `c` is the only configuration of the line -/
def ConfigIs (db : LineDb) (r : LineRow) (c : ConfRow) : Prop :=
  r.config ≠ [] ∧ c ∈ db.confs ∧ Same c.name r.config ∧ ∀ x ∈ db.confs, Same x.name r.config → x = c

/-- the name of the conductor of a phase or of the neutral; without an own name the neutral has the conductor of the phases -/
def nameFor (r : LineRow) (phase : Char) : Text := if phase = 'N' ∧ r.neutral ≠ [] then r.neutral else r.conductor

/-- `t` is the kind of line that the note says -/
def KindIs (note t : Text) : Prop :=
  (Same note "underground".toList → t = "underground".toList) ∧ (Same note "overhead".toList → t = "overhead".toList) ∧
    (¬Same note "underground".toList → ¬Same note "overhead".toList → t = "swgearbus".toList)

/-- the kind of line is a part of the name of its wires -/
def kindName (t : Text) : Text :=
  if t = "underground".toList then "Cable_".toList else if t = "overhead".toList then "Wire_".toList else "Swgearbus".toList

/-- the section has no recloser, switch or fuse -/
def NoDevice (db : LineDb) (r : LineRow) : Prop :=
  (∀ d ∈ db.reclosers, ¬Same d.sec r.sec.id) ∧ (∀ d ∈ db.switches, ¬Same d.sec r.sec.id) ∧ ∀ d ∈ db.fuses, ¬Same d.sec r.sec.id

/-- `w` is a wire of the line `l` of the row `r` -/
structure WireAt (db : LineDb) (r : LineRow) (l : SynLine) (w : SynWire) : Prop where
  name : w.nameclass = kindName l.lineType ++ shown (nameFor r w.phase)
  sizes : ∀ c, ConductorIs db (nameFor r w.phase) c → ∀ k, scaleOf db.units = some k →
    w.gmr = some (c.gmr * k.medium) ∧ w.diameter = some (c.diameter * k.short) ∧ w.resistance = some (c.resistance * k.perLong)
  ampacity : NoDevice db r → ∀ c, ConductorIs db (nameFor r w.phase) c → w.ampacity = some c.continuous ∧ w.emergency = some c.interrupt
  /-- the configuration gives the places of the neutral and of the phases, in the order in which they are written; they are left in medium
  lengths -/
  place : ∀ c, ConfigIs db r c → (phasesOf r.sec).Nodup → ∀ i : Nat, (phasesOf r.sec)[i]? = some w.phase → ∀ p : ℚ × ℚ,
    (w.phase = 'N' ∧ p = c.n ∨ w.phase ≠ 'N' ∧ [c.p1, c.p2, c.p3][i]? = some p) → w.x = some p.1 ∧ w.y = some (r.height + p.2)
  /-- without known configuration or conductor these values are missing -/
  noPlace : (∀ c ∈ db.confs, ¬Same c.name r.config) → w.x = none ∧ w.y = none
  noSizes : (∀ c ∈ db.conds, ¬Same c.name (nameFor r w.phase)) → w.gmr = none ∧ w.diameter = none ∧ w.resistance = none ∧ w.concentric = none
  /-- there is a concentric neutral just if the outside diameter is greater than the one of the conductor -/
  concentric : ∀ c, ConductorIs db (nameFor r w.phase) c → (w.concentric.isSome ↔ c.diameter < c.outside)
  /-- its sizes in english units -/
  strands : ∀ c, ConductorIs db (nameFor r w.phase) c → ¬Same db.units "metric".toList → ∀ n, w.concentric = some n → n.strands = c.strandCount ∧
    n.diameter = 0.0254 * c.strandDiameter ∧ n.outside = 0.0254 * c.outside ∧ n.gmr = 0.0254 * (0.7788 * (c.strandDiameter / 2)) ∧
    n.thickness = 0.0254 * ((c.overInsulation - c.diameter) / 2)

/-- `l` is the line of the row `r` -/
structure LineAt (num : Text → Option ℚ) (db : LineDb) (r : LineRow) (l : SynLine) : Prop where
  name : l.name = shown r.sec.id
  ends : l.fromElement = shown r.sec.fromNode ∧ l.toElement = shown r.sec.toNode
  feeder : l.feeder = some (shown r.sec.feeder)
  substation : (∀ p ∈ db.feederTable, ∀ q ∈ db.feederTable, shown p.1 = shown q.1 → shown p.2 = shown q.2) →
    ∀ p ∈ db.feederTable, shown p.1 = shown r.sec.feeder → l.substation = some (shown p.2)
  length : ∃ k, scaleOf db.units = some k ∧ l.length = r.length * k.medium
  kind : KindIs r.note l.lineType
  voltage : Kv num r.sec l.voltage
  /-- one wire for each letter, but none for the neutral of an underground line -/
  letters : l.wires.map (·.phase) = (phasesOf r.sec).filter fun c => ¬(c = 'N' ∧ l.lineType = "underground".toList)
  wires : ∀ w ∈ l.wires, WireAt db r l w

/-- each row has a conductor, a voltage, and two to four letters for phases, the fourth one being the neutral -/
structure Complete (num : Text → Option ℚ) (db : LineDb) : Prop where
  names : db.lines.Pairwise fun r t => ¬Same r.sec.id t.sec.id
  units : (scaleOf db.units).isSome
  voltage : ∀ r ∈ db.lines, ∃ v, Kv num r.sec v
  letters : ∀ r ∈ db.lines, 2 ≤ (phasesOf r.sec).length ∧ (phasesOf r.sec).length ≤ 4
  fourth : ∀ r ∈ db.lines, ∀ c, (phasesOf r.sec)[3]? = some c → c = 'N' ∧ r.neutral ≠ []
  conductors : ∀ r ∈ db.lines, r.conductor ≠ [] ∧ ∃ c ∈ db.conds, Same c.name r.conductor
  /-- no section has two devices of the same sort -/
  reclosers : db.reclosers.Pairwise fun a b => ¬Same a.sec b.sec
  switches : db.switches.Pairwise fun a b => ¬Same a.sec b.sec
  fuses : db.fuses.Pairwise fun a b => ¬Same a.sec b.sec
  types : ∀ s ∈ db.switches, ∃ d ∈ db.devSwitches, Same d.name s.type
  protectors : ∀ p ∈ db.protectors, ∀ t ∈ db.protectorTypes, ¬Same p.2 t

/-! Devices. -/

/-- the section of the line has such a device -/
def HasCut (rows : List CutRow) (r : LineRow) : Prop := ∃ d ∈ rows, Same d.sec r.sec.id

/-- the section of the line has a switch -/
def HasSwitch (db : LineDb) (r : LineRow) : Prop := ∃ d ∈ db.switches, Same d.sec r.sec.id

/-- `d` is the only device in the section of the line -/
def OnlyCut (rows : List CutRow) (r : LineRow) (d : CutRow) : Prop :=
  ∃ a b, rows = a ++ d :: b ∧ Same d.sec r.sec.id ∧ ∀ x ∈ a ++ b, ¬Same x.sec r.sec.id

/-- `d` is the only switch in the section of the line -/
def OnlySwitch (rows : List SwitchRow) (r : LineRow) (d : SwitchRow) : Prop :=
  ∃ a b, rows = a ++ d :: b ∧ Same d.sec r.sec.id ∧ ∀ x ∈ a ++ b, ¬Same x.sec r.sec.id

/-- `d` is the only type of the switch -/
def SwitchTypeIs (db : LineDb) (s : SwitchRow) (d : DevSwitchRow) : Prop :=
  d ∈ db.devSwitches ∧ Same d.name s.type ∧ ∀ x ∈ db.devSwitches, Same x.name s.type → x = d

/-- the devices in the wires of the line `l` of the row `r` -/
structure DevicesAt (db : LineDb) (r : LineRow) (l : SynLine) : Prop where
  recloser : l.isRecloser = true ↔ HasCut db.reclosers r
  isSwitch : l.isSwitch = true ↔ HasSwitch db r
  fuse : l.isFuse = true ↔ HasCut db.fuses r
  /-- the wires are devices of the same sort -/
  wires : ∀ w ∈ l.wires, w.isRecloser = l.isRecloser ∧ w.isSwitch = l.isSwitch ∧ w.isFuse = l.isFuse
  /-- the ratings and the state of the only device -/
  recloserValues : ∀ d, OnlyCut db.reclosers r d → ¬HasSwitch db r → ¬HasCut db.fuses r → ∀ w ∈ l.wires,
    w.ampacity = some d.rating ∧ w.emergency = some d.interrupt ∧ w.interrupting = some d.interrupt ∧ w.isOpen = some d.isOpen
  switchValues : ∀ d t, OnlySwitch db.switches r d → SwitchTypeIs db d t → ¬HasCut db.reclosers r → ¬HasCut db.fuses r → ∀ w ∈ l.wires,
    w.ampacity = some t.continuous ∧ w.emergency = some t.emergency ∧ w.interrupting = none ∧ w.isOpen = some d.isOpen
  fuseValues : ∀ d, OnlyCut db.fuses r d → ∀ w ∈ l.wires,
    w.ampacity = some d.rating ∧ w.emergency = some d.interrupt ∧ w.interrupting = some d.interrupt ∧ w.isOpen = some d.isOpen
  none : NoDevice db r → ∀ w ∈ l.wires, w.interrupting = none ∧ w.isOpen = none

/-! Matrices. -/

/-- the matrix with `n` rows that has `a` on the diagonal and `b` elsewhere -/
def balanced {V : Type} (n : Nat) (a b : V) : List (List V) := (List.range n).map fun i => (List.range n).map fun j => if i = j then a else b

/-- number of letters that are not the neutral -/
def phaseCount (s : SecRow) : Nat := ((phasesOf s).filter (· ≠ 'N')).length

/-- the letters are written in the order A, B, C, N -/
def Ordered (s : SecRow) : Prop := (phasesOf s).Sublist ['A', 'B', 'C', 'N']

/-- impedance matrix in Ohm per meter, from the impedances of the sequences -/
def seqImpedance (n : Nat) (k : Scale) (c : CondRow) : List (List (ℚ × ℚ)) :=
  balanced n ((c.r0 + 2 * c.r1) / 3 * k.perLong, (c.x0 + 2 * c.x1) / 3 * k.perLong) ((c.r0 - c.r1) / 3 * k.perLong, (c.x0 - c.x1) / 3 * k.perLong)

/-- capacitance matrix per meter, from the susceptances of the sequences at 60 Hz -/
def seqCapacitance (n : Nat) (k : Scale) (c : CondRow) : List (List ℚ) :=
  balanced n ((c.b0 + 2 * c.b1) / 3 * k.perLong / 376.9911) ((c.b0 - c.b1) / 3 * k.perLong / 376.9911)

/-- product of complex numbers -/
def times (a b : ℚ × ℚ) : ℚ × ℚ := (a.1 * b.1 - a.2 * b.2, a.1 * b.2 + a.2 * b.1)

/-- the voltages that these currents make -/
def voltagesOf (z : List (List (ℚ × ℚ))) (i : List (ℚ × ℚ)) : List (ℚ × ℚ) := z.map fun row => (List.zipWith times row i).sum

end Ditto.Syn.Spec
