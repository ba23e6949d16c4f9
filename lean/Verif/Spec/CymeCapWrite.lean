import Verif.Spec.CymeRegWrite
import Verif.Spec.CymeRegRead
import Verif.Model.CymeCapWrite
import Verif.Model.CymeCaps

/-! What the capacitors in a CYME file should say, independent of the writer. -/
namespace Ditto.Cyme.Spec
open Ditto Glm Cyme

/-- the section of a capacitor: the names of its nodes, or their digest if they are long -/
def sectionOfCap {K : Type} (hash : Text → Text) (c : CapIn K) : Text :=
  let name := c.element ++ "_".toList ++ c.name
  if name.length ≤ 64 then name else hash name

/-- the letters of the phases -/
def capLetters {K : Type} (c : CapIn K) : Text := c.phases.map (·.1)

/-- the codes of the ways of control -/
def capModes : List (Text × Text) :=
  [("currentflow".toList, "2".toList), ("voltage".toList, "1".toList), ("activepower".toList, "4".toList), ("reactivepower".toList, "7".toList),
    ("timescheduled".toList, "6".toList)]

/-- the code for the way of control, 0 for one that is not known, in any case of the letters -/
def IsMode (mode : Option Text) (code : Text) : Prop :=
  match mode with
  | none => code = []
  | some m => (m.map Char.toLower, code) ∈ capModes ∨ (∀ p ∈ capModes, p.1 ≠ m.map Char.toLower) ∧ code = "0".toList

section numbers
variable {K : Type} [Field K] [LinearOrder K]

/-- the vars of a phase -/
def varFor (c : CapIn K) (p : Char) : Option K := (c.phases.find? fun x => x.1 = p).bind (·.2)

/-- the power of a phase in kvar -/
def kvarFor (pr : K → Text) (c : CapIn K) (p : Char) : Text := orEmpty ((varFor c p).map fun x => pr (x / 1000))

/-- The voltage in kV, between a line and neutral if there are several phases. `s3` is the square root of 3. -/
def kvFor (pr : K → Text) (s3 : K) (c : CapIn K) (v : K) : Text := if c.phases.length = 1 then pr (v / 1000) else pr (v / 1000 / s3)

/-- The capacitor has phases A, B and C, or some of them, each at most once. -/
structure PhasesOk (c : CapIn K) : Prop where
  letters : ∀ p ∈ capLetters c, p = 'A' ∨ p = 'B' ∨ p = 'C'
  once : (capLetters c).Nodup

/-- The capacitor also has power. -/
structure CapOk (c : CapIn K) : Prop extends PhasesOk c where
  power : 0 < (c.phases.filterMap (·.2)).sum

/-- the cells of a row of the settings after the voltage -/
def lastCells (pr : K → Text) (hash : Text → Text) (c : CapIn K) (code eq : Text) : List Text :=
  let low := orEmpty (c.low.map pr)
  let high := orEmpty (c.high.map pr)
  [code, low, low, low, high, high, high, sectionOfCap hash c, eq, "S".toList, "0".toList]

/-- the cells of a row of the settings before the voltage -/
def firstCells (pr : K → Text) (hash : Text → Text) (c : CapIn K) : List Text :=
  [sectionOfCap hash c, orEmpty c.connection, kvarFor pr c 'A', kvarFor pr c 'B', kvarFor pr c 'C']

/-- the vars that the equipment has: those of the last phase that has any -/
def IsOneVar (c : CapIn K) (x : K) : Prop :=
  varFor c 'C' = some x ∨ varFor c 'C' = none ∧ (varFor c 'B' = some x ∨ varFor c 'B' = none ∧ varFor c 'A' = some x)

/-- the row of the equipment `eq`, with the power `x` of a phase and the voltage `v` of the capacitor -/
def capEquipment (pr : K → Text) (s3 : K) (eq : Text) (c : CapIn K) (x v : K) : List Text :=
  [eq, pr (x / 1000), kvFor pr s3 c v, "0".toList, "0".toList, "0".toList]

/-- the name of the section and the connection can stand in a row -/
structure CapText (hash : Text → Text) (c : CapIn K) : Prop where
  section_ : CellText (sectionOfCap hash c) ∧ Net.pyStrip (sectionOfCap hash c) = sectionOfCap hash c ∧ '*' ∉ sectionOfCap hash c
  connection : c.connection = some "Y".toList ∨ c.connection = some "D".toList

/-- the numbers of a capacitor can be read as they are printed -/
def Reads (num : Text → Option K) (pr : K → Text) (s3 : K) (c : CapIn K) : Prop :=
  (∀ p x, varFor c p = some x → num (pr (x / 1000)) = some (x / 1000)) ∧ ∀ v, c.voltage = some v → num (pr (v / 1000 / s3)) = some (v / 1000 / s3)

/-- The sections and feeders have that of the capacitor, with its phases and its element. -/
def OnSection (hash : Text → Text) (secs : List (Text × Values)) (feeders : List (Text × Text)) (c : CapIn K) (feeder : Text) : Prop :=
  ∃ ends, getEntry ((sectionOfCap hash c).map Char.toLower) secs = some ends ∧ getEntry "phase".toList ends = some (capLetters c) ∧
    getEntry "fromnodeid".toList ends = some c.element ∧ getEntry ((sectionOfCap hash c).map Char.toLower) feeders = some feeder

/-- the capacitor that is read back -/
def capBack (hash : Text → Text) (feeder : Text) (c : CapIn K) : ReadCapacitor K where
  name := "Cap_".toList ++ (sectionOfCap hash c).map Char.toLower
  element := some c.element
  feeder := feeder
  control := none
  connection := c.connection
  reactance := none
  voltage := c.voltage
  phases := c.phases

end numbers

def capSettingFormat : Text :=
  ("FORMAT_SHUNTCAPACITORSETTING=SectionID,Connection,SwitchedKVARA,SwitchedKVARB,SwitchedKVARC,KV,Control,OnValueA,OnValueB,OnValueC,OffValueA," ++
    "OffValueB,OffValueC,DeviceNumber,ShuntCapacitorID,Location,ConnectionStatus").toList

def capFormat : Text := "FORMAT_SHUNTCAPACITOR=ID,KVAR,KV,CostForFixedBank,CostForSwitchedBank,Type".toList

end Ditto.Cyme.Spec
