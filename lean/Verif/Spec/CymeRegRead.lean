import Verif.Spec.CymeSources
import Verif.Spec.CymeLoads
import Verif.Spec.CymeRegWrite
import Verif.Model.CymeRegRead

/-! What the regulators of a CYME file are, independent of the reader. -/
namespace Ditto.Cyme.Spec
open Ditto Glm Cyme

/-- the number in a column, if there is one -/
def NumberAt {N : Type} (num : Text → Option N) (cols row : List Text) (k : Text) (v : Option N) : Prop :=
  (∀ c, Cell cols row k c → v = num c) ∧ ((¬∃ c, Cell cols row k c) → v = none)

/-- the column for a phase: `vseta` for phase A -/
def columnOf (k : Text) (p : Char) : Text := k ++ [p.toLower]

/-- the bandwidth of the equipment -/
def EquipmentBand {N : Type} (num : Text → Option N) (ecols erow : List Text) (v : Option N) : Prop :=
  ((∃ c, Cell ecols erow "forwardbandwidth".toList c) → NumberAt num ecols erow "forwardbandwidth".toList v) ∧
  ((¬∃ c, Cell ecols erow "forwardbandwidth".toList c) → NumberAt num ecols erow "bandwidth".toList v)

/-- the bandwidth for a phase: its own one, or that of the equipment -/
def BandAt {N : Type} (num : Text → Option N) (cols row ecols erow : List Text) (p : Char) (v : Option N) : Prop :=
  (∀ c, Cell cols row (columnOf "bandwidth".toList p) c → v = num c) ∧
  ((¬∃ c, Cell cols row (columnOf "bandwidth".toList p) c) → EquipmentBand num ecols erow v)

/-- a winding of the regulator for phase `p`; its voltage is left out -/
structure WindingOk {N : Type} [Semiring N] (num : Text → Option N) (cols row ecols erow : List Text) (p : Char) (w : ReadWinding N) : Prop where
  power : Kilo num ecols erow "kva".toList w.power
  connection : (∀ c, Inner cols row "conn".toList c → w.connection = wiring c) ∧ ((¬∃ c, Cell cols row "conn".toList c) → w.connection = none)
  phase : w.phase = p

/-- what a row of the settings refers to -/
structure Refers (secs : List (Text × Values)) (feeders : List (Text × Text)) (cols row : List Text) (erows : List (List Text))
    (ends : Values) (feeder phases : Text) (erow : List Text) : Prop where
  section_ : getEntry ((keyOf row).map Char.toLower) secs = some ends
  phased : ∃ t, getEntry "phase".toList ends = some t
  network : getEntry ((keyOf row).map Char.toLower) feeders = some feeder
  on : Inner cols row "phaseon".toList phases
  equipment : ∃ eq, Inner cols row "eqid".toList eq ∧ FirstRow erows eq erow

/-- the regulator for phase `p` of a row of the settings, with the row of its equipment -/
structure RegulatorOk {N : Type} [Semiring N] (num : Text → Option N) (ends : Values) (feeder : Text) (cols row ecols erow : List Text) (p : Char)
    (r : ReadRegulator N) : Prop where
  name : r.name = "Reg_".toList ++ (keyOf row).map Char.toLower ++ "_".toList ++ [p]
  feeder : r.feeder = feeder
  start : r.start = getEntry "fromnodeid".toList ends
  stop : r.stop = getEntry "tonodeid".toList ends
  phase : r.phase = p
  pt : NumberAt num cols row "pt".toList r.pt
  ct : NumberAt num cols row "ct".toList r.ct
  center : NumberAt num cols row (columnOf "vset".toList p) r.center
  band : BandAt num cols row ecols erow p r.band
  windings : ∃ a b, r.windings = [a, b] ∧ WindingOk num cols row ecols erow p a ∧ WindingOk num cols row ecols erow p b

/-! ### what the writer writes -/

/-- a table in a file, with an empty line after it or the end of the file -/
def WrittenTable (header format : Text) (rows content : List Text) : Prop :=
  ∃ pre rest, content = pre ++ (header ++ ['\n']) :: (format ++ ['\n']) :: (rows.map (fun r => r ++ ['\n']) ++ rest) ∧
    (∀ l ∈ pre ++ rest, ¬header <:+: l) ∧ (rest = [] ∨ ∃ post, rest = ['\n'] :: post)

def settingFormat : Text :=
  ("FORMAT_REGULATORSETTING=SectionID,CoordX,CoordY,PhaseON,BandWidth,CT,PT,VsetA,VsetB,VsetC,EqID,DeviceNumber,Location,MaxBuck,MaxBoost," ++
    "SettingOption,RsetA,RsetB,RsetC,XsetA,XsetB,XsetC,TapA,TapB,TapC,ConnectionStatus").toList

def regulatorFormat : Text := "FORMAT_REGULATOR=ID,KVA,Bandwidth,CT,PT,Type,KVLN,MaxBuck,MaxBoost,Taps,Reversible".toList

/-- the regulator has values that can stand in a row -/
structure Printable (hash : Text → Text) (r : RegIn) : Prop where
  numbers : ∀ p ∈ r.phases, CellText p.2.1 ∧ CellText p.2.2
  place : CellText (placeOf r.place).1 ∧ CellText (placeOf r.place).2
  values : CellText (orEmpty r.band) ∧ CellText (orEmpty r.ct) ∧ CellText (orEmpty r.pt) ∧ CellText (orEmpty r.setpoint) ∧ CellText r.kva ∧
    CellText r.kvln
  name : CellText (sectionOf hash r) ∧ Net.pyStrip (sectionOf hash r) = sectionOf hash r ∧ '*' ∉ sectionOf hash r

/-- what is read back for phase `p` of the regulators `g` on a section -/
def ReadBack {N : Type} [Semiring N] (num : Text → Option N) (sec feeder : Text) (ends : Values) (g : List RegIn) (p : Char) (reg : ReadRegulator N) :
    Prop :=
  reg.name = "Reg_".toList ++ sec.map Char.toLower ++ "_".toList ++ [p] ∧ reg.feeder = feeder ∧ reg.start = getEntry "fromnodeid".toList ends ∧
  reg.stop = getEntry "tonodeid".toList ends ∧ reg.phase = p ∧
  ∀ r ∈ g, reg.pt = r.pt.bind num ∧ reg.ct = r.ct.bind num ∧ reg.center = r.setpoint.bind num ∧ reg.band = r.band.bind num ∧
    reg.windings = List.replicate 2 ⟨(num r.kva).map fun x => 1000 * x, none, num r.kvln, p⟩

end Ditto.Cyme.Spec
