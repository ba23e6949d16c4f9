import Verif.Spec.CymeRegWrite
import Verif.Spec.CymeTrafos
import Verif.Model.CymeTrafoWrite

/-! What the transformers in a CYME file should say, independent of the writer. -/
namespace Ditto.Cyme.Spec
open Ditto Glm Cyme

/-- the section of a transformer: the names of its nodes, or their digest if they are long -/
def sectionBetween (hash : Text → Text) (a b : Text) : Text :=
  let name := a ++ "_".toList ++ b
  if name.length ≤ 64 then name else hash name

/-- the numbers of a transformer with two windings: power, voltage and percentage of resistance of both windings, and the percentage of reactance -/
structure TwoNumbers where
  s1 : ℝ
  s2 : ℝ
  v1 : ℝ
  v2 : ℝ
  r1 : ℝ
  r2 : ℝ
  x : ℝ

/-- a transformer between two nodes with two windings and these numbers, and with at most three phases -/
structure TwoFull (t : TrafoIn) (start stop : Text) (a b : WindingIn) (n : TwoNumbers) : Prop where
  start : t.start = some start
  stop : t.stop = some stop
  plain : t.centerTap = false
  windings : t.windings = [a, b]
  power1 : a.power = some n.s1
  power2 : b.power = some n.s2
  voltage1 : a.voltage = some n.v1
  voltage2 : b.voltage = some n.v2
  resistance1 : a.resistance = some n.r1
  resistance2 : b.resistance = some n.r2
  reactance : t.reactances = [n.x]
  phases : a.phases.length ≤ 3
  positive : 0 < n.s1

/-- The resistance in ohms, seen from the first winding: a percentage is one of the square of the voltage of its winding over the power of its winding. -/
noncomputable def ohmsR (n : TwoNumbers) : ℝ := n.r1 / 100 * (n.v1 ^ 2 / n.s1) + (n.v1 / n.v2) ^ 2 * (n.r2 / 100 * (n.v2 ^ 2 / n.s2))

/-- the reactance in ohms, seen from the first winding -/
noncomputable def ohmsX (n : TwoNumbers) : ℝ := n.x / 100 * (n.v1 ^ 2 / n.s1)

/-- An impedance of `z` percent with the ratio `xr` of reactance and resistance is that of the transformer: both percentages are of the first winding. -/
def SaysImpedance (n : TwoNumbers) (z xr : ℝ) : Prop :=
  ∃ r x, Ratio z xr r x ∧ r / 100 * (n.v1 ^ 2 / n.s1) = ohmsR n ∧ x / 100 * (n.v1 ^ 2 / n.s1) = ohmsX n

/-- the codes of the connections of two windings: in the settings and in the equipment -/
def connectionCodes : List (Text × Text × Text × Text) :=
  [("Y".toList, "Y".toList, "0".toList, "0".toList), ("D".toList, "Y".toList, "1".toList, "1".toList), ("Y".toList, "D".toList, "6".toList, "2".toList),
    ("D".toList, "D".toList, "2".toList, "4".toList), ("Y".toList, "Z".toList, "11".toList, "11".toList), ("D".toList, "Z".toList, "12".toList, "12".toList)]

/-- the windings are connected in this way -/
def WindingsConnected (a b : WindingIn) (code : Text × Text × Text × Text) : Prop := a.connection = some code.1 ∧ b.connection = some code.2.1

/-- the type of a transformer with this number of phases -/
def typeCode (n : Nat) : Text := if n = 1 then "1".toList else if n = 3 then "2".toList else "3".toList

/-- voltages are between lines if there are three phases -/
def unitCode (n : Nat) : Text := if n = 3 then "0".toList else "1".toList

/-- the letters of the phases -/
def windingLetters (w : WindingIn) : Text := w.phases.filterMap (·.1)

/-- the tap: one over its position at the first phase of the second winding -/
def IsTap (pr : ℝ → Text) (b : WindingIn) (tap : Text) : Prop :=
  (∀ p x rest, b.phases = (p, some x) :: rest → x ≠ 0 → tap = pr (1 / x)) ∧
  ((¬∃ p x rest, b.phases = (p, some x) :: rest ∧ x ≠ 0) → tap = [])

/-- the losses without load in kW, for a percentage of the power -/
noncomputable def lossOf (pr : ℝ → Text) (loss : Option ℝ) (power : ℝ) : Text := orEmpty (loss.map fun l => pr (l / 100 * (power / 1000)))

/-- the row of the settings, with the names of its columns -/
def settingCells (sec : Text) (place : Option (Text × Text)) (conn letters eq shift tap : Text) : List (Text × Text) :=
  [("SectionID".toList, sec), ("CoordX".toList, (placeOf place).1), ("CoordY".toList, (placeOf place).2), ("Conn".toList, conn),
    ("PhaseON".toList, letters), ("EqID".toList, eq), ("DeviceNumber".toList, sec), ("PhaseShiftType".toList, shift), ("Location".toList, "M".toList),
    ("PrimTap".toList, "100".toList), ("SecondaryTap".toList, "100".toList), ("ODPrimPh".toList, "None".toList), ("ConnectionStatus".toList, "0".toList),
    ("Tap".toList, tap), ("SetPoint".toList, []), ("ControlType".toList, []), ("LowerBandwidth".toList, []), ("UpperBandwidth".toList, []),
    ("Maxbuck".toList, []), ("Maxboost".toList, [])]

/-- the row of the equipment, with the names of its columns -/
def deviceCells (eq type kva unit prim sec z xr conn loss shift : Text) : List (Text × Text) :=
  [("ID".toList, eq), ("Type".toList, type), ("KVA".toList, kva), ("VoltageUnit".toList, unit), ("KVLLprim".toList, prim), ("KVLLsec".toList, sec),
    ("Z1".toList, z), ("Z0".toList, z), ("XR".toList, xr), ("XR0".toList, xr), ("Conn".toList, conn), ("WindingType".toList, "1".toList),
    ("NoLoadLosses".toList, loss), ("PhaseShift".toList, shift), ("IsLTC".toList, "0".toList)]

/-- the text of a row -/
def rowText (cells : List (Text × Text)) : Text := joinCells (cells.map (·.2))

/-- The row `row` of the settings and the row `line` of the equipment `eq` are those of the transformer, with the impedance `z` percent and the ratio
`xr`, and with the codes `cs` and `ce` for the connections. -/
def TwoRows (pr : ℝ → Text) (hash : Text → Text) (t : TrafoIn) (start stop : Text) (a b : WindingIn) (n : TwoNumbers) (z xr : ℝ) (cs ce shift : Text)
    (eq row line : Text) : Prop :=
  ∃ tap, IsTap pr b tap ∧
    row = rowText (settingCells (sectionBetween hash start stop) t.place cs (windingLetters a) eq shift tap) ∧
    line = rowText (deviceCells eq (typeCode a.phases.length) (pr (n.s1 / 1000)) (unitCode a.phases.length) (pr (n.v1 / 1000)) (pr (n.v2 / 1000))
      (pr z) (pr xr) ce (lossOf pr t.noload n.s1) shift)

/-- the shift of the phases: only between star and delta -/
def shiftCode (code : Text × Text × Text × Text) : Text := if code.1 = code.2.1 then "0".toList else "1".toList

/-- a center tap transformer with one phase and three windings, with the resistances and reactances `x12`, `x13`, `x23` between the windings -/
structure CenterFull (t : TrafoIn) (start stop : Text) (a b c : WindingIn) (s v1 v2 v3 r1 r2 r3 x12 x13 x23 : ℝ) : Prop where
  start : t.start = some start
  stop : t.stop = some stop
  center : t.centerTap = true
  windings : t.windings = [a, b, c]
  power : a.power = some s
  voltages : a.voltage = some v1 ∧ b.voltage = some v2 ∧ c.voltage = some v3
  resistances : a.resistance = some r1 ∧ b.resistance = some r2 ∧ c.resistance = some r3
  reactances : t.reactances = [x12, x13, x23]
  phase : a.phases.length = 1

/-- the rows of a center tap transformer: its second voltage is that of both halves -/
def CenterRows (pr : ℝ → Text) (hash : Text → Text) (t : TrafoIn) (start stop : Text) (a b : WindingIn) (s v1 v2 v3 z xr : ℝ) (eq row line : Text) :
    Prop :=
  ∃ tap, IsTap pr b tap ∧
    row = rowText (settingCells (sectionBetween hash start stop) t.place "15".toList (windingLetters a) eq "0".toList tap) ∧
    line = rowText (deviceCells eq "4".toList (pr (s / 1000)) "1".toList (pr (v1 / 1000)) (pr (v2 / 1000 + v3 / 1000)) (pr z) (pr xr) "0".toList
      (lossOf pr t.noload s) "0".toList)

/-- The rows are those of the transformer. The windings of one with two windings have the same power and some resistance. A center tap transformer
whose whole resistance and reactance are `r` and `x` has half of the resistance and four fifths of the reactance in the first winding. -/
structure RowsOf (pr : ℝ → Text) (hash : Text → Text) (t : TrafoIn) (eq row line : Text) : Prop where
  two : ∀ start stop a b n, TwoFull t start stop a b n → ∀ code ∈ connectionCodes, WindingsConnected a b code → code.2.1 ≠ "Z".toList →
    ∃ z xr, TwoRows pr hash t start stop a b n z xr code.2.2.1 code.2.2.2 (shiftCode code) eq row line ∧
      (n.s1 = n.s2 → n.v1 ≠ 0 → n.v2 ≠ 0 → 0 < n.r1 + n.r2 → SaysImpedance n z xr)
  center : ∀ start stop a b c s v1 v2 v3 r1 r2 r3 x12 x13 x23, CenterFull t start stop a b c s v1 v2 v3 r1 r2 r3 x12 x13 x23 → r1 ≠ 0 →
    ∃ z xr, CenterRows pr hash t start stop a b s v1 v2 v3 z xr eq row line ∧
      ∀ r x, 0 < r → r1 = r / 2 → (x12 + x13 - x23) / 2 = 4 / 5 * x → Ratio z xr r x

/-- a transformer that can be written whatever the others are -/
def Writable (t : TrafoIn) : Prop :=
  (∃ start stop a b n, TwoFull t start stop a b n) ∨
  ∃ start stop a b c s v1 v2 v3 r1 r2 r3 x12 x13 x23, CenterFull t start stop a b c s v1 v2 v3 r1 r2 r3 x12 x13 x23 ∧ r1 ≠ 0

/-- the names, coordinates and phases of the transformer can stand in a row, and the name of its section in the first column -/
structure TrafoText (hash : Text → Text) (t : TrafoIn) : Prop where
  section_ : ∀ start stop, t.start = some start → t.stop = some stop → CellText (sectionBetween hash start stop) ∧
    Net.pyStrip (sectionBetween hash start stop) = sectionBetween hash start stop ∧ '*' ∉ sectionBetween hash start stop
  place : CellText (placeOf t.place).1 ∧ CellText (placeOf t.place).2
  letters : ∀ w ∈ t.windings, CellText (windingLetters w)

/-- the reader knows the section of the transformer -/
def KnowsSection (hash : Text → Text) (secs : List (Text × Values)) (feeders : List (Text × Text)) (t : TrafoIn) : Prop :=
  ∀ start stop, t.start = some start → t.stop = some stop → ∃ ends feeder phases,
    getEntry ((sectionBetween hash start stop).map Char.toLower) secs = some ends ∧ getEntry "phase".toList ends = some phases ∧
    getEntry ((sectionBetween hash start stop).map Char.toLower) feeders = some feeder

/-- the lines before the rows -/
def trafoSettingFormat : Text :=
  ("FORMAT_TRANSFORMERSETTING=SectionID,CoordX,CoordY,Conn,PhaseON,EqID,DeviceNumber,PhaseShiftType,Location,PrimTap,SecondaryTap,ODPrimPh," ++
    "ConnectionStatus,Tap,SetPoint,ControlType,LowerBandwidth,UpperBandwidth,Maxbuck,Maxboost").toList

def trafoFormat : Text :=
  "FORMAT_TRANSFORMER=ID,Type,KVA,VoltageUnit,KVLLprim,KVLLsec,Z1,Z0,XR,XR0,Conn,WindingType,NoLoadLosses,PhaseShift,IsLTC".toList

end Ditto.Cyme.Spec
