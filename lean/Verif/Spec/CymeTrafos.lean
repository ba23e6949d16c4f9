import Verif.Spec.CymeCaps
import Verif.Model.CymeTrafos

/-! What the transformers of a CYME file are, independent of the reader. -/
namespace Ditto.Cyme.Spec
open Ditto Glm Cyme

/-- the number in a column that has one -/
def HasNumber (num : Text → Option ℝ) (cols row : List Text) (k : Text) (x : ℝ) : Prop := ∃ c, Cell cols row k c ∧ num c = some x

/-- a name with the section of the row in it -/
def SectionName (start : Text) (cols row : List Text) (name : Text) : Prop :=
  (∀ c, Inner cols row "sectionid".toList c → name = start ++ c) ∧ ((¬∃ c, Cell cols row "sectionid".toList c) → name = [])

/-- the position of a row, if it has both coordinates -/
def PositionOk (num : Text → Option ℝ) (cols row : List Text) (ps : List (ℝ × ℝ)) : Prop :=
  (∀ x y, HasNumber num cols row "coordx".toList x → HasNumber num cols row "coordy".toList y → ps = [(x, y)]) ∧
  ((¬∃ x y, HasNumber num cols row "coordx".toList x ∧ HasNumber num cols row "coordy".toList y) → ps = [])

/-- what all transformers have; grounding transformers have no coordinates -/
structure TrafoOk (num : Text → Option ℝ) (ends : Values) (feeder : Text) (hs cols row : List Text) (t : ReadTrafo) : Prop where
  name : SectionName "Trans_".toList cols row t.name
  feeder : t.feeder = feeder
  start : t.start = getEntry "fromnodeid".toList ends
  stop : t.stop = getEntry "tonodeid".toList ends
  place : hs ≠ groundSettingQuery.headers → PositionOk num cols row t.positions
  unplaced : hs = groundSettingQuery.headers → t.positions = []

/-- the position of a tap, if the column has a whole number -/
def TapOk (int : Text → Option ℤ) (cols row : List Text) (k : Text) (tap : Option ℤ) : Prop :=
  (∀ c, Cell cols row k c → tap = int c) ∧ ((¬∃ c, Cell cols row k c) → tap = none)

/-- a winding of a transformer with three windings, except for its power -/
structure ThreeOk (num : Text → Option ℝ) (int : Text → Option ℤ) (cols row : List Text) (phases which : Text) (w : TrafoWinding) : Prop where
  voltage : Kilo num cols row (which ++ "basevoltage".toList) w.voltage
  each : ∃ tap, TapOk int cols row (which ++ "fixedtapsetting".toList) tap ∧ w.phases = phases.map fun p => (p, tap)

/-- the connections of the two windings by their codes -/
def windingCodes : List (Text × Text × Text × Text) :=
  [("0".toList, "Y_Y".toList, "Y".toList, "Y".toList), ("1".toList, "D_Y".toList, "D".toList, "Y".toList),
    ("2".toList, "Y_D".toList, "Y".toList, "D".toList), ("3".toList, "YNG_YNG".toList, "Y".toList, "Y".toList),
    ("4".toList, "D_D".toList, "D".toList, "D".toList), ("5".toList, "DO_DO".toList, "D".toList, "D".toList),
    ("6".toList, "YO_DO".toList, "Y".toList, "D".toList), ("7".toList, "D_YNG".toList, "D".toList, "Y".toList),
    ("8".toList, "YNG_D".toList, "Y".toList, "D".toList), ("9".toList, "Y_YNG".toList, "Y".toList, "Y".toList),
    ("10".toList, "YNG_Y".toList, "Y".toList, "Y".toList), ("11".toList, "Yg_Zg".toList, "Y".toList, "Z".toList),
    ("12".toList, "D_Zg".toList, "D".toList, "Z".toList)]

/-- the text is this code, or this name in upper or lower case -/
def IsCode (t : Text) (code : Text × Text × Text × Text) : Prop := t = code.1 ∨ t.map Char.toLower = code.2.1.map Char.toLower

/-- the connections of the two windings -/
def ConnectionsOk (cols row : List Text) (a b : Option Text) : Prop :=
  (∀ t, Inner cols row "conn".toList t →
    (∀ code ∈ windingCodes, IsCode t code → a = some code.2.2.1 ∧ b = some code.2.2.2) ∧
    ((∀ code ∈ windingCodes, ¬IsCode t code) → a = none ∧ b = none)) ∧
  ((¬∃ t, Cell cols row "conn".toList t) → a = none ∧ b = none)

/-- a winding of a transformer with two windings, except for its connection and its resistance -/
structure TwoOk (num : Text → Option ℝ) (ecols erow : List Text) (phases k : Text) (w : TrafoWinding) : Prop where
  power : Kilo num ecols erow "kva".toList w.power
  voltage : Kilo num ecols erow k w.voltage
  each : w.phases = phases.map fun p => (p, none)

/-- the equipment of a transformer with two windings, which is the default one if there is none with its name -/
def TwoDevice (cols row : List Text) (erows : List (List Text)) (erow : List Text) : Prop :=
  ∃ eq, Inner cols row "eqid".toList eq ∧ '*' ∉ eq ∧
    (FirstRow erows eq erow ∨ ((∀ r ∈ erows, keyOf r ≠ eq) ∧ FirstRow erows "DEFAULT".toList erow))

/-- a winding of a grounding transformer, except for its connection -/
structure GroundOk (num : Text → Option ℝ) (ecols : List Text) (e : Option (List Text)) (phases : Text) (w : TrafoWinding) : Prop where
  power : (∀ erow, e = some erow → Kilo num ecols erow "ratedcapacity".toList w.power) ∧ (e = none → w.power = none)
  voltage : (∀ erow, e = some erow → Kilo num ecols erow "ratedvoltage".toList w.voltage) ∧ (e = none → w.voltage = none)
  each : w.phases = phases.map fun p => (p, none)

/-- the equipment of a grounding transformer, if it is known -/
def GroundDevice (cols row : List Text) (erows : List (List Text)) (e : Option (List Text)) : Prop :=
  ∃ eq, Inner cols row "equipmentid".toList eq ∧ '*' ∉ eq ∧
    ((∃ erow, e = some erow ∧ FirstRow erows eq erow) ∨ ((∀ r ∈ erows, keyOf r ≠ eq) ∧ e = none))

/-- the whole part of a number: rounded towards zero -/
def WholePart (x : ℝ) (n : ℤ) : Prop := (0 ≤ x → (n : ℝ) ≤ x ∧ x < n + 1) ∧ (x < 0 → (n : ℝ) - 1 < x ∧ x ≤ n)

/-- what a load tap changer has, except for the range of its steps -/
structure LtcOk (num : Text → Option ℝ) (feeder : Text) (cols row ecols erow : List Text) (t : ReadTrafo) (l : ReadLtc) : Prop where
  name : SectionName "Reg_".toList cols row l.name
  feeder : l.feeder = feeder
  transformer : l.transformer = t.name
  setpoint : HasNumber num cols row "setpoint".toList l.setpoint
  ct : ∃ x, HasNumber num cols row "ct".toList x ∧ WholePart x l.ct
  pt : ∃ x, HasNumber num cols row "pt".toList x ∧ WholePart x l.pt
  band : ∃ lo up, HasNumber num ecols erow "lowerbandwidth".toList lo ∧ HasNumber num ecols erow "upperbandwidth".toList up ∧ l.band = lo + up

/-- no text in the column for load tap changers -/
def NoLtc (ecols erow : List Text) : Prop := (¬∃ c, Cell ecols erow "isltc".toList c) ∨ Inner ecols erow "isltc".toList []

/-- the equipment has the numbers for the impedances -/
def HasImpedance (num : Text → Option ℝ) (ecols erow : List Text) : Prop :=
  ∀ k ∈ ["z1".toList, "z0".toList, "xr".toList, "xr0".toList], ∃ x, HasNumber num ecols erow k x

/-- the cells with the numbers of a load tap changer: columns, row and name of the column -/
def ltcCells (cols row ecols erow : List Text) : List (List Text × List Text × Text) :=
  (["taps".toList, "lowerbandwidth".toList, "upperbandwidth".toList].map fun k => (ecols, erow, k)) ++
    ["maxbuck".toList, "maxboost".toList, "setpoint".toList, "ct".toList, "pt".toList].map fun k => (cols, row, k)

/-- the numbers of a load tap changer can be read -/
def LtcReadable (num : Text → Option ℝ) (cols row ecols erow : List Text) : Prop :=
  ∀ c ∈ ltcCells cols row ecols erow, ∃ x, HasNumber num c.1 c.2.1 c.2.2 x

/-- the column has no number, or there is no such column -/
def Broken (num : Text → Option ℝ) (cols row : List Text) (k : Text) (err : PyErr) : Prop :=
  (err = .valueError ∧ ∃ c, Cell cols row k c ∧ num c = none) ∨ (err = .keyError ∧ ¬∃ c, Cell cols row k c)

/-- Resistance `r` and reactance `x` of an impedance `z`, with the ratio `xr` of the two. -/
def Ratio (z xr r x : ℝ) : Prop := x = xr * r ∧ r * r + x * x = z * z ∧ 0 ≤ r * z

/-- The impedance of a phase for the impedances of the sequences: the product of matrices that turns sequences into phases. -/
noncomputable def phaseImpedance (z0 z1 : ℂ) : ℂ := (fortescue * sequences z0 z1 * fortescue⁻¹) 0 0

/-- the equipment of the rows of an equipment file -/
structure Equipment (ets : List (List Text × Table)) (gcols : List Text) (grows : List (List Text)) (ecols : List Text) (erows : List (List Text)) :
    Prop where
  grounds : TableIs ets groundQuery.headers gcols grows
  twos : TableIs ets twoQuery.headers ecols erows

/-- a row of the settings that can be read -/
structure GoodTrafo (num : Text → Option ℝ) (secs : List (Text × Values)) (feeders : List (Text × Text)) (ecols : List Text) (erows : List (List Text))
    (r : List Text × List Text × List Text) : Prop where
  placed : ∃ ends feeder phases, Placed secs feeders r.2.2 ends feeder phases
  two : r.1 = twoSettingQuery.headers → ∃ erow, TwoDevice r.2.1 r.2.2 erows erow ∧ HasImpedance num ecols erow ∧
    (NoLtc ecols erow ∨ ∃ c, Inner ecols erow "isltc".toList c ∧ c ≠ [] ∧ LtcReadable num r.2.1 r.2.2 ecols erow)
  ground : r.1 = groundSettingQuery.headers → ∃ eq, Inner r.2.1 r.2.2 "equipmentid".toList eq ∧ '*' ∉ eq

end Ditto.Cyme.Spec
