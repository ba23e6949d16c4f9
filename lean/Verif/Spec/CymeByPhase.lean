import Verif.Spec.CymeLines
import Verif.Spec.Carson
import Verif.Model.CymeByPhase

/-! What the impedances of a line of a CYME file with conductors by phases are, independent of the reader. -/
namespace Ditto.Cyme.Spec
open Ditto Glm Cyme Ditto.Spec

/-- the position in the columns `x` and `y`, in meters -/
def PlaceIs (num : Text → Option ℝ) (spacing : Values) (x y : Text) (p : ℝ × ℝ) : Prop :=
  numberIn num spacing x = some p.1 ∧ numberIn num spacing y = some p.2

/-- the columns of the phases -/
def phaseColumns : List (Char × String × String) :=
  [('A', "posofcond1_x", "posofcond1_y"), ('B', "posofcond2_x", "posofcond2_y"), ('C', "posofcond3_x", "posofcond3_y")]

/-- the positions of the phases -/
def PlacedBy (num : Text → Option ℝ) (spacing : Values) (phases : Text) (place : Nat → ℝ × ℝ) : Prop :=
  ∀ i p, phases[i]? = some p → ∃ x y, (p, x, y) ∈ phaseColumns ∧ PlaceIs num spacing x.toList y.toList (place i)

/-- the position of the neutral -/
def NeutralAt (num : Text → Option ℝ) (spacing : Values) (p : ℝ × ℝ) : Prop :=
  PlaceIs num spacing "posofneutralcond_x".toList "posofneutralcond_y".toList p

/-- there is no neutral in the table of spacings -/
def NoNeutralAt (spacing : Values) : Prop :=
  getEntry "posofneutralcond_x".toList spacing = none ∨ getEntry "posofneutralcond_y".toList spacing = none

/-- there is no second neutral in the table of spacings: no columns for it, or nothing in them -/
def NoSecond (spacing : Values) : Prop :=
  (∀ x, getEntry "posofneutralcond_n2_x".toList spacing = some x → x = []) ∨ ∀ y, getEntry "posofneutralcond_n2_y".toList spacing = some y → y = []

/-- no two of the first `n` wires are at one place -/
def Apart (n : Nat) (place : Nat → ℝ × ℝ) : Prop := ∀ i < n, ∀ j < n, i ≠ j → place i ≠ place j

/-- the conductor with that name has the radius `v.1` in centimeters, which is not zero, and the resistance `v.2` in ohms per kilometer -/
def ConductorHas (num : Text → Option ℝ) (t : LineTables) (name : Text) (v : ℝ × ℝ) : Prop :=
  ∃ c, getEntry name t.conductors = some c ∧ numberIn num c "gmr".toList = some v.1 ∧ numberIn num c "r25".toList = some v.2 ∧ v.1 ≠ 0

/-- the conductors of the phases -/
def ConductorsAre (num : Text → Option ℝ) (t : LineTables) (settings : Values) (phases : Text) (cond : Nat → ℝ × ℝ) : Prop :=
  ∀ i p, phases[i]? = some p → ∃ k, getEntry (conductorColumn p) settings = some k ∧ ConductorHas num t k (cond i)

/-- the conductor of the neutral has that name -/
def NeutralNamed (settings : Values) (k : Text) : Prop :=
  k ≠ [] ∧ ((getEntry "condid_n".toList settings = some k ∧ k ≠ "NONE".toList) ∨
    (getEntry "condid_n".toList settings = none ∧ NameGiven settings "condid_n1".toList k))

/-- the conductor of the neutral -/
def NeutralHas (num : Text → Option ℝ) (t : LineTables) (settings : Values) (v : ℝ × ℝ) : Prop :=
  ∃ k, NeutralNamed settings k ∧ ConductorHas num t k v

/-- the line has no neutral -/
def NoNeutral (settings : Values) : Prop := getEntry "condid_n".toList settings = none ∧ ¬∃ k, NameGiven settings "condid_n1".toList k

/-- the distance of two places -/
noncomputable def apartBy (p q : ℝ × ℝ) : ℝ := Real.sqrt ((p.1 - q.1) ^ 2 + (p.2 - q.2) ^ 2)

/-- The impedance in ohms per meter, by Carson's equations, for conductors with radii in centimeters and resistances in ohms per kilometer at
places in meters. -/
noncomputable def carsonIs (place cond : Nat → ℝ × ℝ) (i j : Nat) : ℝ × ℝ :=
  let z := if i = j then selfZ (perMile ((cond i).2 / 1000)) (feet ((cond i).1 / 100)) else mutualZ (feet (apartBy (place i) (place j)))
  (z.re / 1609.34, z.im / 1609.34)

/-- the table of spacings of the line -/
def SpacingIs (t : LineTables) (settings spacing : Values) : Prop :=
  ∃ k, getEntry "spacingid".toList settings = some k ∧ getEntry k t.spacings = some spacing

/-- the position of the second neutral -/
def SecondAt (num : Text → Option ℝ) (spacing : Values) (p : ℝ × ℝ) : Prop :=
  PlaceIs num spacing "posofneutralcond_n2_x".toList "posofneutralcond_n2_y".toList p

/-- The entry has conductors by phases: it names no line and no cable, but conductors and a spacing. -/
structure ByPhase (t : LineTables) (settings : Values) : Prop where
  line : getEntry "linecableid".toList settings = none
  cable : ∃ k, getEntry "devicenumber".toList settings = some k ∧ getEntry k t.concentric = none
  conductors : ∀ k ∈ ["condid_a", "condid_b", "condid_c", "spacingid"], ∃ x, getEntry k.toList settings = some x
  neutral : (∃ x, getEntry "condid_n".toList settings = some x) ∨ ∃ x, getEntry "condid_n1".toList settings = some x

/-- the wires of the phases -/
def PhaseWires (num : Text → Option ℝ) (t : LineTables) (settings : Values) (phases : Text) (ws : List (LineWire ℝ)) : Prop :=
  List.Forall₂ (fun p w => ∃ k c, getEntry (conductorColumn p) settings = some k ∧ getEntry k t.conductors = some c ∧ WireOf num c [p] w) phases ws

/-- the wire of the neutral -/
def NeutralWire (num : Text → Option ℝ) (t : LineTables) (settings : Values) (w : LineWire ℝ) : Prop :=
  ∃ k c, NeutralNamed settings k ∧ getEntry k t.conductors = some c ∧ WireOf num c "N".toList w

end Ditto.Cyme.Spec
