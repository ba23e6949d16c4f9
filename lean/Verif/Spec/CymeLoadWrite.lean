import Verif.Spec.CymeRegWrite
import Verif.Spec.CymeRegRead
import Verif.Model.CymeLoadWrite
import Mathlib.Algebra.BigOperators.Group.List.Basic

/-! What the loads in a CYME file should say, independent of the writer. -/
namespace Ditto.Cyme.Spec
open Ditto Glm Cyme

section numbers
variable {K : Type} [Field K]

/-- the phase loads that count -/
def phaseLoadsOf (l : LoadOut K) : List (PhaseOut K) := l.phases.filter fun p => p.drop = false

/-- The load is connected to the node `e`, and each of its phase loads has a phase. -/
def Connected (l : LoadOut K) (e : Text) : Prop := l.element = some e ∧ ∀ p ∈ phaseLoadsOf l, p.phase ≠ none

/-- the section of a load between its node and itself: their names, or the digest of them if they are long -/
def sectionOfLoad (hash : Text → Text) (l : LoadOut K) (e : Text) : Text :=
  if (e ++ "_".toList ++ l.name).length ≤ 64 then e ++ "_".toList ++ l.name else hash (e ++ "_".toList ++ l.name)

/-- the phases of a load -/
def loadLetters (l : LoadOut K) : Text := ((phaseLoadsOf l).filterMap (·.phase)).flatten

/-- the power of a load in kW -/
def activeOf (l : LoadOut K) : K := ((phaseLoadsOf l).filterMap (·.p)).sum / 1000

/-- the power of a load in kvar -/
def reactiveOf (l : LoadOut K) : K := ((phaseLoadsOf l).filterMap (·.q)).sum / 1000

/-- the codes of connections -/
def wiringCodes : List (Text × Text) := [("Y".toList, "0".toList), ("D".toList, "2".toList), ("Z".toList, "5".toList)]

/-- the code for the connection: 6 for center taps, and nothing if it is not known -/
def IsLoadWiring (l : LoadOut K) (code : Text) : Prop :=
  match l.connection with
  | none => code = []
  | some c =>
    (l.tapped = true → code = "6".toList) ∧
    (l.tapped = false → (c, code) ∈ wiringCodes ∨ (∀ w ∈ wiringCodes, w.1 ≠ c) ∧ code = [])

/-- columns of the loads with their cells -/
def loadColumns (hash : Text → Text) (l : LoadOut K) (e code : Text) : List (Text × Text) :=
  [("SectionID".toList, sectionOfLoad hash l e), ("DeviceNumber".toList, sectionOfLoad hash l e), ("LoadType".toList, "SPOT".toList),
    ("Connection".toList, code), ("Location".toList, "0".toList)]

/-- the columns of the loads -/
def loadNames : List Text := ["SectionID".toList, "DeviceNumber".toList, "LoadType".toList, "Connection".toList, "Location".toList]

/-- a number, or nothing -/
def shown (pr : K → Text) (x : Option K) : Text := orEmpty (x.map pr)

/-- something of loads that are not center taps -/
def untapped (l : LoadOut K) (x : K) : Option K := if l.tapped = true then none else some x

/-- something of center taps that have all their shares, from the first two of them -/
def ofTap (l : LoadOut K) (f : K → K → K) : Option K :=
  if l.tapped = true ∧ l.both ≠ none then l.first.bind fun a => l.second.map fun b => f a b else none

/-- the type of a customer: the label of the time series, or PQ -/
def typeOf (l : LoadOut K) : Text := if l.label = none ∨ l.label = some [] then "PQ".toList else orEmpty l.label

/-- columns of the customer loads with their cells -/
def customerColumns (pr : K → Text) (hash : Text → Text) (l : LoadOut K) (e : Text) : List (Text × Text) :=
  [("SectionID".toList, sectionOfLoad hash l e), ("DeviceNumber".toList, sectionOfLoad hash l e), ("LoadType".toList, "SPOT".toList),
    ("ValueType".toList, "0".toList), ("LoadPhase".toList, loadLetters l), ("Value1".toList, shown pr (untapped l (activeOf l))),
    ("Value2".toList, shown pr (untapped l (reactiveOf l))), ("CustomerNumber".toList, "0".toList), ("CustomerType".toList, typeOf l),
    ("CenterTapPercent".toList, shown pr (ofTap l fun a _ => a * 100)), ("CenterTapPercent2".toList, shown pr (ofTap l fun _ b => b * 100)),
    ("LoadValue1N1".toList, shown pr (ofTap l fun a _ => activeOf l * a)), ("LoadValue1N2".toList, shown pr (ofTap l fun a _ => reactiveOf l * a)),
    ("LoadValue2N1".toList, shown pr (ofTap l fun _ b => activeOf l * b)), ("LoadValue2N2".toList, shown pr (ofTap l fun _ b => reactiveOf l * b)),
    ("ConnectionStatus".toList, "0".toList)]

/-- the columns of the customer loads -/
def customerNames : List Text :=
  ["SectionID".toList, "DeviceNumber".toList, "LoadType".toList, "ValueType".toList, "LoadPhase".toList, "Value1".toList, "Value2".toList,
    "CustomerNumber".toList, "CustomerType".toList, "CenterTapPercent".toList, "CenterTapPercent2".toList, "LoadValue1N1".toList,
    "LoadValue1N2".toList, "LoadValue2N1".toList, "LoadValue2N2".toList, "ConnectionStatus".toList]

/-- the two phases of a delta load that is on one phase -/
def deltaPairs : List (Text × Text) := [("A".toList, "AB".toList), ("B".toList, "BC".toList), ("C".toList, "AC".toList)]

/-- the phases of the section: two if the load is a delta on one phase, otherwise those of the load -/
def IsOnPhases (l : LoadOut K) (t : Text) : Prop :=
  if l.connection = some "D".toList ∧ (phaseLoadsOf l).length = 1 ∧ ∃ w ∈ deltaPairs, w.1 = loadLetters l then (loadLetters l, t) ∈ deltaPairs else t = loadLetters l

/-- the row has these cells in these columns -/
def HasColumns (cols : List Text) (pairs : List (Text × Text)) (row : List Text) : Prop := pairs.map (·.1) = cols ∧ row = pairs.map (·.2)

/-- a table: its header, the names of the columns and the rows -/
def tableLines (header name : Text) (cols : List Text) (rows : List (List Text)) : List Text :=
  [header ++ ['\n'], name ++ "=".toList ++ joinCells cols ++ ['\n']] ++ rows.map fun r => joinCells r ++ ['\n']

/-- the names of a load can stand in a row -/
structure LoadText (hash : Text → Text) (l : LoadOut K) (e : Text) : Prop where
  section_ : CellText (sectionOfLoad hash l e) ∧ Net.pyStrip (sectionOfLoad hash l e) = sectionOfLoad hash l e ∧ '*' ∉ sectionOfLoad hash l e
  phases : CellText (loadLetters l)
  label : CellText (orEmpty l.label)

end numbers

/-- the load file with these rows -/
def loadFileOf (date : Text) (rows customers : List (List Text)) : List Text :=
  ["[GENERAL]\n".toList, "DATE=".toList ++ date ++ ['\n'], "CYME_VERSION=8.02\n".toList, "\n".toList, "[SI]\n".toList, "\n".toList] ++
    tableLines "[LOADS]".toList "FORMAT_LOADS".toList loadNames rows ++ ["\n".toList] ++
    tableLines "[CUSTOMER LOADS]".toList "FORMAT_CUSTOMERLOADS".toList customerNames customers

end Ditto.Cyme.Spec
