import Verif.Model.CymeRegWrite
import Mathlib.Algebra.Field.Defs

/-! Loads in the CYME writer: `write_load_file` in ditto/writers/cyme/write.py. -/
namespace Ditto.Cyme
open Ditto Glm

/-- a `PhaseLoad`: ditto/models/phase_load.py:20-51 -/
structure PhaseOut (K : Type) where
  phase : Option Text
  p : Option K
  q : Option K
  drop : Bool := false
deriving DecidableEq

/-- A `Load` with a name and a list of phase loads: ditto/models/load.py:22-141. Numbers are exact, and `10 ** -3` is a division by 1000. -/
structure LoadOut (K : Type) where
  name : Text
  element : Option Text
  connection : Option Text
  /-- `is_center_tap` -/
  tapped : Bool
  /-- `center_tap_perct_1_N`, `center_tap_perct_N_2` and `center_tap_perct_1_2` -/
  first : Option K
  second : Option K
  both : Option K
  phases : List (PhaseOut K)
  /-- the label of the first of the time series -/
  label : Option Text
deriving DecidableEq

section numbers
variable {K : Type} [Field K]

/-- the phase loads that are not dropped: ditto/writers/cyme/write.py:4974 -/
def phasesOut (l : LoadOut K) : List (PhaseOut K) := l.phases.filter fun p => p.drop = false

/-- `phases`: ditto/writers/cyme/write.py:4970, 4976-4981 -/
def phaseText : List (PhaseOut K) → Text
  | [] => []
  | p :: ps =>
    match p.phase with
    | none => phaseText ps
    | some t => t ++ phaseText ps

/-- one phase of a sum: ditto/writers/cyme/write.py:4976-4999 -/
def addKilo (f : PhaseOut K → Option K) (s : K) (p : PhaseOut K) : K :=
  match p.phase, f p with
  | some _, some x => s + x / 1000
  | _, _ => s

/-- `P` or `Q`: ditto/writers/cyme/write.py:4972-4999 -/
def totalKilo (f : PhaseOut K → Option K) (ps : List (PhaseOut K)) : K := ps.foldl (addKilo f) 0

/-- `connection_configuration_mapping`: ditto/writers/cyme/write.py:52-75. None after an exception. -/
def connectionCode (value : Text) : Option Text :=
  if value = "Y".toList then some "0".toList
  else if value = "D".toList then some "2".toList
  else if value = "Z".toList then some "5".toList
  else none

/-- the connection: ditto/writers/cyme/write.py:4953-4969 -/
def connectionField (l : LoadOut K) : Text :=
  match l.connection with
  | none => []
  | some c => if l.tapped then "6".toList else rowValue (connectionCode c)

/-- the section and the number of the device, twice the same: ditto/writers/cyme/write.py:4888-4929. Without an element there is nothing. -/
def loadStart (hash : Text → Text) (l : LoadOut K) : Text :=
  match l.element with
  | none => []
  | some e => sectionId hash e l.name ++ ',' :: sectionId hash e l.name

/-- the row of the load: ditto/writers/cyme/write.py:4929, 4951-4969, 5052 -/
def loadLine (hash : Text → Text) (l : LoadOut K) : Text := loadStart hash l ++ withCommas ["SPOT".toList, connectionField l, "0".toList]

/-- a power that stands in the row unless the load is a center tap: ditto/writers/cyme/write.py:5031-5049. `pr` prints numbers. Simplification: the
integer 0 of a load without phases is printed as other numbers are. -/
def powerField (pr : K → Text) (l : LoadOut K) (x : K) : Text := if l.tapped then [] else pr x

/-- the type of the customer: ditto/writers/cyme/write.py:5055-5071 -/
def customerType (l : LoadOut K) : Text :=
  match l.label with
  | none => "PQ".toList
  | some t => if t = [] then "PQ".toList else t

/-- the fields of a center tap: ditto/writers/cyme/write.py:5073-5096 -/
def tapFields (pr : K → Text) (l : LoadOut K) : List Text :=
  match l.first, l.second, l.both with
  | some a, some b, some _ =>
    if l.tapped then
      [pr (a * 100), pr (b * 100), pr (totalKilo (·.p) (phasesOut l) * a), pr (totalKilo (·.q) (phasesOut l) * a),
        pr (totalKilo (·.p) (phasesOut l) * b), pr (totalKilo (·.q) (phasesOut l) * b)]
    else [[], [], [], [], [], []]
  | _, _, _ => [[], [], [], [], [], []]

/-- the row of the customer load: ditto/writers/cyme/write.py:4926-4928, 4950, 5017-5099 -/
def customerLine (pr : K → Text) (hash : Text → Text) (l : LoadOut K) : Text :=
  loadStart hash l ++ withCommas (["SPOT".toList, "0".toList, phaseText (phasesOut l), powerField pr l (totalKilo (·.p) (phasesOut l)),
    powerField pr l (totalKilo (·.q) (phasesOut l)), "0".toList, customerType l] ++ tapFields pr l ++ ["0".toList])

/-- `mapp`: ditto/writers/cyme/write.py:5008 -/
def nextPhase (phase : Option Text) : Option Char :=
  if phase = some "A".toList then some 'B'
  else if phase = some "B".toList then some 'C'
  else if phase = some "C".toList then some 'A'
  else none

/-- the section of a delta load: ditto/writers/cyme/write.py:5001-5016 -/
def deltaSection (section_ : Text) (l : LoadOut K) : Text :=
  match phasesOut l with
  | [p] =>
    match nextPhase p.phase with
    | none => section_
    | some c => if l.connection = some "D".toList then section_.dropLast ++ sortText (section_.drop (section_.length - 1) ++ [c]) else section_
  | _ => section_

/-- the section that is made for a load, if any: ditto/writers/cyme/write.py:4889-4909, 4982-4983, 5001-5016 -/
def loadSection (hash : Text → Text) (l : LoadOut K) : Option Text :=
  match l.element with
  | none => none
  | some e => some (deltaSection (sectionId hash e l.name ++ withCommas [e, "0".toList, l.name, "0".toList, phaseText (phasesOut l)]) l)

/-- ditto/writers/cyme/write.py:5125-5127 -/
def loadsFormat : Text := "FORMAT_LOADS=SectionID,DeviceNumber,LoadType,Connection,Location".toList

/-- ditto/writers/cyme/write.py:5133-5135 -/
def customersFormat : Text :=
  ("FORMAT_CUSTOMERLOADS=SectionID,DeviceNumber,LoadType,ValueType,LoadPhase,Value1,Value2,CustomerNumber,CustomerType,CenterTapPercent," ++
    "CenterTapPercent2,LoadValue1N1,LoadValue1N2,LoadValue2N1,LoadValue2N2,ConnectionStatus").toList

/-- The lines of the load file, and the sections for the network file: ditto/writers/cyme/write.py:4872-5138. `date` is the current date. Not
represented: the nodes, and the feeders of the sections. -/
def writeLoads (pr : K → Text) (hash : Text → Text) (date : Text) (loads : List (LoadOut K)) : List Text × List Text :=
  (["[GENERAL]\n".toList, "DATE=".toList ++ date ++ ['\n'], "CYME_VERSION=8.02\n".toList, ['\n'], "[SI]\n".toList, ['\n'], "[LOADS]\n".toList,
      loadsFormat ++ ['\n']] ++ loads.map (fun l => loadLine hash l ++ ['\n']) ++
      [['\n'], "[CUSTOMER LOADS]\n".toList, customersFormat ++ ['\n']] ++ loads.map (fun l => customerLine pr hash l ++ ['\n']),
    loads.filterMap (loadSection hash))

end numbers

end Ditto.Cyme
