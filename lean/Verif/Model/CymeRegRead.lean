import Verif.Model.CymeSources
import Verif.Model.CymeLoads

/-! The regulators of CYME files: `parse_regulators` in ditto/readers/cyme/read.py. -/
namespace Ditto.Cyme
open Ditto Glm

/-- ditto/readers/cyme/read.py:5007-5025, 5042-5067 -/
def settingQuery : Query where
  headers := ["[REGULATOR SETTING]".toList]
  attrs := ["sectionid".toList, "eqid".toList, "coordx".toList, "coordy".toList, "phaseon".toList, "ct".toList, "pt".toList, "vseta".toList,
    "vsetb".toList, "vsetc".toList, "bandwidtha".toList, "bandwidthb".toList, "bandwidthc".toList, "tapa".toList, "tapb".toList, "tapc".toList,
    "conn".toList]
  mapping := [("sectionid".toList, 0), ("eqid".toList, 2), ("coordx".toList, 7), ("coordy".toList, 8), ("phaseon".toList, 9), ("ct".toList, 12),
    ("pt".toList, 13), ("vseta".toList, 16), ("vsetb".toList, 17), ("vsetc".toList, 18), ("bandwidtha".toList, 25), ("bandwidthb".toList, 26),
    ("bandwidthc".toList, 27), ("tapa".toList, 28), ("tapb".toList, 29), ("tapc".toList, 30), ("conn".toList, 31)]

/-- ditto/readers/cyme/read.py:4993-5006, 5081-5101 -/
def regulatorQuery : Query where
  headers := ["[REGULATOR]".toList]
  attrs := ["id".toList, "type".toList, "kva".toList, "kva_1".toList, "kva_2".toList, "kva_3".toList, "kva_4".toList, "kvln".toList,
    "forwardbandwidth".toList, "bandwidth".toList, "ct".toList, "pt".toList]
  mapping := [("id".toList, 0), ("type".toList, 1), ("kva".toList, 2), ("kva_1".toList, 3), ("kva_2".toList, 4), ("kva_3".toList, 5),
    ("kva_4".toList, 6), ("kvln".toList, 7), ("forwardbandwidth".toList, 11), ("bandwidth".toList, 11), ("ct".toList, 13), ("pt".toList, 14)]

/-- a winding of a regulator, with its phase winding: ditto/models/winding.py:21-59 -/
structure ReadWinding (N : Type) where
  power : Option N
  connection : Option Text
  voltage : Option N
  phase : Char
deriving DecidableEq

/-- A `Regulator`: ditto/models/regulator.py:21-131. Its positions are not represented: none is ever set, because `reg_set` is not bound
(ditto/readers/cyme/read.py:5165-5172). -/
structure ReadRegulator (N : Type) where
  name : Text
  feeder : Text
  start : Option Text
  stop : Option Text
  phase : Char
  pt : Option N
  ct : Option N
  center : Option N
  band : Option N
  windings : List (ReadWinding N)
deriving DecidableEq

/-- a number that is assigned unless there is an exception -/
def valueAt {N : Type} (num : Text → Option N) (d : Values) (k : Text) : Option N :=
  match floatAt num d k with
  | .error _ => none
  | .ok x => some x

/-- the voltage that is kept: ditto/readers/cyme/read.py:5184-5192 -/
def centerOf {N : Type} (num : Text → Option N) (settings : Values) (p : Char) : Option N :=
  if p = 'A' then valueAt num settings "vseta".toList
  else if p = 'B' then valueAt num settings "vsetb".toList
  else if p = 'C' then valueAt num settings "vsetc".toList
  else none

/-- the bandwidth of the equipment: ditto/readers/cyme/read.py:5201-5208 -/
def equipmentBand {N : Type} (num : Text → Option N) (data : Values) : Py N :=
  match getEntry "forwardbandwidth".toList data with
  | some _ => floatAt num data "forwardbandwidth".toList
  | none => floatAt num data "bandwidth".toList

/-- one of the three statements that assign the bandwidth: ditto/readers/cyme/read.py:5195-5208, 5210-5223, 5225-5238 -/
def bandStep {N : Type} (num : Text → Option N) (settings data : Values) (p letter : Char) (k : Text) : Py N :=
  match getEntry k settings with
  | some _ => if p = letter then floatAt num settings k else equipmentBand num data
  | none => equipmentBand num data

/-- The bandwidth: ditto/readers/cyme/read.py:5194-5240. The last assignment before an exception stays. -/
def bandOf {N : Type} (num : Text → Option N) (settings data : Values) (p : Char) : Option N :=
  match bandStep num settings data p 'A' "bandwidtha".toList with
  | .error _ => none
  | .ok a =>
    match bandStep num settings data p 'B' "bandwidthb".toList with
    | .error _ => some a
    | .ok b =>
      match bandStep num settings data p 'C' "bandwidthc".toList with
      | .error _ => some b
      | .ok c => some c

/-- the connection of a winding: ditto/readers/cyme/read.py:5259-5264 -/
def regConnection (settings : Values) : Option Text :=
  match getEntry "conn".toList settings with
  | none => none
  | some t => connectionOf t

/-- a winding: ditto/readers/cyme/read.py:5244-5285 -/
def regWinding {N : Type} [Semiring N] (num : Text → Option N) (settings data : Values) (p : Char) : ReadWinding N where
  power := thousandAt num data "kva".toList
  connection := regConnection settings
  voltage := valueAt num data "kvln".toList
  phase := p

/-- the regulator of a phase: ditto/readers/cyme/read.py:5126-5290 -/
def regulatorOf {N : Type} [Semiring N] (num : Text → Option N) (sec feeder : Text) (ends settings data : Values) (p : Char) :
    ReadRegulator N where
  name := "Reg_".toList ++ sec ++ '_' :: [p]
  feeder := feeder
  start := getEntry "fromnodeid".toList ends
  stop := getEntry "tonodeid".toList ends
  phase := p
  pt := valueAt num settings "pt".toList
  ct := valueAt num settings "ct".toList
  center := centerOf num settings p
  band := bandOf num settings data p
  windings := [regWinding num settings data p, regWinding num settings data p]

/-- the phases of a regulator: ditto/readers/cyme/read.py:5112-5117, 387-404. A text is never equal to a number: it is split into letters. -/
def phasesOn (settings : Values) : Py Text :=
  match getEntry "phaseon".toList settings with
  | none => .error .valueError
  | some t => .ok t

/-- the equipment of a regulator: ditto/readers/cyme/read.py:5119-5122 -/
def regulatorData (regs : List (Text × Values)) (settings : Values) : Values :=
  match getEntry "eqid".toList settings with
  | none => []
  | some k =>
    match getEntry k regs with
    | none => []
    | some d => d

/-- the section of a row, with its phases: ditto/readers/cyme/read.py:5107-5110 -/
def phasedSection (secs : List (Text × Values)) (sec : Text) : Py Values :=
  match getEntry sec secs with
  | none => .error .valueError
  | some s =>
    match getEntry "phase".toList s with
    | none => .error .valueError
    | some _ => .ok s

/-- the regulators of the phases: ditto/readers/cyme/read.py:5124-5295 -/
def regulatorsOf {N : Type} [Semiring N] (num : Text → Option N) (sec : Text) (feeder : Option Text) (ends settings data : Values) :
    Text → Py (List (ReadRegulator N))
  | [] => .ok []
  | p :: ps =>
    match feeder with
    | none => .error .keyError
    | some f =>
      match regulatorsOf num sec feeder ends settings data ps with
      | .error e => .error e
      | .ok rs => .ok (regulatorOf num sec f ends settings data p :: rs)

/-- the regulators of a row: ditto/readers/cyme/read.py:5105-5295 -/
def regulatorsAt {N : Type} [Semiring N] (num : Text → Option N) (secs : List (Text × Values)) (feeders : List (Text × Text))
    (regs : List (Text × Values)) (key : Text) (settings : Values) : Py (List (ReadRegulator N)) :=
  match phasedSection secs (rowSection key) with
  | .error e => .error e
  | .ok ends =>
    match phasesOn settings with
    | .error e => .error e
    | .ok ps => regulatorsOf num (rowSection key) (getEntry (rowSection key) feeders) ends settings (regulatorData regs settings) ps

/-- ditto/readers/cyme/read.py:5103-5297 -/
def allRegulators {N : Type} [Semiring N] (num : Text → Option N) (secs : List (Text × Values)) (feeders : List (Text × Text))
    (regs : List (Text × Values)) : List (Text × Values) → Py (List (ReadRegulator N))
  | [] => .ok []
  | s :: settings =>
    match regulatorsAt num secs feeders regs s.1 s.2 with
    | .error e => .error e
    | .ok rs =>
      match allRegulators num secs feeders regs settings with
      | .error e => .error e
      | .ok rest => .ok (rs ++ rest)

/-- `parse_regulators`: ditto/readers/cyme/read.py:4981-5297. `secs` is `section_phase_mapping`, `feeders` is `section_feeder_mapping`. Not
represented: `section_duplicates`. -/
def parseRegulators {N : Type} [Semiring N] (num : Text → Option N) (secs : List (Text × Values)) (feeders : List (Text × Text))
    (network equipment : List Text) : Py (List (ReadRegulator N)) :=
  match readTables settingQuery network with
  | .error e => .error e
  | .ok settings =>
    match readTables regulatorQuery equipment with
    | .error e => .error e
    | .ok regs => allRegulators num secs feeders regs settings

end Ditto.Cyme
