import Verif.Model.CymeTable

/-! Sections and feeders of CYME files: `parse_sections` in ditto/readers/cyme/read.py. -/
namespace Ditto.Cyme
open Ditto Glm

/-- kind of network: ditto/readers/cyme/read.py:1650-1656 -/
inductive NetKind
  | feeder
  | substation
deriving DecidableEq

/-- the variables of `parse_sections`: ditto/readers/cyme/read.py:1585-1595 -/
structure Sections where
  formatSection : Option (List Text) := none
  formatFeeder : Option (List Text) := none
  netId : Option Text := none
  kind : Option NetKind := none
  /-- `network_data` -/
  networkData : List (Text × Values) := []
  /-- `feeder_section_mapping` -/
  feederSections : List (Text × List Text) := []
  /-- `section_feeder_mapping` -/
  sectionFeeder : List (Text × Text) := []
  /-- `section_phase_mapping` -/
  sectionData : List (Text × Values) := []
deriving DecidableEq

/-- `line.split("=")[1]` -/
def afterEquality (line : Text) : Py Text :=
  match Net.splitCh '=' line with
  | _ :: a :: _ => .ok a
  | _ => .error .indexError

/-- the names in a format: ditto/readers/cyme/read.py:1623-1628, 1636-1641 -/
def sectionColumns (line : Text) : Py (List Text) :=
  match afterEquality line with
  | .error e => .error e
  | .ok a => .ok ((Net.splitCh ',' a).map fun x => Net.pyStrip (lower x))

/-- `x[format.index(k)]`: the first column with the name. The lengths are equal when this is called. -/
def columnValue (format data : List Text) (k : Text) : Py Text :=
  match format.idxOf? k with
  | none => .error .valueError
  | some i =>
    match data[i]? with
    | none => .error .indexError
    | some v => .ok v

/-- the dictionary of names and values: ditto/readers/cyme/read.py:1698-1700, 1732-1736 -/
def record (format data : List Text) : Values := updateAll [] (format.zip data)

/-- the line declares a network: ditto/readers/cyme/read.py:1644-1649 -/
def declares (line : Text) : Bool :=
  7 ≤ line.length && (lower (line.take 7) = "feeder=".toList || lower (line.take 11) = "substation=".toList ||
    lower (line.take 15) = "generalnetwork=".toList)

/-- kind of a declared network: ditto/readers/cyme/read.py:1650-1656 -/
def kindOf (line : Text) : NetKind := if lower (line.take 11) = "substation=".toList then .substation else .feeder

/-- entries of a network with its values: ditto/readers/cyme/read.py:1695-1703 -/
def addNetwork (s : Sections) (kind : NetKind) (id : Text) (values : Values) : Sections :=
  { s with
    netId := some id
    kind := some kind
    networkData := setEntry id values s.networkData
    feederSections := setEntry id [] s.feederSections }

/-- a network declaration: ditto/readers/cyme/read.py:1650-1703 -/
def networkRow (s : Sections) (line : Text) : Py Sections :=
  match s.formatSection, s.formatFeeder with
  | none, _ => .error .valueError
  | some _, none => .error .valueError
  | some fs, some ff =>
    match afterEquality line with
    | .error e => .error e
    | .ok a =>
      if (Net.splitCh ',' a).length ≠ ff.length then .error .valueError
      else if "networkid".toList ∉ ff then .error .valueError
      else if "sectionid".toList ∉ fs then .error .valueError
      else
        match columnValue ff (Net.splitCh ',' a) "networkid".toList with
        | .error e => .error e
        | .ok id => .ok (addNetwork s (kindOf line) (lower id) (record ff (Net.splitCh ',' a)))

/-- entries of a section: ditto/readers/cyme/read.py:1727-1739 -/
def addSection (s : Sections) (id net : Text) (values : Values) : Sections :=
  { s with
    sectionData := setEntry id values s.sectionData
    sectionFeeder := setEntry id net s.sectionFeeder }

/-- a section: ditto/readers/cyme/read.py:1706-1739. When there is a network, there is a format for sections; without one `len(None)` would
raise a `TypeError`. -/
def sectionRow (s : Sections) (line : Text) : Py Sections :=
  match s.netId, s.formatSection with
  | none, _ => .error .valueError
  | some _, none => .error .typeError
  | some net, some fs =>
    if ((Net.splitCh ',' line).map Net.pyStrip).length ≠ fs.length then .error .valueError
    else
      match columnValue fs ((Net.splitCh ',' line).map Net.pyStrip) "sectionid".toList with
      | .error e => .error e
      | .ok id => .ok (addSection s (lower id) net (record fs ((Net.splitCh ',' line).map Net.pyStrip)))

/-- the line has the format of networks: ditto/readers/cyme/read.py:1631-1635 -/
def formatsNetwork (line : Text) : Bool :=
  inText "format_feeder".toList (lower line) || inText "format_substation".toList (lower line) ||
    inText "format_generalnetwork".toList (lower line)

/-- one line of the table of sections: ditto/readers/cyme/read.py:1621-1739 -/
def sectionLine (s : Sections) (line : Text) : Py Sections :=
  if inText "format_section".toList (lower line) then
    match sectionColumns line with
    | .error e => .error e
    | .ok names => .ok { s with formatSection := some names }
  else if formatsNetwork line then
    match sectionColumns line with
    | .error e => .error e
    | .ok names => .ok { s with formatFeeder := some names }
  else if declares line then networkRow s line
  else sectionRow s line

/-- the lines after the header: ditto/readers/cyme/read.py:1612-1742. The second part of the condition of the loop always holds. `next` on
a file that has ended raises `StopIteration`. -/
def sectionLines : Sections → List Text → Py Sections
  | _, [] => .error .stopIteration
  | s, line :: rest =>
    if 2 < line.length then
      match sectionLine s line with
      | .error e => .error e
      | .ok s' => sectionLines s' rest
    else .ok s

/-- `parse_sections`: ditto/readers/cyme/read.py:1553-1742. The lines after the table are not read. -/
def parseSections : List Text → Py Sections
  | [] => .ok {}
  | line :: rest => if inText "[SECTION]".toList line then sectionLines {} rest else parseSections rest

end Ditto.Cyme
