import Verif.Model.CymeRegWrite
import Verif.Model.CymeTable
import Mathlib.Algebra.Order.Field.Basic
import Mathlib.Data.List.Sort

/-! Sections and tables of lines that the CYME writer writes: the part for lines of `write_network_file` of ditto/writers/cyme/write.py, without the
columns that refer to the equipment. Numbers are given as the texts that `str` makes of them, except voltages. -/
namespace Ditto.Cyme
open Ditto Glm

/-- the tables: ditto/writers/cyme/write.py:632-640 -/
inductive LineKind
  | overhead | byPhase | underground | switch | fuse | recloser | breaker
deriving DecidableEq

/-- A wire of a line: ditto/models/wire.py:21-112. Wires without a phase are not represented. -/
structure SectionWire where
  phase : Text
  isOpen : Option Bool := none
  drop : Bool := false
deriving DecidableEq

/-- A line: ditto/models/line.py:36-136. A flag is true if it is 1. `matrix` says whether the impedance matrix is not `None`, `code` has the columns
for the equipment (with a comma before each). -/
structure SectionLine (N : Type) where
  drop : Bool := false
  start : Option Text
  stop : Option Text
  startIndex : Option Text := none
  stopIndex : Option Text := none
  feeder : Option Text := none
  substation : Option Text := none
  isSubstation : Bool := false
  lineType : Option Text := none
  voltage : Option N := none
  isFuse : Bool := false
  isRecloser : Bool := false
  isBreaker : Bool := false
  isSwitch : Bool := false
  matrix : Bool := true
  wires : List SectionWire := []
  positions : List (Text × Text) := []
  length : Option Text := none
  code : Text := []

/-- wires that are not dropped: ditto/writers/cyme/write.py:790 -/
def SectionLine.kept {N : Type} (l : SectionLine N) : List SectionWire := l.wires.filter fun w => !w.drop

/-- `phases`: ditto/writers/cyme/write.py:786-797 -/
def SectionLine.phases {N : Type} (l : SectionLine N) : List Text :=
  (l.kept.map (·.phase)).filter fun p => p ∈ ["A".toList, "B".toList, "C".toList]

/-- overhead or underground: ditto/writers/cyme/write.py:645, 673-682 -/
def SectionLine.underground {N : Type} [Field N] [LinearOrder N] (l : SectionLine N) : Bool :=
  (match l.lineType with | none => false | some t => lower t = "underground".toList) ||
    (match l.voltage with | none => false | some v => v < 600)

/-- `line_type`, with the change for less than three phases: ditto/writers/cyme/write.py:645, 673-695, 1437, 1556-1558 -/
def SectionLine.kind {N : Type} [Field N] [LinearOrder N] (l : SectionLine N) : LineKind :=
  if l.isFuse then .fuse else if l.isRecloser then .recloser else if l.isBreaker then .breaker else if l.isSwitch then .switch
  else if l.underground then .underground
  else if l.phases.length = 3 ∧ l.matrix = true then .overhead else .byPhase

/-- names of more than 64 characters are replaced: ditto/writers/cyme/write.py:716-721, 722-725 -/
def shorten (hash : Text → Text) (id : Text) : Text := if id.length > 64 then hash id else id

/-- The loop for a name that the feeder does not have: ditto/writers/cyme/write.py:707-721. Nothing if it has not ended after `n` rounds. -/
def freshId (hash : Text → Text) (ids : List Text) : Nat → Text → Option Text
  | 0, _ => none
  | n + 1, id => if id ∈ ids then freshId hash ids n (shorten hash (id ++ ['*'])) else some id

/-- the name of the section: ditto/writers/cyme/write.py:704-725. After more rounds than the feeder has sections a name has come twice, and the loop
never ends, which `recursionError` stands for. -/
def newSectionId (hash : Text → Text) (ids : List (Text × List Text)) (feeder : Option Text) (a b : Text) : Py Text :=
  match feeder with
  | none => .ok (shorten hash (a ++ '_' :: b))
  | some f =>
    match getEntry f ids with
    | none => .ok (shorten hash (a ++ '_' :: b))
    | some l =>
      match freshId hash l (l.length + 1) (a ++ '_' :: b) with
      | none => .error .recursionError
      | some id => .ok (shorten hash id)

/-- `d[k].append(v)` or `d[k] = [v]`: ditto/writers/cyme/write.py:747-754, 1693-1700 -/
def pushEntry {V : Type} (k : Text) (v : V) (d : List (Text × List V)) : List (Text × List V) :=
  match getEntry k d with
  | none => setEntry k [v] d
  | some l => setEntry k (l ++ [v]) d

/-- The network of the section: ditto/writers/cyme/write.py:1674-1691. `last` is the value that the variable `ff_name` has from the objects before. -/
def networkOf {N : Type} (last : Option Text) (l : SectionLine N) : Py Text :=
  let own : Option Text :=
    if l.isSubstation then
      match l.substation with
      | none => none
      | some s => if s = [] then none else some ("substation_".toList ++ s)
    else
      match l.feeder with
      | none => none
      | some f => if f = [] then none else some f
  match own with
  | some n => .ok n
  | none =>
    match last with
    | some n => .ok n
    | none => .error .unboundLocalError

/-- the index of a connection: ditto/writers/cyme/write.py:727-738 -/
def indexText : Option Text → Text
  | none => "0".toList
  | some t => t

/-- the row of the section: ditto/writers/cyme/write.py:739-745, 786-797 -/
def sectionText {N : Type} (id a b : Text) (l : SectionLine N) : Text :=
  id ++ withCommas [a, indexText l.startIndex, b, indexText l.stopIndex, l.phases.flatten]

/-- phases without the neutral ones, sorted: ditto/writers/cyme/write.py:1626-1633, 1642-1648 -/
def sortedPhases (ws : List SectionWire) : List Text :=
  ((ws.map (·.phase)).filter fun p => p ∉ ["N".toList, "N1".toList, "N2".toList]).insertionSort (fun a b => a ≤ b)

/-- columns with the state of a device: ditto/writers/cyme/write.py:1625-1651. `reduce` of an empty list raises a `TypeError`. -/
def stateColumns {N : Type} (k : LineKind) (l : SectionLine N) : Py Text :=
  match k with
  | .switch | .breaker =>
    match sortedPhases (l.kept.filter fun w => w.isOpen = some false) with
    | [] => .ok ",M,None,0".toList
    | ps => .ok (",M,".toList ++ ps.flatten ++ ",0".toList)
  | .fuse | .recloser =>
    match sortedPhases l.kept with
    | [] => .error .typeError
    | ps => .ok (",M,".toList ++ ps.flatten ++ ",0".toList)
  | _ => .ok []

/-- is it a device with a number -/
def LineKind.device : LineKind → Bool
  | .switch | .fuse | .recloser | .breaker => true
  | _ => false

/-- the column for the length: ditto/writers/cyme/write.py:1603-1623 -/
def lengthColumn {N : Type} (k : LineKind) (l : SectionLine N) : Text :=
  if k.device then [] else
    match l.length with
    | none => ",".toList
    | some t => ',' :: t

/-- the row of the line in its table: ditto/writers/cyme/write.py:726, 1603-1668, 1702-1706 -/
def lineText {N : Type} [Field N] [LinearOrder N] (id : Text) (l : SectionLine N) : Py Text :=
  match stateColumns l.kind l with
  | .error e => .error e
  | .ok state =>
    .ok (id ++ l.code ++ lengthColumn l.kind l ++ state ++ ",0".toList ++ (if l.kind.device then ',' :: id else []) ++
      (if l.kind = .underground then ",10,2".toList else []))

/-- What has been collected: the names of sections by feeders (`section_feeder_mapping`), rows of sections by networks (`section_line_feeder_mapping`),
`ff_name`, points between the nodes, rows of the tables. -/
structure SectionState where
  ids : List (Text × List Text) := []
  networks : List (Text × List Text) := []
  last : Option Text := none
  inter : List (Text × Nat × Text × Text) := []
  rows : List (LineKind × Text) := []
deriving DecidableEq

/-- `self.section_feeder_mapping`: ditto/writers/cyme/write.py:746-754 -/
def noteId (feeder : Option Text) (id : Text) (ids : List (Text × List Text)) : List (Text × List Text) :=
  match feeder with
  | none => ids
  | some f => pushEntry f id ids

/-- A line: ditto/writers/cyme/write.py:630-797, 1603-1706. -/
def sectionStep {N : Type} [Field N] [LinearOrder N] (hash : Text → Text) (s : SectionState) (l : SectionLine N) : Py SectionState :=
  match l.start, l.stop with
  | some a, some b =>
    match newSectionId hash s.ids l.feeder a b with
    | .error e => .error e
    | .ok id =>
      match lineText id l with
      | .error e => .error e
      | .ok row =>
        match networkOf s.last l with
        | .error e => .error e
        | .ok net =>
          .ok { ids := noteId l.feeder id s.ids, networks := pushEntry net (sectionText id a b l) s.networks, last := some net
                inter := s.inter ++ l.positions.zipIdx.map (fun p => (id, p.2, p.1.1, p.1.2)), rows := s.rows ++ [(l.kind, row)] }
  | _, _ => .error .valueError

/-- The loop over the lines: ditto/writers/cyme/write.py:402-405. Objects of other kinds, which may set `ff_name` as well, are not represented. -/
def sectionLoop {N : Type} [Field N] [LinearOrder N] (hash : Text → Text) : SectionState → List (SectionLine N) → Py SectionState
  | s, [] => .ok s
  | s, l :: ls =>
    if l.drop then sectionLoop hash s ls else
      match sectionStep hash s l with
      | .error e => .error e
      | .ok s' => sectionLoop hash s' ls

/-- the part before the next `sep`, and what is behind it -/
def cutAt (sep : Text) : Text → Option (Text × Text)
  | [] => if sep = [] then some ([], []) else none
  | c :: t =>
    if sep.isPrefixOf (c :: t) then some ([], (c :: t).drop sep.length)
    else (cutAt sep t).map fun r => (c :: r.1, r.2)

/-- `f_name.split("ation_")[1]`: ditto/writers/cyme/write.py:4201, 4204 -/
def subnetName (net : Text) : Py Text :=
  match cutAt "ation_".toList net with
  | none => .error .indexError
  | some r =>
    match cutAt "ation_".toList r.2 with
    | none => .ok r.2
    | some r' => .ok r'.1

/-- The row of a network and the column of its sections: ditto/writers/cyme/write.py:4182-4213. `heads` has the head nodes of the feeders. -/
def networkHeader (heads : List (Text × Text)) (net : Text) : Py (Text × Text) :=
  if inText "substation".toList net then
    match subnetName net with
    | .error e => .error e
    | .ok n => .ok ("SUBSTATION=".toList ++ n ++ ",,1".toList, n)
  else
    match getEntry net heads with
    | none => .error .keyError
    | some h =>
      if net = "subtransmission".toList then .ok ("TRANSMISSIONLINE=".toList ++ net ++ ',' :: h ++ ",1".toList, [])
      else .ok ("FEEDER=".toList ++ net ++ ',' :: h ++ ",1".toList, [])

/-- the table of the sections: ditto/writers/cyme/write.py:4182-4216 -/
def sectionTable (heads : List (Text × Text)) : List (Text × List Text) → Py (List Text)
  | [] => .ok []
  | (net, rows) :: ns =>
    match networkHeader heads net with
    | .error e => .error e
    | .ok h =>
      match sectionTable heads ns with
      | .error e => .error e
      | .ok t => .ok (h.1 :: rows.map (fun r => r ++ ',' :: h.2) ++ t)

end Ditto.Cyme
