import Verif.Model.CymeLines
import Mathlib.Algebra.Order.Field.Basic

/-! Network equivalents of CYME files: `parse_network_equivalent` of ditto/readers/cyme/read.py. Numbers are of an ordered field (exact
arithmetic, no `nan` and no infinite numbers). -/
namespace Ditto.Cyme
open Ditto Glm

/-- the columns with numbers, by their positions without a format: ditto/readers/cyme/read.py:5308-5346 -/
def equivalentColumns : List (String × Nat) :=
  [("sectionid", 0), ("devicenumber", 2), ("coordx", 6), ("coordy", 7), ("zraa", 9), ("zrab", 10), ("zrac", 11), ("zrba", 12), ("zrbb", 13),
    ("zrbc", 14), ("zrca", 15), ("zrcb", 16), ("zrcc", 17), ("zxaa", 18), ("zxab", 19), ("zxac", 20), ("zxba", 21), ("zxbb", 22), ("zxbc", 23),
    ("zxca", 24), ("zxcb", 25), ("zxcc", 26), ("loadfromkwa", 27), ("loadfromkwb", 28), ("loadfromkwc", 29), ("loadfromkvara", 30),
    ("loadfromkvarb", 31), ("loadfromkvarc", 32), ("loadtokwa", 33), ("loadtokwb", 34), ("loadtokwc", 35), ("loadtokvara", 36),
    ("loadtokvarb", 37), ("loadtokvarc", 38), ("totallengtha", 39), ("totallengthb", 40), ("totallengthc", 41)]

/-- ditto/readers/cyme/read.py:5308-5346, 5358-5368 -/
def reducedQuery : Query :=
  settingsOf "[NETWORK EQUIVALENT SETTING]" (equivalentColumns.map (·.1)) equivalentColumns "network_equivalent"

/-- the tables, in the order of the calls: ditto/readers/cyme/read.py:5358-5384. The columns of the sections are those of `parse_lines`. -/
def reducedQueries : List Query := [reducedQuery, sectionQuery]

/-- A `Load` with its `PhaseLoad`s: ditto/readers/cyme/read.py:5470-5508, 5518-5558. The powers of a phase are nothing after an exception. Not
represented are the constants: `model` is 1, and all of the power of each phase is constant power. -/
structure NodeLoad (N : Type) where
  name : Text
  node : Text
  feeder : Text
  phases : List (Char × Option (N × N))
deriving DecidableEq

/-- A network equivalent: ditto/readers/cyme/read.py:5394-5558. Not represented: the position, which is written to an attribute `position` that
lines do not have (5412-5419; the attribute of lines is `positions`), and the constants of the line (it is overhead, and not a device). -/
structure ReadEquivalent (N : Type) where
  name : Text
  start : Text
  stop : Text
  startIndex : Option ℤ
  stopIndex : Option ℤ
  feeder : Text
  nameclass : Option Text
  /-- the phases of the wires -/
  wires : List Char
  impedance : List (List (N × N))
  length : N
  atStart : Option (NodeLoad N)
  atStop : Option (NodeLoad N)
deriving DecidableEq

/-- the name of a column for some phases: ditto/readers/cyme/read.py:5451-5452, 5466-5467 -/
def columnFor (k : String) (phases : List Char) : Text := k.toList ++ phases.map Char.toLower

/-- the phases with a resistance: ditto/readers/cyme/read.py:5433-5439 -/
def presentPhases {N : Type} [Field N] [LinearOrder N] (num : Text → Option N) (settings : Values) : List Char → Py (List Char)
  | [] => .ok []
  | p :: ps =>
    match floatAt num settings (columnFor "zr" [p, p]) with
    | .error e => .error e
    | .ok x =>
      match presentPhases num settings ps with
      | .error e => .error e
      | .ok l => .ok (if x ≠ 0 then p :: l else l)

/-- the matrix: ditto/readers/cyme/read.py:5447-5456 -/
def equivalentMatrix {N : Type} (num : Text → Option N) (settings : Values) (phases : List Char) : Py (List (List (N × N))) :=
  phases.mapM fun p => phases.mapM fun q => complexAt num settings (columnFor "zr" [p, q]) (columnFor "zx" [p, q])

/-- the length: ditto/readers/cyme/read.py:5459-5460 -/
def equivalentLength {N : Type} [LinearOrder N] (num : Text → Option N) (settings : Values) : Py N :=
  match floatAt num settings (columnFor "totallength" ['A']) with
  | .error e => .error e
  | .ok a =>
    match floatAt num settings (columnFor "totallength" ['B']) with
    | .error e => .error e
    | .ok b =>
      match floatAt num settings (columnFor "totallength" ['C']) with
      | .error e => .error e
      | .ok c => .ok (max (max a b) c)

/-- two sums over the phases: ditto/readers/cyme/read.py:5463-5467, 5511-5515 -/
def loadTotals {N : Type} [Field N] (num : Text → Option N) (settings : Values) (kw kvar : String) : List Char → N × N → Py (N × N)
  | [], s => .ok s
  | p :: ps, s =>
    match floatAt num settings (columnFor kw [p]) with
    | .error e => .error e
    | .ok x =>
      match floatAt num settings (columnFor kvar [p]) with
      | .error e => .error e
      | .ok y => loadTotals num settings kw kvar ps (s.1 + x, s.2 + y)

/-- the powers of a phase: ditto/readers/cyme/read.py:5492-5498, 5541-5547 -/
def powersOn {N : Type} [Field N] (num : Text → Option N) (settings : Values) (kw kvar : String) (p : Char) : Option (N × N) :=
  match complexAt num settings (columnFor kw [p]) (columnFor kvar [p]) with
  | .error _ => none
  | .ok z => some (1000 * z.1, 1000 * z.2)

/-- One of the loads: ditto/readers/cyme/read.py:5463-5508, 5511-5558. The sums are over the columns `kw` and `tested`, the powers are those of `kw` and
`kvar`. -/
def nodeLoad {N : Type} [Field N] [LinearOrder N] (num : Text → Option N) (settings : Values) (kw tested kvar : String) (phases : List Char)
    (name node feeder : Text) : Py (Option (NodeLoad N)) :=
  match loadTotals num settings kw tested phases (0, 0) with
  | .error e => .error e
  | .ok s =>
    .ok (if 0 < s.1 ∧ 0 < s.2 then some { name, node, feeder, phases := phases.map fun p => (p, powersOn num settings kw kvar p) } else none)

/-- what is read before, and the numbers -/
structure EquivalentInput (N : Type) where
  num : Text → Option N
  int : Text → Option ℤ
  secs : List (Text × Values)
  feeders : List (Text × Text)

/-- The numbers of an equivalent and its loads: ditto/readers/cyme/read.py:5428-5558. For the load at the end the second sum is over
`loadfromkvar` (5515). -/
def equivalentParts {N : Type} [Field N] [LinearOrder N] (inp : EquivalentInput N) (sec start stop feeder : Text) (ends settings : Values) :
    Py (ReadEquivalent N) :=
  match presentPhases inp.num settings ['A', 'B', 'C'] with
  | .error e => .error e
  | .ok phases =>
    match equivalentMatrix inp.num settings phases with
    | .error e => .error e
    | .ok impedance =>
      match equivalentLength inp.num settings with
      | .error e => .error e
      | .ok length =>
        match nodeLoad inp.num settings "loadfromkw" "loadfromkvar" "loadfromkvar" phases (sec ++ "_ne_from_load".toList) start feeder with
        | .error e => .error e
        | .ok atStart =>
          match nodeLoad inp.num settings "loadtokw" "loadfromkvar" "loadtokvar" phases (sec ++ "_ne_to_load".toList) stop feeder with
          | .error e => .error e
          | .ok atStop =>
            .ok { name := sec ++ "_ne_line".toList, start, stop
                  startIndex := (getEntry "fromnodeindex".toList ends).bind inp.int
                  stopIndex := (getEntry "tonodeindex".toList ends).bind inp.int
                  feeder, nameclass := getEntry "eqid".toList settings, wires := phases, impedance, length, atStart, atStop }

/-- One entry with the type `network_equivalent`: ditto/readers/cyme/read.py:5388, 5394-5411. -/
def buildEquivalent {N : Type} [Field N] [LinearOrder N] (inp : EquivalentInput N) (key : Text) (settings : Values) : Py (ReadEquivalent N) :=
  match getEntry (rowSection key) inp.secs with
  | none => .error .keyError
  | some ends =>
    match getEntry "fromnodeid".toList ends with
    | none => .error .keyError
    | some start =>
      match getEntry "tonodeid".toList ends with
      | none => .error .keyError
      | some stop =>
        match getEntry (rowSection key) inp.feeders with
        | none => .error .keyError
        | some feeder => equivalentParts inp (rowSection key) start stop feeder ends settings

/-- all entries: ditto/readers/cyme/read.py:5386-5389 -/
def allEquivalents {N : Type} [Field N] [LinearOrder N] (inp : EquivalentInput N) : List (Text × Values) → Py (List (ReadEquivalent N))
  | [] => .ok []
  | p :: rest =>
    if getEntry "type".toList p.2 = some "network_equivalent".toList then
      match buildEquivalent inp p.1 p.2 with
      | .error e => .error e
      | .ok r =>
        match allEquivalents inp rest with
        | .error e => .error e
        | .ok rs => .ok (r :: rs)
    else allEquivalents inp rest

/-- `parse_network_equivalent`: ditto/readers/cyme/read.py:5299-5558. The entries are joined with those that `parse_regulators` has left
(`left`): `self.settings` is not emptied. -/
def parseEquivalents {N : Type} [Field N] [LinearOrder N] (inp : EquivalentInput N) (left : List (Text × Values)) (network : List Text) :
    Py (List (ReadEquivalent N)) :=
  match joinedLoop reducedQueries network.length left network with
  | .error e => .error e
  | .ok settings => allEquivalents inp settings

end Ditto.Cyme
