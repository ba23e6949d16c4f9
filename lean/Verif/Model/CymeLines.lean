import Verif.Model.CymeCaps
import Mathlib.Algebra.Field.Defs

/-! The lines and switching devices of CYME files: `parse_lines` and `configure_wire` in ditto/readers/cyme/read.py. -/
namespace Ditto.Cyme
open Ditto Glm

/-! ### several kinds of tables in one dictionary, whose entries are joined -/

/-- one entry of the second dictionary: ditto/readers/abstract_reader.py:766-769 -/
def joinEntry (d : List (Text × Values)) (p : Text × Values) : List (Text × Values) :=
  match getEntry p.1 d with
  | some v => setEntry p.1 (updateAll v p.2) d
  | none => setEntry p.1 p.2 d

/-- `update_dict`: ditto/readers/abstract_reader.py:764-770 -/
def updateDict (d e : List (Text × Values)) : List (Text × Values) := e.foldl joinEntry d

/-- The calls of `parser_helper` for one line: ditto/readers/cyme/read.py:1946-2130. -/
def joinedHelpers : List Query → List (Text × Values) → Text → List Text → Py (List (Text × Values) × List Text)
  | [], d, _, rest => .ok (d, rest)
  | q :: qs, d, line, rest =>
    match parserHelper q line rest with
    | .error e => .error e
    | .ok (r, rest') => joinedHelpers qs (updateDict d r) line rest'

/-- The loop over the lines: ditto/readers/cyme/read.py:1937-2130. The first argument bounds the number of rounds; the number of lines is enough. -/
def joinedLoop (qs : List Query) : Nat → List (Text × Values) → List Text → Py (List (Text × Values))
  | _, d, [] => .ok d
  | 0, d, _ => .ok d
  | n + 1, d, line :: rest =>
    match joinedHelpers qs d line rest with
    | .error e => .error e
    | .ok (d', rest') => joinedLoop qs n d' rest'

/-- all tables of the network file -/
def readJoined (qs : List Query) (content : List Text) : Py (List (Text × Values)) := joinedLoop qs content.length [] content

/-! ### what is read -/

/-- the columns of a table that are read, by their positions without a format -/
def columnList (l : List (String × Nat)) : List (Text × Nat) := l.map fun p => (p.1.toList, p.2)

/-- a table of settings; the entry `type` is added to each of its rows -/
def settingsOf (header : String) (attrs : List String) (mapping : List (String × Nat)) (type : String) : Query where
  headers := [header.toList]
  attrs := attrs.map String.toList
  mapping := columnList mapping
  info := [("type".toList, type.toList)]

/-- ditto/readers/cyme/read.py:1753-1759 -/
def overheadMapping : List (String × Nat) := [("sectionid", 0), ("linecableid", 5), ("length", 6), ("coordx", 8), ("coordy", 9)]

/-- ditto/readers/cyme/read.py:1781-1787 -/
def switchMapping : List (String × Nat) := [("sectionid", 0), ("eqid", 2), ("coordx", 7), ("coordy", 8), ("closedphase", 9)]

/-- ditto/readers/cyme/read.py:1946-1955 -/
def unbalancedSettingQuery : Query :=
  settingsOf "[OVERHEADLINEUNBALANCED SETTING]" ["sectionid", "coordx", "coordy", "linecableid", "length"] overheadMapping "overhead_unbalanced"

/-- ditto/readers/cyme/read.py:1963-1972 -/
def overheadSettingQuery : Query :=
  settingsOf "[OVERHEADLINE SETTING]" ["sectionid", "coordx", "coordy", "linecableid", "length"] overheadMapping "overhead_balanced"

/-- ditto/readers/cyme/read.py:1760-1772, 1980-2002 -/
def byPhaseSettingQuery : Query :=
  settingsOf "[OVERHEAD BYPHASE SETTING]" ["sectionid", "devicenumber", "condid_a", "condid_b", "condid_c", "condid_n", "condid_n1", "condid_n2",
      "spacingid", "length", "coordx", "coordy"]
    [("sectionid", 0), ("devicenumber", 1), ("condid_a", 5), ("condid_b", 6), ("condid_c", 7), ("condid_n1", 8), ("condid_n2", 9), ("spacingid", 10),
      ("length", 11), ("coordx", 14), ("coordy", 15)] "overhead_unbalanced"

/-- ditto/readers/cyme/read.py:1773-1780, 2010-2019 -/
def undergroundSettingQuery : Query :=
  settingsOf "[UNDERGROUNDLINE SETTING]" ["sectionid", "coordx", "coordy", "linecableid", "length", "amps"]
    [("sectionid", 0), ("linecableid", 5), ("length", 6), ("amps", 8), ("coordx", 14), ("coordy", 15)] "underground"

/-- ditto/readers/cyme/read.py:2027-2036 -/
def switchSettingQuery : Query :=
  settingsOf "[SWITCH SETTING]" ["sectionid", "coordx", "coordy", "eqid", "closedphase"] switchMapping "switch"

/-- ditto/readers/cyme/read.py:1788, 2044-2053 -/
def sectionalizerSettingQuery : Query :=
  settingsOf "[SECTIONALIZER SETTING]" ["sectionid", "coordx", "coordy", "eqid", "closedphase"]
    [("sectionid", 0), ("eqid", 2), ("coordx", 7), ("coordy", 8)] "sectionalizer"

/-- ditto/readers/cyme/read.py:2061-2070 -/
def fuseSettingQuery : Query := settingsOf "[FUSE SETTING]" ["sectionid", "coordx", "coordy", "eqid"] switchMapping "fuse"

/-- ditto/readers/cyme/read.py:2078-2087 -/
def recloserSettingQuery : Query := settingsOf "[RECLOSER SETTING]" ["sectionid", "coordx", "coordy", "eqid"] switchMapping "recloser"

/-- ditto/readers/cyme/read.py:2095-2104 -/
def breakerSettingQuery : Query :=
  settingsOf "[BREAKER SETTING]" ["sectionid", "coordx", "coordy", "eqid", "closedphase"] switchMapping "breaker"

/-- ditto/readers/cyme/read.py:2112-2121 -/
def protectorSettingQuery : Query :=
  settingsOf "[NETWORKPROTECTOR SETTING]" ["sectionid", "coordx", "coordy", "eqid", "closedphase"] switchMapping "network_protector"

/-- ditto/readers/cyme/read.py:1802, 2129-2137 -/
def sectionQuery : Query where
  headers := ["[SECTION]".toList]
  attrs := ["sectionid", "fromnodeid", "tonodeid", "phase"].map String.toList
  mapping := columnList [("sectionid", 0), ("fromnodeid", 1), ("tonodeid", 2), ("phase", 3)]

/-- the tables of the network file, in the order of the calls: ditto/readers/cyme/read.py:1946-2137 -/
def lineSettingQueries : List Query :=
  [unbalancedSettingQuery, overheadSettingQuery, byPhaseSettingQuery, undergroundSettingQuery, switchSettingQuery, sectionalizerSettingQuery,
    fuseSettingQuery, recloserSettingQuery, breakerSettingQuery, protectorSettingQuery, sectionQuery]

/-- a table of the equipment file -/
def equipmentOf (headers : List String) (attrs : List String) (mapping : List (String × Nat)) : Query where
  headers := headers.map String.toList
  attrs := attrs.map String.toList
  mapping := columnList mapping

/-- ditto/readers/cyme/read.py:1789-1801, 2157-2177 -/
def balancedQuery : Query :=
  { equipmentOf ["[LINE]"] ["id", "phasecondid", "neutralcondid", "spacingid", "amps", "r1", "r0", "x1", "x0", "b1", "b0"]
      [("id", 0), ("phasecondid", 1), ("neutralcondid", 2), ("spacingid", 3), ("amps", 11), ("r1", 5), ("r0", 6), ("x1", 7), ("x0", 8), ("b1", 9),
        ("b0", 10)] with info := [("type".toList, "balanced_line".toList)] }

/-- ditto/readers/cyme/read.py:1803-1826, 2186-2217 -/
def unbalancedQuery : Query :=
  { equipmentOf ["[LINE UNBALANCED]"] ["id", "condid_a", "condid_b", "condid_c", "condid_n", "condid_n1", "condid_n2", "spacingid", "ra", "rb", "rc",
      "xa", "xb", "xc", "ba", "bb", "bc", "mutualresistanceab", "mutualresistancebc", "mutualresistanceca", "mutualreactanceab",
      "mutualreactancebc", "mutualreactanceca"]
      [("id", 0), ("condid_a", 1), ("condid_b", 2), ("condid_c", 3), ("condid_n1", 4), ("condid_n2", 5), ("spacingid", 6), ("ra", 8), ("rb", 9),
        ("rc", 10), ("xa", 11), ("xb", 12), ("xc", 13), ("ba", 14), ("bb", 15), ("bc", 16), ("mutualresistanceab", 36), ("mutualresistancebc", 37),
        ("mutualresistanceca", 38), ("mutualreactanceab", 39), ("mutualreactancebc", 40), ("mutualreactanceca", 41)]
    with info := [("type".toList, "unbalanced_line".toList)] }

/-- ditto/readers/cyme/read.py:1827-1839, 2225-2244 -/
def spacingQuery : Query :=
  equipmentOf ["[SPACING TABLE FOR LINE]"] ["id", "posofcond1_x", "posofcond1_y", "posofcond2_x", "posofcond2_y", "posofcond3_x", "posofcond3_y",
      "posofneutralcond_x", "posofneutralcond_y", "posofneutralcond_n2_x", "posofneutralcond_n2_y"]
    [("id", 0), ("posofcond1_x", 5), ("posofcond1_y", 6), ("posofcond2_x", 7), ("posofcond2_y", 8), ("posofcond3_x", 9), ("posofcond3_y", 10),
      ("posofneutralcond_x", 11), ("posofneutralcond_y", 12), ("posofneutralcond_n2_x", 13), ("posofneutralcond_n2_y", 14)]

/-- ditto/readers/cyme/read.py:1840-1846, 2252-2259 -/
def conductorQuery : Query :=
  equipmentOf ["[CONDUCTOR]"] ["id", "diameter", "gmr", "r25", "amps", "withstandrating"]
    [("id", 0), ("diameter", 1), ("gmr", 2), ("amps", 5), ("withstandrating", 15)]

/-- ditto/readers/cyme/read.py:1848-1857 -/
def concentricMapping : List (String × Nat) :=
  [("id", 0), ("r1", 1), ("r0", 2), ("x1", 3), ("x0", 4), ("amps", 5), ("phasecondid", 19), ("neutralcondid", 20)]

/-- ditto/readers/cyme/read.py:2267-2283 -/
def concentricQuery : Query :=
  equipmentOf ["[CABLE CONCENTRIC NEUTRAL]", "[CONCENTRIC NEUTRAL CABLE]"] ["id", "r1", "r0", "x1", "x0", "amps", "phasecondid", "neutralcondid"]
    concentricMapping

/-- ditto/readers/cyme/read.py:2291-2298. The positions are those of the concentric cables. -/
def cableQuery : Query := equipmentOf ["[CABLE]"] ["id", "r1", "r0", "x1", "x0", "amps"] concentricMapping

/-- ditto/readers/cyme/read.py:1859-1864 -/
def protectorMapping : List (String × Nat) := [("id", 0), ("amps", 1), ("kvll", 6), ("interruptingrating", 8)]

/-- ditto/readers/cyme/read.py:1868, 2306-2310 -/
def switchQuery : Query := equipmentOf ["[SWITCH]"] ["id", "amps", "kvll"] [("id", 0), ("amps", 1), ("kvll", 6)]

/-- ditto/readers/cyme/read.py:2318-2325 -/
def fuseQuery : Query := equipmentOf ["[FUSE]"] ["id", "amps", "kvll", "interruptingrating"] protectorMapping

/-- ditto/readers/cyme/read.py:2333-2340 -/
def recloserQuery : Query := equipmentOf ["[RECLOSER]"] ["id", "amps", "kvll", "interruptingrating"] protectorMapping

/-- ditto/readers/cyme/read.py:1866, 2348-2355 -/
def sectionalizerQuery : Query :=
  equipmentOf ["[SECTIONALIZER]"] ["id", "amps", "kvll", "interruptingrating"] [("id", 0), ("amps", 1), ("kvll", 6), ("interruptingrating", 20)]

/-- ditto/readers/cyme/read.py:2363-2370 -/
def breakerQuery : Query := equipmentOf ["[BREAKER]"] ["id", "amps", "kvll", "interruptingrating"] protectorMapping

/-- ditto/readers/cyme/read.py:2378-2385 -/
def protectorQuery : Query := equipmentOf ["[NETWORKPROTECTOR]"] ["id", "amps", "kvll", "interruptingrating"] protectorMapping

/-- the tables of the equipment file, in the order of the calls: ditto/readers/cyme/read.py:2159-2385 -/
def lineQueries : List Query :=
  [balancedQuery, unbalancedQuery, spacingQuery, conductorQuery, concentricQuery, cableQuery, switchQuery, fuseQuery, recloserQuery,
    sectionalizerQuery, breakerQuery, protectorQuery]

/-- kinds of switching devices -/
inductive Device
  | switch
  | sectionalizer
  | fuse
  | recloser
  | breaker
  | protector
deriving DecidableEq

/-- the dictionaries of the equipment: ditto/readers/cyme/read.py:1880-1893 -/
structure LineTables where
  balanced : List (Text × Values) := []
  unbalanced : List (Text × Values) := []
  spacings : List (Text × Values) := []
  conductors : List (Text × Values) := []
  concentric : List (Text × Values) := []
  cables : List (Text × Values) := []
  /-- `switches`, `sectionalizers`, `fuses`, `reclosers`, `breakers` and `network_protectors` -/
  devices : Device → List (Text × Values) := fun _ => []

/-! ### wires -/

/-- A `Wire`: ditto/models/wire.py:20-137. The flags for the kinds of devices are one value. -/
structure LineWire (N : Type) where
  phase : Text
  nameclass : Option Text := none
  device : Option Device := none
  isOpen : Bool := false
  diameter : Option N := none
  gmr : Option N := none
  ampacity : Option N := none
  interrupting : Option N := none
  emergency : Option N := none
  x : Option N := none
  y : Option N := none
deriving DecidableEq

/-- the column with the first coordinate: ditto/readers/cyme/read.py:1519-1525 -/
def xColumn (phase : Text) : Option Text :=
  if phase = "A".toList then some "posofcond1_x".toList
  else if phase = "B".toList then some "posofcond2_x".toList
  else if phase = "C".toList then some "posofcond3_x".toList
  else if phase = "N".toList then some "posofneutralcond_x".toList
  else if phase = "N2".toList then some "posofneutralcond_n2_x".toList
  else none

/-- assigning a text to `X`, which takes numbers: ditto/models/wire.py:27-30 -/
def assignText {N : Type} (_ : Text) : Py N := .error .traitError

/-- the first coordinate: ditto/readers/cyme/read.py:1526-1529 -/
def wireX {N : Type} (spacing : Values) (phase : Text) : Option N :=
  match xColumn phase with
  | none => none
  | some k =>
    match getEntry k spacing with
    | none => none
    | some t =>
      match assignText (N := N) t with
      | .error _ => none
      | .ok x => some x

/-- the second coordinate: ditto/readers/cyme/read.py:1539-1542. The name `spacing` is not defined. -/
def wireY {N : Type} (_ : Values) (_ : Text) : Option N :=
  match (.error .nameError : Py N) with
  | .error _ => none
  | .ok y => some y

/-- the rating that is only set for devices other than switches: ditto/readers/cyme/read.py:1498-1510 -/
def wireRating {N : Type} (num : Text → Option N) (conductor : Values) (device : Option Device) : Option N :=
  match device with
  | none => none
  | some .switch => none
  | some _ => valueAt num conductor "interruptingrating".toList

/-- `configure_wire`: ditto/readers/cyme/read.py:1442-1544. The second assignment of `nameclass` uses a name that is not defined. -/
def configureWire {N : Type} (num : Text → Option N) (conductor spacing : Values) (phase : Text) (device : Option Device) (isOpen : Bool) :
    LineWire N where
  phase := phase
  nameclass := getEntry "id".toList conductor
  device := device
  isOpen := isOpen
  diameter := valueAt num conductor "diameter".toList
  gmr := valueAt num conductor "gmr".toList
  ampacity := valueAt num conductor "amps".toList
  interrupting := wireRating num conductor device
  emergency := valueAt num conductor "withstandrating".toList
  x := wireX spacing phase
  y := wireY spacing phase

/-! ### lines -/

/-- A `Line`: ditto/models/line.py:36-229. Impedances are resistances and reactances. Not represented: the position, for which there is no
attribute `position` (ditto/readers/cyme/read.py:2463-2471). -/
structure ReadLine (N : Type) where
  name : Text
  start : Option Text
  stop : Option Text
  startIndex : Option ℤ
  stopIndex : Option ℤ
  length : N
  feeder : Text
  nameclass : Option Text
  device : Option Device := none
  lineType : Option Text := none
  voltage : Option N := none
  wires : List (LineWire N) := []
  impedance : Option (List (List (N × N))) := none
deriving DecidableEq

/-- the phases that are closed, by their codes: ditto/readers/cyme/read.py:1900-1926 -/
def closedPhases : List (Text × Text) :=
  [("0", "none"), ("1", "A"), ("2", "B"), ("3", "C"), ("4", "AB"), ("5", "AC"), ("6", "BC"), ("7", "ABC"), ("none", "none"), ("NONE", "none"),
    ("A", "A"), ("B", "B"), ("C", "C"), ("AB", "AB"), ("AC", "AC"), ("BC", "BC"), ("ABC", "ABC")].map fun p => (p.1.toList, p.2.toList)

/-- the phases that are closed: ditto/readers/cyme/read.py:2501-2507, 2584-2590, 2671-2677, 2755-2761, 2841-2847, 2926-2932 -/
def closedOf (settings : Values) : Py Text :=
  match getEntry "closedphase".toList settings with
  | none => .ok "ABC".toList
  | some t =>
    match getEntry t closedPhases with
    | none => .error .keyError
    | some c => .ok c

/-- the data of the equipment: ditto/readers/cyme/read.py:2509-2513, 2592-2596, 2679-2683, 2763-2767, 2849-2853, 2934-2943 -/
def deviceData (table : List (Text × Values)) (settings : Values) : Values :=
  match getEntry "eqid".toList settings with
  | none => []
  | some k =>
    match getEntry k table with
    | none => []
    | some d => d

/-- The wires of a device: ditto/readers/cyme/read.py:2525-2569, 2610-2654, 2695-2740, 2781-2825, 2865-2910, 2957-3001. The second argument is
the number of the phases that are closed so far. -/
def deviceWires {N : Type} (num : Text → Option N) (device : Device) (data : Values) (closed : Text) : Nat → Text → List (LineWire N)
  | _, [] => []
  | n, p :: ps =>
    if p ∈ closed ∧ lower closed ≠ "none".toList then
      configureWire num data [] [p] (some device) false :: deviceWires num device data closed (n + 1) ps
    else if p = 'N' ∧ 1 ≤ n then configureWire num data [] [p] (some device) false :: deviceWires num device data closed n ps
    else configureWire num data [] [p] (some device) true :: deviceWires num device data closed n ps

/-- the kinds of devices, in the order in which they are asked for: ditto/readers/cyme/read.py:2496, 2579, 2666, 2750, 2836, 2921 -/
def deviceKinds : List (Text × Device) :=
  [("switch".toList, .switch), ("sectionalizer".toList, .sectionalizer), ("fuse".toList, .fuse), ("recloser".toList, .recloser),
    ("breaker".toList, .breaker), ("network_protector".toList, .protector)]

/-- what a section is, by its entry `type`: ditto/readers/cyme/read.py:2485-2496 -/
inductive SectionKind
  | line (type : Option Text)
  | device (d : Device)
deriving DecidableEq

/-- ditto/readers/cyme/read.py:2485-2496, 2579, 2666, 2750, 2836, 2921 -/
def sectionKind (settings : Values) : SectionKind :=
  match getEntry "type".toList settings with
  | none => .line none
  | some t =>
    if inText "overhead".toList t then .line (some "overhead".toList)
    else if inText "underground".toList t then .line (some "underground".toList)
    else
      match deviceKinds.find? fun p => inText p.1 t with
      | some p => .device p.2
      | none => .line none

/-- a value of a line with the entry `type`: ditto/readers/cyme/read.py:3025, 3029, 3044 -/
def asBalanced (d : Values) : Values := setEntry "type".toList "balanced_line".toList d

/-- the later value, if there is one -/
def laterOf (old : Option Values) (new : Option Values) : Option Values :=
  match new with
  | some v => some v
  | none => old

/-- the data of a line: ditto/readers/cyme/read.py:3012-3052 -/
def lineData (t : LineTables) (settings : Values) : Option Values :=
  match getEntry "linecableid".toList settings with
  | some k =>
    laterOf (laterOf (laterOf (getEntry k t.balanced) (getEntry k t.unbalanced)) ((getEntry k t.concentric).map asBalanced))
      ((getEntry k t.cables).map asBalanced)
  | none =>
    match getEntry "devicenumber".toList settings with
    | none => none
    | some k =>
      match getEntry k t.concentric with
      | some d => some (asBalanced d)
      | none =>
        if (getEntry "condid_a".toList settings).isSome ∧ (getEntry "condid_b".toList settings).isSome ∧
            (getEntry "condid_c".toList settings).isSome ∧ (getEntry "spacingid".toList settings).isSome ∧
            ((getEntry "condid_n".toList settings).isSome ∨ (getEntry "condid_n1".toList settings).isSome) then
          some [("type".toList, "unbalanced_spacing_conf".toList)]
        else none

/-- `coeff * complex(float(d[a]), float(d[b]))` -/
def impedanceAt {N : Type} [Field N] (num : Text → Option N) (d : Values) (a b : Text) : Py (N × N) :=
  match floatAt num d a with
  | .error e => .error e
  | .ok r =>
    match floatAt num d b with
    | .error e => .error e
    | .ok x => .ok (r / 1000, x / 1000)

/-- the entries on and off the diagonal of a balanced matrix: ditto/readers/cyme/read.py:3092-3132 -/
def balancedEntries {N : Type} [Field N] (z1 z0 : N × N) : (N × N) × (N × N) :=
  ((1 / 3 * (2 * z1.1 + z0.1), 1 / 3 * (2 * z1.2 + z0.2)), (1 / 3 * (z0.1 - z1.1), 1 / 3 * (z0.2 - z1.2)))

/-- The impedance matrix of a balanced line: ditto/readers/cyme/read.py:3072-3135. The number of phases is the last argument. -/
def balancedMatrix {N : Type} [Field N] (num : Text → Option N) (d : Values) (phases : Nat) : Py (List (List (N × N))) :=
  match impedanceAt num d "r0".toList "x0".toList with
  | .error e => .error e
  | .ok z0 =>
    if phases = 1 then .ok [[(1 / 3 * z0.1, 1 / 3 * z0.2)]]
    else
      match impedanceAt num d "r1".toList "x1".toList with
      | .error e => .error e
      | .ok z1 =>
        let a := (balancedEntries z1 z0).1
        let b := (balancedEntries z1 z0).2
        if phases = 2 then .ok [[a, b], [b, a]] else .ok [[a, b, b], [b, a, b], [b, b, a]]

/-- `"{}{}".format(k, p.lower())` -/
def phaseKey (k : Text) (p : Char) : Text := k ++ lower [p]

/-- the impedance of one phase: ditto/readers/cyme/read.py:3220-3227. For lines of one phase only. -/
def ownImpedance {N : Type} [Field N] (num : Text → Option N) (d : Values) (p : Char) : Py (N × N) :=
  impedanceAt num d (phaseKey "r".toList p) (phaseKey "x".toList p)

/-- the impedance between two phases, by the names of the phases in the columns -/
def mutualImpedance {N : Type} [Field N] (num : Text → Option N) (d : Values) (pair : Text) : Py (N × N) :=
  impedanceAt num d ("mutualresistance".toList ++ pair) ("mutualreactance".toList ++ pair)

/-- a matrix for two phases -/
def twoMatrix {N : Type} [Field N] (num : Text → Option N) (d : Values) (p q : Char) (pair : Text) : Py (List (List (N × N))) :=
  match ownImpedance num d p, mutualImpedance num d pair, ownImpedance num d q with
  | .ok a, .ok m, .ok b => .ok [[a, m], [m, b]]
  | .error e, _, _ => .error e
  | _, .error e, _ => .error e
  | _, _, .error e => .error e

/-- two letters in order: ditto/readers/cyme/read.py:3236 -/
def sortedPair (p q : Char) : Char × Char := if p ≤ q then (p, q) else (q, p)

/-- The impedance matrix of an unbalanced line: ditto/readers/cyme/read.py:3216-3370. With one phase the reactance is multiplied twice. -/
def unbalancedMatrix {N : Type} [Field N] (num : Text → Option N) (d : Values) : Text → Py (List (List (N × N)))
  | [p] =>
    match ownImpedance num d p with
    | .error e => .error e
    | .ok z => .ok [[(z.1, 1 / 1000 * z.2)]]
  | [p, q] =>
    let s := sortedPair p.toLower q.toLower
    if s = ('a', 'c') then twoMatrix num d 'a' 'c' "ca".toList else twoMatrix num d s.1 s.2 [s.1, s.2]
  | _ =>
    match ownImpedance num d 'a', ownImpedance num d 'b', ownImpedance num d 'c', mutualImpedance num d "ab".toList, mutualImpedance num d "bc".toList,
      mutualImpedance num d "ca".toList with
    | .ok a, .ok b, .ok c, .ok ab, .ok bc, .ok ca => .ok [[a, ab, ca], [ab, b, bc], [ca, bc, c]]
    | _, _, _, _, _, _ => .error .keyError

/-- a matrix that is computed inside of `try` -/
def matrixOr {N : Type} (m : Py (List (List (N × N)))) : Option (List (List (N × N))) :=
  match m with
  | .ok z => some z
  | .error _ => none

/-- `{}` if there is no such entry -/
def entryOr (k : Option Text) (table : List (Text × Values)) : Values :=
  match k with
  | none => []
  | some k =>
    match getEntry k table with
    | none => []
    | some v => v

/-- The data of the conductor of the phases of a balanced line: ditto/readers/cyme/read.py:3137-3157. -/
def phaseConductor (t : LineTables) (d : Values) : Py Values :=
  match getEntry "linecableid".toList d with
  | none => .ok (entryOr (getEntry "phasecondid".toList d) t.conductors)
  | some k =>
    if entryOr (getEntry "phasecondid".toList d) t.conductors = [] then
      match getEntry k t.conductors with
      | none => .error .keyError
      | some c => .ok c
    else .ok (entryOr (getEntry "phasecondid".toList d) t.conductors)

/-- the wires of a balanced line: ditto/readers/cyme/read.py:3137-3208 -/
def balancedWires {N : Type} (num : Text → Option N) (t : LineTables) (d : Values) (phases : Text) : Py (List (LineWire N)) :=
  match phaseConductor t d with
  | .error e => .error e
  | .ok c => .ok ((phases.map fun p => configureWire num c (entryOr (getEntry "spacingid".toList d) t.spacings) [p] none false) ++
      [configureWire num (entryOr (getEntry "neutralcondid".toList d) t.conductors) (entryOr (getEntry "spacingid".toList d) t.spacings) "N".toList
        none false])

/-- a name of a conductor or spacing, unless it is `none` -/
def nameAt (d : Values) (k : Text) : Option Text :=
  match getEntry k d with
  | none => none
  | some x => if lower x = "none".toList then none else some x

/-- the data of a conductor with that name, if it is known -/
def conductorAt (t : LineTables) (d : Values) (k : Text) : Option Values :=
  match nameAt d k with
  | none => none
  | some x => getEntry x t.conductors

/-- the neutrals of an unbalanced line: ditto/readers/cyme/read.py:3415-3512 -/
def unbalancedNeutrals {N : Type} (num : Text → Option N) (t : LineTables) (d spacing : Values) : List (LineWire N) :=
  match conductorAt t d "condid_n1".toList, conductorAt t d "condid_n2".toList with
  | some c1, some c2 => [configureWire num c1 spacing "N1".toList none false, configureWire num c2 spacing "N2".toList none false]
  | n1, _ =>
    match conductorAt t d "condid_n".toList with
    | some c => [configureWire num c spacing "N".toList none false]
    | none =>
      match n1 with
      | some c => [configureWire num c spacing "N".toList none false]
      | none => []

/-- the wires of an unbalanced line: ditto/readers/cyme/read.py:3372-3512 -/
def unbalancedWires {N : Type} (num : Text → Option N) (t : LineTables) (d : Values) (phases : Text) : List (LineWire N) :=
  let spacing := entryOr (nameAt d "spacingid".toList) t.spacings
  (phases.map fun p =>
    configureWire num (entryOr (nameAt d (phaseKey "condid_".toList p)) t.conductors) spacing [p] none false) ++ unbalancedNeutrals num t d spacing

/-- the conductor of the neutral of a line with conductors by phases: ditto/readers/cyme/read.py:3768-3786 -/
def byPhaseNeutral (t : LineTables) (settings : Values) : Values :=
  let known := fun k : Text =>
    match getEntry k settings with
    | none => none
    | some x => if x = [] ∨ x = "NONE".toList then none else getEntry x t.conductors
  match known "condid_n".toList with
  | some c => c
  | none =>
    match known "condid_n1".toList with
    | some c => c
    | none => []

/-- the wires of a line with conductors by phases: ditto/readers/cyme/read.py:3730-3811 -/
def byPhaseWires {N : Type} (num : Text → Option N) (t : LineTables) (settings : Values) (phases : Text) : List (LineWire N) :=
  let spacing := entryOr (getEntry "spacingid".toList settings) t.spacings
  (phases.map fun p => configureWire num (entryOr (getEntry (phaseKey "condid_".toList p) settings) t.conductors) spacing [p] none false) ++
    (if byPhaseNeutral t settings = [] then [] else [configureWire num (byPhaseNeutral t settings) spacing "N".toList none false])

/-- what is computed for a line: its wires and its matrix -/
abbrev LineParts (N : Type) := List (LineWire N) × Option (List (List (N × N)))

/-- The wires and the matrix of a line: ditto/readers/cyme/read.py:3054-3814. `byPhase` is the matrix of a line with conductors by phases. -/
def lineParts {N : Type} [Field N] (num : Text → Option N) (byPhase : LineTables → Values → Text → Py (Option (List (List (N × N)))))
    (t : LineTables) (settings d : Values) (phases : Text) : Py (LineParts N) :=
  match getEntry "type".toList d with
  | none => .error .keyError
  | some k =>
    if k = "balanced_line".toList then
      match balancedWires num t d phases with
      | .error e => .error e
      | .ok ws => .ok (ws, matrixOr (balancedMatrix num d phases.length))
    else if k = "unbalanced_line".toList then .ok (unbalancedWires num t d phases, matrixOr (unbalancedMatrix num d phases))
    else if k = "unbalanced_spacing_conf".toList then
      match byPhase t settings phases with
      | .error e => .error e
      | .ok z => .ok (byPhaseWires num t settings phases, z)
    else .ok ([], none)

/-- one of the nodes of the section is the node of a load, by its name: ditto/readers/cyme/read.py:2401-2408 -/
def isLoadSection (settings : Values) : Py Bool :=
  match getEntry "fromnodeid".toList settings with
  | none => .ok false
  | some a =>
    if inText "load".toList (lower a) then .ok true
    else
      match getEntry "tonodeid".toList settings with
      | none => .error .keyError
      | some b => .ok (inText "load".toList (lower b))

/-- a value of the section -/
def sectionEntry (secs : List (Text × Values)) (sec k : Text) : Option Text :=
  match getEntry sec secs with
  | none => none
  | some s => getEntry k s

/-- an integer of the section -/
def sectionIndex (int : Text → Option ℤ) (secs : List (Text × Values)) (sec k : Text) : Option ℤ :=
  match sectionEntry secs sec k with
  | none => none
  | some t => int t

/-- what the methods have to work with -/
structure LineInput (N : Type) where
  num : Text → Option N
  int : Text → Option ℤ
  byPhase : LineTables → Values → Text → Py (Option (List (List (N × N))))
  secs : List (Text × Values)
  feeders : List (Text × Text)
  tables : LineTables

/-- the attributes that all lines have: ditto/readers/cyme/read.py:2410-2483 -/
def lineBase {N : Type} [Field N] (inp : LineInput N) (sec feeder : Text) (settings : Values) : ReadLine N where
  name := sec
  start := sectionEntry inp.secs sec "fromnodeid".toList
  stop := sectionEntry inp.secs sec "tonodeid".toList
  startIndex := sectionIndex inp.int inp.secs sec "fromnodeindex".toList
  stopIndex := sectionIndex inp.int inp.secs sec "tonodeindex".toList
  length := match valueAt inp.num settings "length".toList with | some x => x | none => 0
  feeder := feeder
  nameclass := getEntry "eqid".toList settings

/-- a switching device: ditto/readers/cyme/read.py:2496-3010. Without phases the name `phases` has no value. -/
def switchLine {N : Type} [Field N] (inp : LineInput N) (sec feeder : Text) (settings : Values) (device : Device) (phases : Option Text) :
    Py (ReadLine N) :=
  match closedOf settings with
  | .error e => .error e
  | .ok closed =>
    match phases with
    | none => .error .unboundLocalError
    | some ps =>
      let data := deviceData (inp.tables.devices device) settings
      .ok { lineBase inp sec feeder settings with
        device := some device
        voltage := thousandAt inp.num data "kvll".toList
        wires := deviceWires inp.num device data closed 0 (ps ++ ['N']) }

/-- A line that is not a device, or nothing without data: ditto/readers/cyme/read.py:3012-3823. -/
def plainLine {N : Type} [Field N] (inp : LineInput N) (sec feeder : Text) (settings : Values) (type : Option Text) (phases : Option Text) :
    Py (Option (ReadLine N)) :=
  match lineData inp.tables settings with
  | none => .ok none
  | some d =>
    match phases with
    | none => .error .unboundLocalError
    | some ps =>
      match lineParts inp.num inp.byPhase inp.tables settings d ps with
      | .error e => .error e
      | .ok parts => .ok (some { lineBase inp sec feeder settings with lineType := type, wires := parts.1, impedance := parts.2 })

/-- The phases of a section, or those of the section before: ditto/readers/cyme/read.py:2450-2453. -/
def phasesAfter (secs : List (Text × Values)) (sec : Text) (old : Option Text) : Option Text :=
  match sectionEntry secs sec "phase".toList with
  | some ps => some ps
  | none => old

/-- One section: ditto/readers/cyme/read.py:2396-3826. The second value are the phases that the next section finds. -/
def lineStep {N : Type} [Field N] (inp : LineInput N) (key : Text) (settings : Values) (phases : Option Text) :
    Py (Option (ReadLine N) × Option Text) :=
  match isLoadSection settings with
  | .error e => .error e
  | .ok true => .ok (none, phases)
  | .ok false =>
    match getEntry (rowSection key) inp.feeders with
    | none => .error .keyError
    | some feeder =>
      let ps := phasesAfter inp.secs (rowSection key) phases
      match sectionKind settings with
      | .device k =>
        match switchLine inp (rowSection key) feeder settings k ps with
        | .error e => .error e
        | .ok l => .ok (some l, ps)
      | .line type =>
        match plainLine inp (rowSection key) feeder settings type ps with
        | .error e => .error e
        | .ok l => .ok (l, ps)

/-- all sections: ditto/readers/cyme/read.py:2396-3826 -/
def allLines {N : Type} [Field N] (inp : LineInput N) : List (Text × Values) → Option Text → Py (List (ReadLine N))
  | [], _ => .ok []
  | p :: rest, phases =>
    match lineStep inp p.1 p.2 phases with
    | .error e => .error e
    | .ok (l, ps) =>
      match allLines inp rest ps with
      | .error e => .error e
      | .ok ls => .ok (l.toList ++ ls)

/-- the dictionaries by their kinds -/
def tablesOf (ds : List (List (Text × Values))) : Py LineTables :=
  match ds with
  | [balanced, unbalanced, spacings, conductors, concentric, cables, switches, fuses, reclosers, sectionalizers, breakers, protectors] =>
    .ok { balanced, unbalanced, spacings, conductors, concentric, cables
          devices := fun
            | .switch => switches
            | .fuse => fuses
            | .recloser => reclosers
            | .sectionalizer => sectionalizers
            | .breaker => breakers
            | .protector => protectors }
  | _ => .error .valueError

/-- `parse_lines`: ditto/readers/cyme/read.py:1744-3828. Not represented: `section_duplicates`. -/
def parseLines {N : Type} [Field N] (num : Text → Option N) (int : Text → Option ℤ)
    (byPhase : LineTables → Values → Text → Py (Option (List (List (N × N))))) (secs : List (Text × Values)) (feeders : List (Text × Text))
    (network equipment : List Text) : Py (List (ReadLine N)) :=
  match readJoined lineSettingQueries network with
  | .error e => .error e
  | .ok settings =>
    match readMany lineQueries equipment with
    | .error e => .error e
    | .ok ds =>
      match tablesOf ds with
      | .error e => .error e
      | .ok tables => allLines { num, int, byPhase, secs, feeders, tables } settings none

end Ditto.Cyme
