import Verif.Model.CymeSections
import Mathlib.Algebra.Ring.Defs

/-! The sources of CYME files: `parse_sources` in ditto/readers/cyme/read.py, and `update_header_mapping`. -/
namespace Ditto.Cyme
open Ditto Glm

/-! ### several tables in one pass over a file -/

/-- The calls of `parser_helper` for one line, as in ditto/readers/cyme/read.py:1039-1073. Each one has its query and its dictionary; they take
lines from the same file. -/
def helpers : List (Query × List (Text × Values)) → Text → List Text → Py (List (Query × List (Text × Values)) × List Text)
  | [], _, rest => .ok ([], rest)
  | s :: slots, line, rest =>
    match parserHelper s.1 line rest with
    | .error e => .error e
    | .ok (r, rest') =>
      match helpers slots line rest' with
      | .error e => .error e
      | .ok (slots', rest'') => .ok ((s.1, updateAll s.2 r) :: slots', rest'')

/-- the loop over the lines. The first argument bounds the number of rounds; the number of lines is enough. -/
def manyLoop : Nat → List (Query × List (Text × Values)) → List Text → Py (List (Query × List (Text × Values)))
  | _, slots, [] => .ok slots
  | 0, slots, _ => .ok slots
  | n + 1, slots, line :: rest =>
    match helpers slots line rest with
    | .error e => .error e
    | .ok (slots', rest') => manyLoop n slots' rest'

/-- several kinds of tables, read in one pass -/
def readMany (qs : List Query) (content : List Text) : Py (List (List (Text × Values))) :=
  match manyLoop content.length (qs.map fun q => (q, [])) content with
  | .error e => .error e
  | .ok slots => .ok (slots.map (·.2))

/-! ### what is read -/

/-- ditto/readers/cyme/read.py:1020, 1040-1047 -/
def sourceQuery : Query where
  headers := ["[SOURCE]".toList]
  attrs := ["sourceid".toList, "nodeid".toList, "networkid".toList, "desiredvoltage".toList]
  mapping := [("sourceid".toList, 0), ("nodeid".toList, 2), ("networkid".toList, 3), ("desiredvoltage".toList, 4)]

/-- ditto/readers/cyme/read.py:1021-1032, 1048-1073 -/
def equivalentQuery : Query where
  headers := ["[SOURCE EQUIVALENT]".toList]
  attrs := ["nodeid".toList, "voltage".toList, "operatingangle1".toList, "operatingangle2".toList, "operatingangle3".toList,
    "usesecondlevelimpedance".toList, "positivesequenceresistance".toList, "positivesequencereactance".toList, "zerosequencereactance".toList,
    "zerosequenceresistance".toList, "configuration".toList, "basemva".toList, "loadmodelname".toList, "firstlevelr1".toList, "firstlevelx1".toList,
    "firstlevelr0".toList, "firstlevelx0".toList]
  mapping := [("nodeid".toList, 0), ("voltage".toList, 1), ("operatingangle1".toList, 2), ("operatingangle2".toList, 3), ("operatingangle3".toList, 4),
    ("positivesequenceresistance".toList, 5), ("positivesequencereactance".toList, 6), ("zerosequenceresistance".toList, 7),
    ("zerosequencereactance".toList, 8), ("configuration".toList, 9)]

/-- ditto/readers/cyme/read.py:1033, 1076-1083 -/
def substationQuery : Query where
  headers := ["[SUBSTATION]".toList]
  attrs := ["id".toList, "mva".toList, "kvll".toList, "conn".toList]
  mapping := [("id".toList, 0), ("mva".toList, 1), ("kvll".toList, 6), ("conn".toList, 14)]

/-- A `PowerSource`: ditto/models/power_source.py:21-98. An impedance is a resistance and a reactance. -/
structure SourceRec (N : Type) where
  name : Text
  voltage : Option N
  phases : List Text
  power : Option N
  angle : N
  positive : N × N
  zero : N × N
  element : Text
deriving DecidableEq

/-- Assigning a list of texts to `phases`, which is `List(Instance(Unicode))`: ditto/models/power_source.py:32-35. A text is not an instance of
the trait `Unicode`, so the assignment raises a `TraitError` unless the list is empty. -/
def assignPhases (texts : List Text) : Py (List Text) := if texts = [] then .ok [] else .error .traitError

/-- Assigning a text to a trait `Float` raises a `TraitError`: ditto/models/power_source.py:90-92. -/
def assignAngle {N : Type} (_ : Text) : Py N := .error .traitError

/-- `try: x = ... except: pass` -/
def orElse {A : Type} (old : A) : Py A → A
  | .ok a => a
  | .error _ => old

/-- `float(d[k])` -/
def floatAt {N : Type} (num : Text → Option N) (d : Values) (k : Text) : Py N :=
  match getEntry k d with
  | none => .error .keyError
  | some t =>
    match num t with
    | none => .error .valueError
    | some x => .ok x

/-- `complex(float(d[a]), float(d[b]))` -/
def complexAt {N : Type} (num : Text → Option N) (d : Values) (a b : Text) : Py (N × N) :=
  match floatAt num d a with
  | .error e => .error e
  | .ok x =>
    match floatAt num d b with
    | .error e => .error e
    | .ok y => .ok (x, y)

/-- positive sequence: ditto/readers/cyme/read.py:1137-1146, 1230-1239 -/
def positiveOf {N : Type} (num : Text → Option N) (d : Values) : Py (N × N) :=
  match getEntry "positivesequenceresistance".toList d with
  | some _ => complexAt num d "positivesequenceresistance".toList "positivesequencereactance".toList
  | none => complexAt num d "firstlevelr1".toList "firstlevelx1".toList

/-- zero sequence: ditto/readers/cyme/read.py:1151-1160, 1242-1251. Lines 1254-1260 give `complex` two texts, which raises a `TypeError` that is
ignored. -/
def zeroOf {N : Type} (num : Text → Option N) (d : Values) : Py (N × N) :=
  match getEntry "zerosequenceresistance".toList d with
  | some _ => complexAt num d "zerosequenceresistance".toList "zerosequencereactance".toList
  | none => complexAt num d "firstlevelr0".toList "firstlevelx0".toList

/-- One section in the search for the node of a source: ditto/readers/cyme/read.py:1088-1100, 1178-1188. The variables `_from` and `phases`, if
they are bound. In both cases `_from` is the node; `_to` and `sectionID` are not used. -/
def sectionEnd (node : Option Text) (found : Option (Text × Text)) (v : Values) : Py (Option (Text × Text)) :=
  match getEntry "fromnodeid".toList v, getEntry "tonodeid".toList v, node with
  | some a, some b, some n =>
    if a = n ∨ b = n then
      match getEntry "phase".toList v with
      | none => .error .keyError
      | some p => .ok (some (n, p))
    else .ok found
  | _, _, _ => .error .keyError

/-- all sections -/
def sectionEnds (node : Option Text) : Option (Text × Text) → List (Text × Values) → Py (Option (Text × Text))
  | found, [] => .ok found
  | found, s :: secs =>
    match sectionEnd node found s.2 with
    | .error e => .error e
    | .ok found' => sectionEnds node found' secs

/-- 10 ** 3 * x -/
def thousand {N : Type} [Semiring N] (x : N) : N := 1000 * x

/-- a number times 1000, or nothing after an exception -/
def thousandAt {N : Type} [Semiring N] (num : Text → Option N) (d : Values) (k : Text) : Option N :=
  orElse none ((floatAt num d k).map fun x => some (thousand x))

/-- A source: ditto/readers/cyme/read.py:1101-1165, 1189-1265. `d` is `source_equivalent_data`. -/
def buildSource {N : Type} [Semiring N] (num : Text → Option N) (found : Option (Text × Text)) (voltage power : Option N) (d : Option Values) :
    Py (SourceRec N) :=
  match found with
  | none => .error .unboundLocalError
  | some (n, ph) =>
    match d with
    | none => .error .typeError
    | some e =>
      match positiveOf num e with
      | .error err => .error err
      | .ok z1 =>
        match zeroOf num e with
        | .error err => .error err
        | .ok z0 => .ok {
            name := n ++ "_src".toList
            voltage := voltage
            phases := orElse [] (assignPhases (ph.map fun c => [c]))
            power := power
            angle := orElse 0 (match getEntry "operatingangle1".toList e with | none => .error .keyError | some a => assignAngle a)
            positive := z1
            zero := z0
            element := n }

/-- the source equivalents, if there are no sources: ditto/readers/cyme/read.py:1084-1165. The key `mva` is never there. -/
def equivalentSources {N : Type} [Semiring N] (num : Text → Option N) (secs : List (Text × Values)) :
    Option (Text × Text) → List (Text × Values) → Py (List (SourceRec N))
  | _, [] => .ok []
  | found, p :: d =>
    match getEntry "loadmodelname".toList p.2 with
    | none => .error .keyError
    | some m =>
      if lower m ≠ "default".toList then equivalentSources num secs found d
      else
        match sectionEnds (getEntry "nodeid".toList p.2) found secs with
        | .error e => .error e
        | .ok found' =>
          match buildSource num found' (thousandAt num p.2 "voltage".toList) (thousandAt num p.2 "mva".toList) (some p.2) with
          | .error e => .error e
          | .ok s =>
            match equivalentSources num secs found' d with
            | .error e => .error e
            | .ok ss => .ok (s :: ss)

/-- the equivalent of a source: ditto/readers/cyme/read.py:1170-1173 -/
def equivalentOf (equivalents : List (Text × Values)) (d : Values) : Option Values :=
  match getEntry "nodeid".toList d with
  | none => none
  | some n => getEntry n equivalents

/-- voltage of a source: ditto/readers/cyme/read.py:1196-1206 -/
def sourceVoltage {N : Type} [Semiring N] (num : Text → Option N) (d : Values) (e : Option Values) : Option N :=
  match getEntry "desiredvoltage".toList d with
  | some _ => thousandAt num d "desiredvoltage".toList
  | none =>
    match e with
    | none => none
    | some v => thousandAt num v "voltage".toList

/-- the sources: ditto/readers/cyme/read.py:1167-1265 -/
def namedSources {N : Type} [Semiring N] (num : Text → Option N) (secs equivalents subs : List (Text × Values)) :
    Option (Text × Text) → List (Text × Values) → Py (List (SourceRec N))
  | _, [] => .ok []
  | found, p :: d =>
    match getEntry p.1 subs with
    | none => namedSources num secs equivalents subs found d
    | some sub =>
      match sectionEnds (getEntry "nodeid".toList p.2) found secs with
      | .error e => .error e
      | .ok found' =>
        match buildSource num found' (sourceVoltage num p.2 (equivalentOf equivalents p.2)) (thousandAt num sub "mva".toList)
            (equivalentOf equivalents p.2) with
        | .error e => .error e
        | .ok s =>
          match namedSources num secs equivalents subs found' d with
          | .error e => .error e
          | .ok ss => .ok (s :: ss)

/-- the two ways to make sources: ditto/readers/cyme/read.py:1084, 1167 -/
def sourcesOf {N : Type} [Semiring N] (num : Text → Option N) (secs sources equivalents subs : List (Text × Values)) : Py (List (SourceRec N)) :=
  if sources = [] then equivalentSources num secs none equivalents else namedSources num secs equivalents subs none sources

/-- `parse_sources`: ditto/readers/cyme/read.py:1015-1265. `secs` is `section_phase_mapping`, `num` is `float`. -/
def parseSources {N : Type} [Semiring N] (num : Text → Option N) (secs : List (Text × Values)) (network equipment : List Text) :
    Py (List (SourceRec N)) :=
  match readMany [sourceQuery, equivalentQuery] network with
  | .error e => .error e
  | .ok ds =>
    match readTables substationQuery equipment with
    | .error e => .error e
    | .ok subs =>
      match ds with
      | [sources, equivalents] => sourcesOf num secs sources equivalents subs
      | _ => .error .valueError

/-! ### headers -/

/-- an element of a list of headers -/
inductive HeaderItem
  | text (t : Text)
  | items (l : List HeaderItem)

/-- `t in l` for a list -/
def hasText (t : Text) : List HeaderItem → Bool
  | [] => false
  | .text u :: l => decide (u = t) || hasText t l
  | .items _ :: l => hasText t l

/-- `update_header_mapping`: ditto/readers/cyme/read.py:306-329, for a dictionary -/
def updateHeaders (mapping : List (Text × List HeaderItem)) (update : List (Text × Text)) : List (Text × List HeaderItem) :=
  mapping.map fun p =>
    (p.1, match getEntry p.1 update with
      | some u => if hasText u p.2 then [.items p.2] else [.text u]
      | none => [.items p.2])

/-- `[x in line for x in l]`: ditto/readers/cyme/read.py:755. `x in line` raises a `TypeError` if `x` is a list. -/
def anyIn : List HeaderItem → Text → Py Bool
  | [], _ => .ok false
  | .text t :: l, line =>
    match anyIn l line with
    | .error e => .error e
    | .ok b => .ok (inText t line || b)
  | .items _ :: _, _ => .error .typeError

/-- `check_object_in_line`: ditto/readers/cyme/read.py:722-755 -/
def checkObject (mapping : List (Text × List HeaderItem)) (obj line : Text) : Py Bool :=
  match getEntry obj mapping with
  | none => .error .valueError
  | some l => anyIn l line

end Ditto.Cyme
