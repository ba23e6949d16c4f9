import Verif.Model.GlmCaps
import Verif.Model.GlmLoadWrite
import Mathlib.Data.List.Sort

/-! Lines in the GridLAB-D writer: `write_line_configurations` and `write_lines` in ditto/writers/gridlabd/write.py, without wires
(`write_wires` is false). Numbers are exact. `shown` prints a number and `showCx` a complex number as `str` does. -/
namespace Ditto.Glm
open Ditto

/-- the attributes of a `Wire` that are used: ditto/models/wire.py:21-23, 69-72 -/
structure WWire where
  phase : Option Text
  isOpen : Option Bool
deriving DecidableEq

/-- the attributes of a `Line` that are written: ditto/models/line.py:41-92 -/
structure WGLine (K : Type) where
  name : Option Text
  isSwitch : Option Bool
  isFuse : Option Bool
  lineType : Option Text
  length : Option K
  source : Option Text
  target : Option Text
  wires : List WWire
  matrix : Option (List (List (Cx K)))
deriving DecidableEq

/-- comparison of texts by their characters -/
def textLe : Text → Text → Bool
  | [], _ => true
  | _ :: _, [] => false
  | a :: s, b :: t => a.toNat < b.toNat || (a == b && textLe s t)

/-- the phases without neutral, sorted: ditto/writers/gridlabd/write.py:755-764 -/
def sortedPhases (ws : List WWire) : List Text :=
  ((ws.filterMap (·.phase)).filter fun p => p ≠ ['N']).insertionSort fun a b => textLe a b = true

/-- `phase_map`: ditto/writers/gridlabd/write.py:754 -/
def phaseNumber (p : Text) : Py Nat :=
  if p = ['A'] ∨ p = ['1'] then .ok 1 else if p = ['B'] ∨ p = ['2'] then .ok 2 else if p = ['C'] then .ok 3 else .error .keyError

/-- a minus sign after another character than e: ditto/writers/gridlabd/write.py:794, 798 -/
def innerMinus : Text → Bool
  | a :: b :: l => (a ≠ 'e' && b = '-') || innerMinus (b :: l)
  | _ => false

/-- `0+` before numbers of one part: ditto/writers/gridlabd/write.py:796-800 -/
def withReal (t : Text) : Text := if '+' ∉ t ∧ innerMinus t = false then '0' :: '+' :: t else t

/-- `lc[j][k]`: ditto/writers/gridlabd/write.py:793 -/
def matrixAt {V : Type} (m : List (List V)) (j k : Nat) : Py V :=
  match m[j]? with
  | none => .error .indexError
  | some row =>
    match row[k]? with
    | none => .error .indexError
    | some z => .ok z

section numbers
variable {K : Type} (shown : K → Text) (showCx : Cx K → Text)

/-- the row or column of a phase with this position and number: ditto/writers/gridlabd/write.py:788-792 -/
def zIndex (m : List (List (Cx K))) (count num : Nat) : Nat := if m.length < 3 then count else num - 1

/-- one impedance: ditto/writers/gridlabd/write.py:786-805 -/
def zCell (m : List (List (Cx K))) (j k : Text × Nat) : Py (Text × Text) :=
  match phaseNumber j.1, phaseNumber k.1 with
  | .error e, _ => .error e
  | .ok _, .error e => .error e
  | .ok a, .ok b =>
    match matrixAt m (zIndex m j.2 a) (zIndex m k.2 b) with
    | .error e => .error e
    | .ok z => .ok ('z' :: (Nat.repr a).toList ++ (Nat.repr b).toList, withReal (stripParens (showCx z)))

/-- the impedances of one row: ditto/writers/gridlabd/write.py:785-805 -/
def zRow (m : List (List (Cx K))) (j : Text × Nat) : List (Text × Nat) → Py (List (Text × Text))
  | [] => .ok []
  | k :: ks =>
    match zCell showCx m j k with
    | .error e => .error e
    | .ok a =>
      match zRow m j ks with
      | .error e => .error e
      | .ok l => .ok (a :: l)

/-- all impedances: ditto/writers/gridlabd/write.py:782-805 -/
def zRows (m : List (List (Cx K))) (ps : List (Text × Nat)) : List (Text × Nat) → Py (List (Text × Text))
  | [] => .ok []
  | j :: js =>
    match zRow showCx m j ps with
    | .error e => .error e
    | .ok a =>
      match zRows m ps js with
      | .error e => .error e
      | .ok l => .ok (a ++ l)

/-- the dictionary of a line: ditto/writers/gridlabd/write.py:753-805. The size of the matrix is only logged (lines 773-781). -/
def zDict (l : WGLine K) : Py (List (Text × Text)) :=
  match l.matrix with
  | none => .ok []
  | some m =>
    match zRows showCx m (sortedPhases l.wires).zipIdx (sortedPhases l.wires).zipIdx with
    | .error e => .error e
    | .ok cells => .ok (cells.foldl (fun d p => setEntry p.1 p.2 d) [])

/-- the two class attributes of the writer: ditto/writers/gridlabd/write.py:29-30. They are shared by all writers. A dictionary is a list here;
the first entry for a key is the last one that was set. -/
structure LineConfigs where
  configs : List (List (Text × Text) × Text) := []
  names : List (Option Text × Text) := []

/-- `frozenset(a.items()) == frozenset(b.items())`: ditto/writers/gridlabd/write.py:807-812 -/
def sameItems (a b : List (Text × Text)) : Bool := a.all (fun p => p ∈ b) && b.all (fun p => p ∈ a)

/-- the name of a configuration with these impedances: ditto/writers/gridlabd/write.py:812-816 -/
def findConfig (configs : List (List (Text × Text) × Text)) (d : List (Text × Text)) : Option Text :=
  (configs.find? fun p => sameItems p.1 d).map (·.2)

/-- `line_config_{num}`: ditto/writers/gridlabd/write.py:818-824 -/
def configName (n : Nat) : Text := "line_config_".toList ++ (Nat.repr n).toList

/-- switches and fuses have no configuration: ditto/writers/gridlabd/write.py:749-752 -/
def noConfig (l : WGLine K) : Bool := l.isSwitch = some true || l.isFuse = some true

/-- the rows of a configuration: ditto/writers/gridlabd/write.py:821, 825-828 -/
def configRows (d : List (Text × Text)) (name : Text) : List Text := entryRows "line_configuration".toList (setEntry "name".toList name d)

/-- `write_line_configurations`: ditto/writers/gridlabd/write.py:741-829, with the dictionaries that are there before and the next number -/
def writeConfigs (st : LineConfigs) (count : Nat) : List (WGLine K) → Py (LineConfigs × List Text)
  | [] => .ok (st, [])
  | l :: ls =>
    if noConfig l then writeConfigs st count ls
    else
      match zDict showCx l with
      | .error e => .error e
      | .ok d =>
        match findConfig st.configs d with
        | some n => writeConfigs { st with names := (l.name, n) :: st.names } count ls
        | none =>
          match writeConfigs ⟨st.configs ++ [(d, configName count)], (l.name, configName count) :: st.names⟩ (count + 1) ls with
          | .error e => .error e
          | .ok (st', rows) => .ok (st', configRows d (configName count) ++ rows)

/-- the name of the configuration of a line: ditto/writers/gridlabd/write.py:843-852 -/
def configOf (names : List (Option Text × Text)) (name : Text) : Option Text := (names.find? fun p => p.1 = some name).map (·.2)

/-- the class of a line: ditto/writers/gridlabd/write.py:834-863, 878-879 -/
def lineClass (l : WGLine K) : Text :=
  if l.lineType = some "underground".toList then "underground_line".toList
  else if l.isFuse = some true then "fuse".toList
  else if l.isSwitch = some true then "switch".toList
  else "overhead_line".toList

variable [Field K]

/-- length and configuration, which fuses and switches do not have: ditto/writers/gridlabd/write.py:841-852, 865-876, 880-890 -/
def lineSizes (names : List (Option Text × Text)) (l : WGLine K) : List (Text × Text) :=
  if lineClass l = "fuse".toList ∨ lineClass l = "switch".toList then []
  else optEntry "length".toList (l.length.map fun x => shown (x * (328084 / 100000))) ++
    optEntry "configuration".toList (l.name.bind (configOf names))

/-- the attributes of a line: ditto/writers/gridlabd/write.py:841-907 -/
def lineEntries (names : List (Option Text × Text)) (l : WGLine K) : List (Text × Text) :=
  lineSizes shown names l ++ optEntry "name".toList (l.name.map ('n' :: ·)) ++ optEntry "from".toList (l.source.map ('n' :: ·)) ++
    optEntry "to".toList (l.target.map ('n' :: ·)) ++ capPhaseEntry (l.wires.filterMap (·.phase)).flatten

/-- the rows of a line. There is no blank before the brace: ditto/writers/gridlabd/write.py:840, 855, 861, 863, 879, 909 -/
def lineRows (names : List (Option Text × Text)) (l : WGLine K) : List Text :=
  ("object ".toList ++ lineClass l ++ ['{']) :: ((lineEntries shown names l).map fun p => entryRow four p.1 p.2) ++ ["};".toList, []]

/-- `write_lines`: ditto/writers/gridlabd/write.py:831-909 -/
def writeLineRows (names : List (Option Text × Text)) (ls : List (WGLine K)) : List Text := ls.flatMap (lineRows shown names)

end numbers

end Ditto.Glm
