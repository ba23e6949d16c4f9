import Verif.Model.Py
import Verif.Model.GlmParse
import Mathlib.Data.List.Dedup

/-! Tables of Synergi databases, ditto/readers/synergi. A table is the list of its rows. Simplifications: each column that the reader
asks for exists (`get_data` never gives None) and has a value in each row; `str.lower` and `str.upper` only change ASCII letters. -/
namespace Ditto.Syn
open Ditto Glm

/-- `x.lower()`; also what `ToLowerCase` does to each text of a table: ditto/readers/synergi/db_parser.py:50-55 -/
def lower (t : Text) : Text := t.map Char.toLower

/-- `x.upper()` -/
def upper (t : Text) : Text := t.map Char.toUpper

/-- `x.replace(" ", "_")` -/
def unblank (t : Text) : Text := t.map fun c => if c = ' ' then '_' else c

/-- `x.lower().replace(" ", "_")`, which is also `x.replace(" ", "_").lower()` -/
def clean (t : Text) : Text := unblank (lower t)

/-- a row of the table InstSection, as far as nodes, loads and devices depend on it -/
structure SecRow where
  id : Text
  feeder : Text
  phases : Text
  fromNode : Text
  toNode : Text
  description : Text
  deriving DecidableEq

/-- a row of the table after `ToLowerCase`: ditto/readers/synergi/db_parser.py:39-42 -/
def lowerSec (s : SecRow) : SecRow := ⟨lower s.id, lower s.feeder, lower s.phases, lower s.fromNode, lower s.toNode, lower s.description⟩

/-- `create_mapping`: ditto/readers/synergi/read.py:43-57. A dictionary is the list of its entries. -/
def createMapping (keys values : List Text) (removeSpaces : Bool) : Py (List (Text × Text)) :=
  if keys.length ≠ values.length then .error .valueError
  else if keys.length ≠ keys.dedup.length then .error .valueError
  else .ok (keys.zip (if removeSpaces then values.map unblank else values))

/-- `d.get(key)` of a dictionary with different keys -/
def find {V : Type} (d : List (Text × V)) (key : Text) : Option V := (d.find? fun e => e.1 = key).map (·.2)

/-- the dictionary from sections to feeders: ditto/readers/synergi/read.py:216-218 -/
def sectionFeeders (secs : List SecRow) : Py (List (Text × Text)) := createMapping (secs.map (·.id)) (secs.map (·.feeder)) true

/-- the dictionary from sections to phases: ditto/readers/synergi/read.py:220 -/
def sectionPhases (secs : List SecRow) : Py (List (Text × Text)) := createMapping (secs.map (·.id)) (secs.map (·.phases)) false

/-- the dictionary from feeders to substations: ditto/readers/synergi/read.py:192-195; the last
row of a feeder comes first, since it overwrites the ones before -/
def feederSubstations (feeders : List (Text × Text)) : List (Text × Text) := (feeders.map fun f => (unblank f.1, unblank f.2)).reverse

/-- `Count`, the first section with this name: ditto/readers/synergi/read.py:1851-1855, and in the same way at the other devices -/
def firstSection (secs : List SecRow) (name : Text) : Option SecRow := secs.find? fun s => s.id = name

/-- the substation of the feeder, if it has one: ditto/readers/synergi/read.py:1871-1874, and in the same way at the other devices -/
def substationOf (subs : List (Text × Text)) : Option Text → Option Text
  | none => none
  | some f => find subs f

end Ditto.Syn
