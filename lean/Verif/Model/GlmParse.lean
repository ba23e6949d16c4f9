import Verif.Model.OpenClose

/-! The first part of the reader of GridLAB-D files, which collects the objects of a file: `parse` in ditto/readers/gridlabd/read.py, and
the class of these objects in ditto/formats/gridlabd/base.py. Texts are lists of characters. -/
namespace Ditto.Glm
open Ditto

/-- a text -/
abbrev Text := List Char

/-- `row.split()` -/
def words : Text → List Text
  | [] => []
  | c :: cs =>
    if c.isWhitespace then words cs
    else match cs with
      | [] => [[c]]
      | d :: _ =>
        if d.isWhitespace then [c] :: words cs
        else match words cs with
          | [] => [[c]]
          | w :: l => (c :: w) :: l

/-- `d[k] = v` for a dictionary -/
def setEntry {V : Type} (k : Text) (v : V) : List (Text × V) → List (Text × V)
  | [] => [(k, v)]
  | (k', v') :: l => if k' = k then (k, v) :: l else (k', v') :: setEntry k v l

/-- `d[k]`, if there is such a key -/
def getEntry {V : Type} (k : Text) : List (Text × V) → Option V
  | [] => none
  | (k', v') :: l => if k' = k then some v' else getEntry k l

/-- an object of one of the classes that are made from the schema: ditto/formats/gridlabd/base.py:5-20, ditto/formats/gridlabd/gridlabd.py.
Simplification: names of attributes start with an underscore in python. -/
structure GldObj where
  cls : Text
  attrs : List (Text × Text) := []
deriving DecidableEq

/-- the names of attributes that objects of a class can have, with those of the parent classes; nothing if there is no such class. The
contents of ditto/formats/gridlabd/schema.json are not modelled. Simplification: only classes are found in the module. -/
abbrev Schema := Text → Option (List Text)

/-- `__getitem__`: ditto/formats/gridlabd/base.py:22-28 -/
def getAttr (o : GldObj) (k : Text) : Py Text :=
  match getEntry k o.attrs with
  | some v => .ok v
  | none => .error .attributeError

/-- `__setitem__`: ditto/formats/gridlabd/base.py:30-35 -/
def setAttr (schema : Schema) (o : GldObj) (k v : Text) : Py GldObj :=
  match schema o.cls with
  | none => .error .attributeError
  | some ps => if k ∈ ps then .ok { o with attrs := setEntry k v o.attrs } else .error .attributeError

/-- the classes that are left out: ditto/readers/gridlabd/read.py:527-538 -/
def skipped : List Text :=
  ["house".toList, "solar".toList, "inverter".toList, "waterheater".toList, "climate".toList, "ZIPload".toList, "tape.recorder".toList,
    "player".toList, "tape.collector".toList, "tape.group_recorder".toList, "recorder".toList]

/-- the variables of the loop: ditto/readers/gridlabd/read.py:502-508 -/
structure GState where
  objects : List (Text × GldObj) := []
  current : Option GldObj := none
  nested : Bool := false
  schedule : Option Text := none
  brackets : Int := 0
  found : Bool := false
  schedules : List (Text × Text) := []

/-- the text after `object` is split at colons: ditto/readers/gridlabd/read.py:524-542 -/
def newObject (schema : Schema) (word : Text) : Py (Option GldObj) :=
  match Net.splitCh ':' word with
  | [] => .error .indexError
  | c :: more =>
    if c ∈ skipped then .ok none
    else match schema c with
      | none => .error .attributeError
      | some _ =>
        match more with
        | [] => .ok (some { cls := c })
        | i :: _ => (setAttr schema { cls := c } "name".toList (c ++ ':' :: i)).map some

/-- a row that begins with `object`: ditto/readers/gridlabd/read.py:522-544 -/
def objectRow (schema : Schema) (s : GState) (rest : List Text) : Py GState :=
  match s.current with
  | some _ => .ok { s with nested := true }
  | none =>
    match rest with
    | [] => .error .indexError
    | word :: _ =>
      match newObject schema word with
      | .error e => .error e
      | .ok o => .ok { s with current := o }

/-- a row that begins with `schedule`: ditto/readers/gridlabd/read.py:546-550 -/
def scheduleRow (s : GState) (rest : List Text) : Py GState :=
  match s.schedule with
  | some _ => .ok s
  | none =>
    match rest with
    | [] => .error .indexError
    | n :: _ => .ok { s with schedule := some n, brackets := 1 }

/-- the value without a semicolon at the end: ditto/readers/gridlabd/read.py:560-561 -/
def noSemicolon (v : Text) : Text := if v.getLast? = some ';' then v.dropLast else v

/-- an attribute of the current object: ditto/readers/gridlabd/read.py:556-569 -/
def takeAttr (schema : Schema) (o : GldObj) : List Text → Py GldObj
  | element :: value :: _ => setAttr schema o element (noSemicolon value)
  | _ => .ok o

/-- the row ends with a brace: ditto/readers/gridlabd/read.py:571-572 -/
def closes (row : Text) : Bool := row.getLast? = some '}' || (row.drop (row.length - 2) = ['}', ';'])

/-- the name from both ends of a line, and the object with this name: ditto/readers/gridlabd/read.py:583-594 -/
def nameFromEnds (schema : Schema) (o : GldObj) : Py (Text × GldObj) :=
  match getAttr o "from".toList, getAttr o "to".toList with
  | .ok f, .ok t => (setAttr schema o "name".toList (f ++ '-' :: t)).map fun o' => (f ++ '-' :: t, o')
  | .error e, _ => .error e
  | .ok _, .error e => .error e

/-- name and object at the end: ditto/readers/gridlabd/read.py:576-597. Values are never `None`. -/
def named (schema : Schema) (o : GldObj) : Py (Text × GldObj) :=
  match getAttr o "name".toList with
  | .ok n => .ok (n, o)
  | .error _ => nameFromEnds schema o

/-- the end of an object: ditto/readers/gridlabd/read.py:572-598 -/
def closeObject (schema : Schema) (s : GState) (o : GldObj) : Py GState :=
  if s.nested then .ok { s with current := some o, nested := false }
  else match named schema o with
    | .error e => .error e
    | .ok (n, o') => .ok { s with current := none, objects := setEntry n o' s.objects }

/-- a row inside of an object: ditto/readers/gridlabd/read.py:555-598 -/
def insideObject (schema : Schema) (s : GState) (o : GldObj) (row : Text) : Py GState :=
  match takeAttr schema o (words row) with
  | .error e => .error e
  | .ok o' => if closes row then closeObject schema s o' else .ok { s with current := some o' }

/-- `row.strip(";")` -/
def stripSemicolons (l : Text) : Text := ((l.dropWhile (· = ';')).reverse.dropWhile (· = ';')).reverse

/-- an entry of a schedule: ditto/readers/gridlabd/read.py:600-608. `due` says whether the entry holds at the time, which is found with the
library croniter. -/
def scheduleEntry (due : List Text → Py Bool) (s : GState) (name : Text) (ws : List Text) : Py GState :=
  if 5 < ws.length && !s.found then
    match due ws.dropLast, ws.getLast? with
    | .error e, _ => .error e
    | .ok true, some v => .ok { s with found := true, schedules := setEntry name v s.schedules }
    | .ok _, _ => .ok s
  else .ok s

/-- `schedule_bracket_cnt` after a row: ditto/readers/gridlabd/read.py:611-614 -/
def bracketCount (n : Int) (row : Text) : Int :=
  n - (if row.getLast? = some '}' then 1 else 0) + (if row.head? = some '{' then 1 else 0)

/-- the end of a schedule: ditto/readers/gridlabd/read.py:610-617 -/
def scheduleEnd (s : GState) (row : Text) : GState :=
  if row = [] then s
  else if bracketCount s.brackets row = 0 then { s with brackets := 0, schedule := none, found := false }
  else { s with brackets := bracketCount s.brackets row }

/-- a row inside of a schedule: ditto/readers/gridlabd/read.py:599-617 -/
def insideSchedule (due : List Text → Py Bool) (s : GState) (name : Text) (row : Text) : Py GState :=
  match scheduleEntry due s name (words (stripSemicolons row)) with
  | .error e => .error e
  | .ok s' => .ok (scheduleEnd s' (stripSemicolons row))

/-- another row, first part: ditto/readers/gridlabd/read.py:553-598 -/
def objectPart (schema : Schema) (s : GState) (row : Text) : Py GState :=
  match s.current with
  | none => .ok s
  | some o => insideObject schema s o row

/-- another row, second part: ditto/readers/gridlabd/read.py:599-617 -/
def schedulePart (due : List Text → Py Bool) (row : Text) (s : GState) : Py GState :=
  match s.schedule with
  | none => .ok s
  | some n => insideSchedule due s n row

/-- another row: ditto/readers/gridlabd/read.py:552-617 -/
def otherRow (schema : Schema) (due : List Text → Py Bool) (s : GState) (row : Text) : Py GState :=
  match objectPart schema s row with
  | .error e => .error e
  | .ok s' => schedulePart due row s'

/-- a row by its first word: ditto/readers/gridlabd/read.py:521-617 -/
def byWord (schema : Schema) (due : List Text → Py Bool) (s : GState) (row : Text) : Py GState :=
  match words row with
  | [] => otherRow schema due s row
  | w :: ws =>
    if w = "object".toList then objectRow schema s ws
    else if w = "schedule".toList then scheduleRow s ws
    else otherRow schema due s row

/-- one row: ditto/readers/gridlabd/read.py:516-617 -/
def rowStep (schema : Schema) (due : List Text → Py Bool) (s : GState) (row : Text) : Py GState :=
  if (Net.pyStrip row).take 2 = ['/', '/'] then .ok s else byWord schema due s (Net.pyStrip row)

/-- all rows: ditto/readers/gridlabd/read.py:516-617 -/
def readRows (schema : Schema) (due : List Text → Py Bool) (s : GState) (rows : List Text) : Py GState :=
  rows.foldlM (rowStep schema due) s

/-- `entries[1].strip('"')` -/
def stripQuotes (l : Text) : Text := ((l.dropWhile (· = '"')).reverse.dropWhile (· = '"')).reverse

/-- the rows of an included file: ditto/readers/gridlabd/read.py:509-514. `files` gives the contents of the files; if there is no such file
an exception is raised. -/
def included (files : Text → Option (List Text)) (row : Text) : Py (List Text) :=
  if row.take 8 = "#include".toList then
    match words row with
    | _ :: w :: _ =>
      match files (stripQuotes w) with
      | some rows => .ok rows
      | none => .error .genericException
    | _ => .error .indexError
  else .ok []

/-- `all_includes`: ditto/readers/gridlabd/read.py:508-514 -/
def allIncluded (files : Text → Option (List Text)) : List Text → Py (List Text)
  | [] => .ok []
  | row :: rows =>
    match included files row with
    | .error e => .error e
    | .ok a => (allIncluded files rows).map (a ++ ·)

/-- the objects and schedules after reading a file: ditto/readers/gridlabd/read.py:495-619. `before` is the dictionary `all_gld_objects` before
the reading: it belongs to the class `Reader` (line 53), so that it keeps the objects of all files read before. -/
def readGlm (schema : Schema) (due : List Text → Py Bool) (files : Text → Option (List Text)) (before : List (Text × GldObj))
    (rows : List Text) : Py GState :=
  match allIncluded files rows with
  | .error e => .error e
  | .ok more => readRows schema due { objects := before } (rows ++ more)

end Ditto.Glm
