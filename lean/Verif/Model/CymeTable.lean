import Verif.Model.GlmParse
import Verif.Model.OpenClose

/-! Tables of CYME files: `parser_helper` and the loop over the lines of a file around it, in ditto/readers/cyme/read.py. A file is the
list of its lines, each one with the characters that end it. -/
namespace Ditto.Cyme
open Ditto Glm

/-- `x.lower()`. Simplification: only ASCII letters. -/
def lower (t : Text) : Text := t.map Char.toLower

/-- `x in t` for texts -/
def inText (x t : Text) : Bool := t.tails.any fun s => x.isPrefixOf s

/-- the characters that end a line -/
def lineEnd (c : Char) : Bool := c = '\r' || c = '\n'

/-- `x.strip("\r\n")`. Stripping one of the two characters afterwards changes nothing. -/
def stripEol (t : Text) : Text := ((t.dropWhile lineEnd).reverse.dropWhile lineEnd).reverse

/-- a dictionary with the values of one row -/
abbrev Values := List (Text × Text)

/-- `check_object_in_line`: ditto/readers/cyme/read.py:722-755. `headers` are the headers of the object. -/
def isHeader (headers : List Text) (line : Text) : Bool := headers.any fun h => inText h line

/-- the names of the columns: ditto/readers/cyme/read.py:797-803, 840-846. None if there is no equality sign. -/
def columnNames (line : Text) : Option (List Text) :=
  match Net.splitCh '=' line with
  | _ :: a :: _ => some ((Net.splitCh ',' a).map fun x => stripEol (lower x))
  | _ => none

/-- positions of the attributes: ditto/readers/cyme/read.py:806-810, 857-861 -/
def positions (attrs : List Text) : Nat → List Text → List (Text × Nat) → List (Text × Nat)
  | _, [], m => m
  | i, x :: xs, m => positions attrs (i + 1) xs (if attrs.count x = 1 then setEntry x i m else m)

/-- the mapping after a line with the format: ditto/readers/cyme/read.py:794-812 -/
def mappingOf (attrs : List Text) (line : Text) : List (Text × Nat) :=
  match columnNames line with
  | some names => positions attrs 0 names []
  | none => []

/-- `data[mapping[k]]`, or nothing after an exception: ditto/readers/cyme/read.py:832-835 -/
def cellOf (mapping : List (Text × Nat)) (data : List Text) (k : Text) : Option Text :=
  match getEntry k mapping with
  | none => none
  | some i => data[i]?

/-- one attribute of a row: ditto/readers/cyme/read.py:832-835 -/
def addCell (mapping : List (Text × Nat)) (data : List Text) (r : Values) (k : Text) : Values :=
  match cellOf mapping data k with
  | none => r
  | some v => setEntry k v r

/-- `d.update(e)` -/
def updateAll {V : Type} (d e : List (Text × V)) : List (Text × V) := e.foldl (fun d p => setEntry p.1 p.2 d) d

/-- the values of a row: ditto/readers/cyme/read.py:831-835 -/
def rowValues (attrs : List Text) (mapping : List (Text × Nat)) (info : Values) (data : List Text) : Values :=
  updateAll (attrs.foldl (addCell mapping data) []) info

/-- the loop that finds a free key: ditto/readers/cyme/read.py:827-828. The first argument bounds the rounds; the number of keys is enough. -/
def freeKey (keys : List Text) : Nat → Text → Text
  | 0, k => k
  | n + 1, k => if k ∈ keys then freeKey keys n (k ++ ['*']) else k

/-- the variables of `parser_helper` inside of a table -/
structure TableState where
  attrs : List Text
  mapping : List (Text × Nat)
  more : List Text := []
  result : List (Text × Values) := []
deriving DecidableEq

/-- `data[0].strip()` -/
def rowId (data : List Text) : Text :=
  match data with
  | [] => []
  | x :: _ => Net.pyStrip x

/-- a row with data: ditto/readers/cyme/read.py:821-837 -/
def dataRow (info : Values) (s : TableState) (line : Text) : TableState :=
  if 1 < (Net.splitCh ',' line).length then
    { s with result := s.result ++ [(freeKey (s.result.map (·.1)) s.result.length (rowId (Net.splitCh ',' line)),
        rowValues s.attrs s.mapping info (Net.splitCh ',' line))] }
  else s

/-- a row with an equality sign: ditto/readers/cyme/read.py:838-868 -/
def formatRow (s : TableState) (line : Text) : TableState :=
  if s.more = [] then s else { s with attrs := s.more, mapping := mappingOf s.more line, more := [] }

/-- a row of a table: ditto/readers/cyme/read.py:819-868 -/
def tableRow (info : Values) (s : TableState) (line : Text) : TableState := if '=' ∈ line then formatRow s line else dataRow info s line

/-- the rows of a table until a line with at most two characters or the end of the file, and the lines that remain:
ditto/readers/cyme/read.py:816-873 -/
def tableRows (info : Values) : TableState → List Text → TableState × List Text
  | s, [] => (s, [])
  | s, line :: rest => if 2 < line.length then tableRows info (tableRow info s line) rest else (s, rest)

/-- what `parser_helper` is called with -/
structure Query where
  headers : List Text
  attrs : List Text
  mapping : List (Text × Nat)
  info : Values := []
  more : List Text := []

/-- the table after a header: ditto/readers/cyme/read.py:789-873. `next` on a file that has ended raises `StopIteration`. -/
def afterHeader (q : Query) : List Text → Py (TableState × List Text)
  | [] => .error .stopIteration
  | line :: rest =>
    if inText "format".toList (lower line) then
      match rest with
      | [] => .error .stopIteration
      | next :: rest' => .ok (tableRows q.info { attrs := q.attrs, mapping := mappingOf q.attrs line, more := q.more } (next :: rest'))
    else .ok (tableRows q.info { attrs := q.attrs, mapping := q.mapping, more := q.more } (line :: rest))

/-- `parser_helper`: ditto/readers/cyme/read.py:757-875. The result, and the lines that remain. -/
def parserHelper (q : Query) (line : Text) (rest : List Text) : Py (List (Text × Values) × List Text) :=
  if isHeader q.headers line then
    match afterHeader q rest with
    | .error e => .error e
    | .ok (s, rest') => .ok (s.result, rest')
  else .ok ([], rest)

/-- the loop over the lines of a file, as in ditto/readers/cyme/read.py:981-989, 1005-1008. The first argument bounds the number of rounds;
the number of lines is enough. -/
def readLoop (q : Query) : Nat → List (Text × Values) → List Text → Py (List (Text × Values))
  | _, d, [] => .ok d
  | 0, d, _ => .ok d
  | n + 1, d, line :: rest =>
    match parserHelper q line rest with
    | .error e => .error e
    | .ok (r, rest') => readLoop q n (updateAll d r) rest'

/-- all tables of a file -/
def readTables (q : Query) (content : List Text) : Py (List (Text × Values)) := readLoop q content.length [] content

end Ditto.Cyme
