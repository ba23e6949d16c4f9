import Verif.Model.Py
import Mathlib.Data.List.Basic

/-! `open_close_switches` of `ditto/modify/system_structure.py`. Texts are lists of characters. -/
namespace Ditto.Net
open Ditto

/-- An object of the model with a name: `is_open` of its wires; no wires stands also for an object without the attribute `wires`, for which
the `AttributeError` is caught -/
structure OcObj where
  name : List Char
  wires : List (Option Bool)
deriving DecidableEq, Repr

/-- `s.split(c)` -/
def splitCh (c : Char) : List Char → List (List Char)
  | [] => [[]]
  | a :: t =>
    if a = c then [] :: splitCh c t
    else
      match splitCh c t with
      | [] => [[a]]
      | p :: ps => (a :: p) :: ps

/-- `s.strip()`. Simplification: only the ASCII blanks, tabs and ends of lines count as white space. -/
def pyStrip (l : List Char) : List Char := ((l.dropWhile Char.isWhitespace).reverse.dropWhile Char.isWhitespace).reverse

/-- `l[i]` -/
def item (l : List (List Char)) (i : Nat) : Py (List Char) :=
  match l[i]? with
  | none => .error .indexError
  | some x => .ok x

/-- The pairs of which the dictionary is made: ditto/modify/system_structure.py:1092-1098 -/
def dataPairs : List (List Char) → Py (List (List Char × List Char))
  | [] => .ok []
  | x :: xs =>
    match item (splitCh '=' x) 0, item (splitCh '=' x) 1, dataPairs xs with
    | .ok k, .ok v, .ok ps => .ok (((pyStrip k).map Char.toLower, pyStrip v) :: ps)
    | _, _, _ => .error .indexError

/-- One line of the file: the name and the pairs of the dictionary, ditto/modify/system_structure.py:1090-1098 -/
def parseSwitch (line : List Char) : Py (List Char × List (List Char × List Char)) :=
  let raw := splitCh ' ' line
  match item raw 1 with
  | .error e => .error e
  | .ok x =>
    match item (splitCh '.' x) 1 with
    | .error e => .error e
    | .ok nm =>
      match dataPairs (raw.drop 2) with
      | .error e => .error e
      | .ok ps => .ok ((pyStrip nm).map Char.toLower, ps)

/-- `data_line[k]`: the last pair with the key -/
def dictGet (ps : List (List Char × List Char)) (k : String) : Option (List Char) :=
  (ps.reverse.find? fun p => p.1 = k.toList).map (·.2)

/-- ditto/modify/system_structure.py:1099-1103 -/
def isSwitchLine (ps : List (List Char × List Char)) : Bool :=
  match dictGet ps "switch" with
  | none => false
  | some v => v = "y".toList || v = "yes".toList || v = "true".toList

/-- all wires of the object called `nm`: ditto/modify/system_structure.py:1105-1115. Names are distinct. A missing object raises
`KeyError`, which is caught. -/
def setOpen (nm : List Char) (b : Bool) (os : List OcObj) : List OcObj :=
  os.map fun o => if o.name = nm then { o with wires := o.wires.map fun _ => some b } else o

/-- `open_close_switches`: ditto/modify/system_structure.py:1080-1115. The objects, and the exception if one is raised: the lines before
have had their effect. -/
def openClose : List (List Char) → List OcObj → List OcObj × Option PyErr
  | [], os => (os, none)
  | line :: lines, os =>
    match parseSwitch line with
    | .error e => (os, some e)
    | .ok (nm, ps) =>
      if isSwitchLine ps then
        if dictGet ps "r1" = some "1e11".toList then openClose lines (setOpen nm true os)
        else openClose lines (setOpen nm false os)
      else openClose lines os

end Ditto.Net
