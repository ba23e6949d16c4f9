import Verif.Model.DssLoads
import Verif.Model.OpenClose
import Mathlib.Data.List.Dedup
import Mathlib.Data.List.Sort

/-! Nodes in OpenDSS files: the text of the file of coordinates (`write_bus_coordinates` of ditto/writers/opendss/write.py) and `parse_nodes` of
ditto/readers/opendss/read.py. -/
namespace Ditto.Dss
open Ditto

/-! ### Writer -/

/-- a line of the file of coordinates: ditto/writers/opendss/write.py:352-354. `shown`: the text of a number. -/
def coordText (shown : ℚ → List Char) (d : Char) (b : BusLine) : List Char :=
  b.1.toList ++ d :: (shown b.2.1 ++ d :: (shown b.2.2 ++ ['\n']))

/-! ### Reader -/

/-- the variables `X` and `Y`: a number, a text that is none, or `None` -/
inductive Coord
  | num (x : ℚ)
  | text (s : List Char)
  | none
deriving DecidableEq, Repr

/-- `float(X)`, then `float(Y)`; the first failure ends both: ditto/readers/opendss/read.py:562-571. `flt`: `float` of a text. -/
def castCoords (flt : List Char → Option ℚ) (x y : List Char) : Coord × Coord :=
  match flt x with
  | .none => (.text x, .text y)
  | some a =>
    match flt y with
    | .none => (.num a, .text y)
    | some b => (.num a, .num b)

/-- the fields of a line: ditto/readers/opendss/read.py:550-571. Simplification: the delimiter is one character. -/
def coordFields (flt : List Char → Option ℚ) : List (List Char) → Option String × Coord × Coord
  | [n, x, y] => (some (pyLower (String.ofList n)), castCoords flt x y)
  | _ => (none, .none, .none)

/-- a line of the file; `none` if it is blank: ditto/readers/opendss/read.py:547-571 -/
def readCoord (flt : List Char → Option ℚ) (d : Char) (line : List Char) : Option (Option String × Coord × Coord) :=
  if Net.pyStrip line = [] then none else some (coordFields flt ((Net.splitCh d line).map Net.pyStrip))

/-- an entry of the dictionary `buses`. `positions`: `none` for `None`. `phases`: `none` if there is no such key, `some none` for `None`. -/
structure BusRec where
  positions : Option (Coord × Coord) := none
  phases : Option (Option (List Nat)) := none
deriving DecidableEq, Repr

/-- the dictionary `buses`; the key `None` is possible -/
abbrev Buses := List (Option String × BusRec)

/-- `buses[k] = v` -/
def putBus (k : Option String) (v : BusRec) : Buses → Buses
  | [] => [(k, v)]
  | e :: es => if e.1 = k then (k, v) :: es else e :: putBus k v es

/-- ditto/readers/opendss/read.py:573-581; the list `all_object_names` is only used for warnings and not modelled -/
def addCoord (bs : Buses) (c : Option String × Coord × Coord) : Buses :=
  match bs.lookup c.1 with
  | none => putBus c.1 { positions := some c.2 } bs
  | some r => putBus c.1 { r with positions := some c.2 } bs

/-- the file of coordinates, `none` if it cannot be opened: ditto/readers/opendss/read.py:535-581 -/
def readCoords (flt : List Char → Option ℚ) (d : Char) : Option (List (List Char)) → Buses
  | none => []
  | some ls => (ls.filterMap (readCoord flt d)).foldl addCoord []

/-- `np.unique(l).tolist()` -/
def unique (l : List Nat) : List Nat := l.dedup.insertionSort (· ≤ ·)

/-- ditto/readers/opendss/read.py:631-644, the same at 646-659, 679-696, 713-726. Adding to or of `None` raises `TypeError`. -/
def addPhases (bs : Buses) (name : Option String) (phs : Option (List Nat)) : Py Buses :=
  match bs.lookup name with
  | none =>
    match name with
    | none => .error .keyError
    | some n => .ok (putBus (some n) { phases := some phs } bs)
  | some r =>
    match r.phases with
    | none => .ok (putBus name { r with phases := some phs } bs)
    | some none => .error .typeError
    | some (some old) =>
      match phs with
      | none => .error .typeError
      | some new => .ok (putBus name { r with phases := some (some (unique (old ++ new))) } bs)

/-- the bus of an equipment as OpenDSS reports it: the name and the numbers after dots, `none` if there is no dot. Simplification: the
numbers are natural numbers and the names have no blanks around. -/
abbrev BusRef := String × Option (List Nat)

/-- an end of a line: ditto/readers/opendss/read.py:589-608, 610-629. `three`: `data["phases"] == "3"`. -/
def lineEnd (three : Bool) (b : BusRef) : Py (String × List Nat) :=
  match b.2 with
  | some ns => if ns.all fun n => decide (n = 1 ∨ n = 2 ∨ n = 3) then .ok (b.1, ns) else .error .valueError
  | none => if three then .ok (b.1, [1, 2, 3]) else .error .valueError

/-- an end of a transformer or the bus of a load: ditto/readers/opendss/read.py:667-677, 702-712 -/
def softEnd (three : Bool) (b : BusRef) : Option String × Option (List Nat) :=
  match b.2 with
  | some ns => (some b.1, some ns)
  | none => if three then (some b.1, some [1, 2, 3]) else (none, none)

/-- what is read of a line -/
structure LineEnds where
  three : Bool := true
  bus1 : BusRef
  bus2 : BusRef
deriving DecidableEq, Repr

/-- what is read of a transformer or a load, which has one bus -/
structure Ends where
  three : Bool := true
  buses : List BusRef := []
deriving DecidableEq, Repr

/-- ditto/readers/opendss/read.py:587-659 -/
def addLine (bs : Buses) (l : LineEnds) : Py Buses :=
  match lineEnd l.three l.bus1 with
  | .error e => .error e
  | .ok a =>
    match lineEnd l.three l.bus2 with
    | .error e => .error e
    | .ok b =>
      match addPhases bs (some a.1) (some a.2) with
      | .error e => .error e
      | .ok bs' => addPhases bs' (some b.1) (some b.2)

/-- ditto/readers/opendss/read.py:667-696 -/
def addEnds (three : Bool) : Buses → List BusRef → Py Buses
  | bs, [] => .ok bs
  | bs, b :: rest =>
    match addPhases bs (softEnd three b).1 (softEnd three b).2 with
    | .error e => .error e
    | .ok bs' => addEnds three bs' rest

/-- a `for` loop whose body may raise -/
def forPy {σ α : Type} (f : σ → α → Py σ) : σ → List α → Py σ
  | s, [] => .ok s
  | s, a :: rest =>
    match f s a with
    | .error e => .error e
    | .ok s' => forPy f s' rest

/-- all equipment: lines, transformers and loads in this order: ditto/readers/opendss/read.py:583-726 -/
structure Equipment where
  lines : List LineEnds := []
  trafos : List Ends := []
  loads : List Ends := []
deriving DecidableEq, Repr

/-- the dictionary `buses` at the end: ditto/readers/opendss/read.py:534-726 -/
def readBusDict (flt : List Char → Option ℚ) (d : Char) (file : Option (List (List Char))) (q : Equipment) : Py Buses :=
  match forPy addLine (readCoords flt d file) q.lines with
  | .error e => .error e
  | .ok bs =>
    match forPy (fun s t => addEnds t.three s t.buses) bs q.trafos with
    | .error e => .error e
    | .ok bs' => forPy (fun s t => addEnds t.three s t.buses) bs' q.loads

/-- a `Node` that was read: name, longitude and latitude of the position, phases (`none`: a phase without name) and feeder -/
structure RNode where
  name : Option String
  position : Option (Option ℚ × Option ℚ) := none
  phases : List (Option String) := []
  feeder : String
deriving DecidableEq, Repr

/-- assigning a coordinate: a text raises `TraitError` -/
def coordValue : Coord → Option (Option ℚ)
  | .num x => some (some x)
  | .text _ => none
  | .none => some none

/-- the position, if no assignment raises: ditto/readers/opendss/read.py:740-746 -/
def positionOf : Option (Coord × Coord) → Option (Option ℚ × Option ℚ)
  | none => none
  | some c =>
    match coordValue c.1, coordValue c.2 with
    | some x, some y => some (x, y)
    | _, _ => none

/-- ditto/readers/opendss/read.py:750-755 -/
def phasesOf : Option (Option (List Nat)) → List (Option String)
  | some (some ns) => ns.map ofDssPhase
  | _ => []

/-- `parse_nodes`: ditto/readers/opendss/read.py:520-759 -/
def readNodes (flt : List Char → Option ℚ) (d : Char) (source : String) (file : Option (List (List Char))) (q : Equipment) : Py (List RNode) :=
  match readBusDict flt d file q with
  | .error e => .error e
  | .ok bs => .ok (bs.map fun e => ⟨e.1, positionOf e.2.positions, phasesOf e.2.phases, source⟩)

end Ditto.Dss
