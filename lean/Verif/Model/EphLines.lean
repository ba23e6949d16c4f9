import Verif.Model.EphBuses

/-! The sheet Multiphase Line of the ePHASOR writer: `line` in ditto/writers/ephasor/write.py. Numbers are exact. Matrices are lists of rows of the same
length; their numbers are pairs of a real and an imaginary part. -/
namespace Ditto.Eph
open Ditto
open Ditto.Glm (Text)

/-- the attributes of a `Line` that are used here: ditto/models/line.py:36-96. Of the wires only the phases are used. -/
structure EphLine (K : Type) where
  isSwitch : Option Bool
  name : Option Text
  source : Option Text
  sink : Option Text
  length : Option K
  wires : List (Option Text)
  z : Option (List (List (K × K)))
  c : Option (List (List (K × K)))
deriving DecidableEq

/-- a row of the sheet: ditto/writers/ephasor/write.py:233-267, 552-588. The cells of an end are those with the letters a, b, c; missing ones are `None`. The
cells of `r`, `x` and `b` are those of the columns 11, 21, 22, 31, 32, 33. -/
structure LineRow (K : Type) where
  source : List Text
  sink : List Text
  id : Text
  mode : Text
  length : Option K
  r0 : Option K := none
  x0 : Option K := none
  r1 : Option K := none
  x1 : Option K := none
  b0 : Option K := none
  b1 : Option K := none
  r : List (Option K)
  x : List (Option K)
  b : List (Option K)
deriving DecidableEq

/-- the columns; each text has two digits, which are modelled as numbers: ditto/writers/ephasor/write.py:268 -/
def validColumns : List (Nat × Nat) := [(1, 1), (2, 1), (2, 2), (3, 1), (3, 2), (3, 3)]

/-- the buses of an end: ditto/writers/ephasor/write.py:316-334, 336-353. A fourth wire raises IndexError. -/
def endBuses (element : Option Text) (wires : List (Option Text)) : Except PyErr (List Text) :=
  match element with
  | none => .ok []
  | some e =>
    let phases := (wires.filterMap id).filter (· ≠ ['N'])
    if phases.length ≤ 3 then .ok (phases.map (busName e)) else .error .indexError

section numbers
variable {K : Type}

/-- the loops over a matrix: ditto/writers/ephasor/write.py:381-382, 401-402, 432-433, 495-496 -/
def matrixCells (m : List (List (K × K))) : List ((Nat × Nat) × (K × K)) :=
  m.zipIdx.flatMap fun row => row.1.zipIdx.map fun elt => ((row.2, elt.2), elt.1)

/-- the last number written to a column, with the number of the column before that of the row: ditto/writers/ephasor/write.py:384-389, 403-408, 434-483. The
cell of a column that is not valid is the one before, which gets the same number again. -/
def columnCells (f : K × K → K) (m : Option (List (List (K × K)))) : List (Option K) :=
  validColumns.map fun col => match m with
    | none => none
    | some m => (((matrixCells m).filter fun c => (c.1.2 + 1, c.1.1 + 1) = col).getLast?).map fun c => f c.2

variable [Field K] [DecidableEq K] (mile pi : K)

/-- a number of the capacitance matrix: ditto/writers/ephasor/write.py:445-457. `mile` is the factor to miles; the number per mile is divided by it. -/
def susceptance (c : K × K) : K := if c = (0, 0) then 0 else c.1 / mile * (1 / 1000) * 2 * 60 * pi

/-- a line: ditto/writers/ephasor/write.py:283-550. A line with a capacitance, but without a length raises TypeError. -/
def lineRow (l : EphLine K) : Except PyErr (LineRow K) :=
  match endBuses l.source l.wires with
  | .error e => .error e
  | .ok source =>
    match endBuses l.sink l.wires with
    | .error e => .error e
    | .ok sink =>
      if (∃ m ∈ l.c, matrixCells m ≠ []) ∧ l.length = none then .error .typeError
      else .ok {
        source := source
        sink := sink
        id := match l.name with | some n => n | none => "None".toList
        mode := "full".toList
        length := l.length.map (mile * ·)
        r := columnCells (fun z => z.1 / mile) l.z
        x := columnCells (fun z => z.2 / mile) l.z
        b := columnCells (susceptance mile pi) l.c }

/-- `line`: ditto/writers/ephasor/write.py:183-590 -/
def lineSheet (lines : List (EphLine K)) : Except PyErr (List (LineRow K)) := (lines.filter fun l => l.isSwitch ≠ some true).mapM (lineRow mile pi)

end numbers
end Ditto.Eph
