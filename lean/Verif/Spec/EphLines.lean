import Verif.Model.EphLines
import Verif.Spec.EphBuses

/-! What the sheet Multiphase Line of an ePHASOR file should say. -/
namespace Ditto.Eph.Spec
open Ditto Ditto.Eph
open Ditto.Glm (Text)

variable {K : Type}

/-- the phases of the wires that are not the neutral -/
def linePhases (l : EphLine K) : List Text := (l.wires.filterMap id).filter (· ≠ ['N'])

/-- the number in a row and a column of a matrix; both count from 0 -/
def entryOf (m : Option (List (List (K × K)))) (i j : Nat) : Option (K × K) := m.bind fun m => m[i]?.bind fun row => row[j]?

/-- the cells of an end: the buses of the phases, or nothing if the end is not known -/
def EndSays (l : EphLine K) (element : Option Text) (cells : List Text) : Prop :=
  (element = none → cells = []) ∧ ∀ e ∈ element, List.Forall₂ (BusOf e) (linePhases l) cells

/-- the column of a pair of phases in a row: the six columns are those of the pairs 11, 12, 22, 13, 23, 33 -/
def cellOf (cells : List (Option K)) (i j : Nat) : Option K := (cells[j * (j + 1) / 2 + i]?).join

/-- the cells of a matrix: for each pair of phases the number of that pair -/
def MatrixSays (f : K × K → K) (m : Option (List (List (K × K)))) (cells : List (Option K)) : Prop :=
  cells.length = 6 ∧ ∀ i j, i ≤ j → j < 3 → cellOf cells i j = (entryOf m i j).map f

/-- the row of a line: the lengths in miles, and the numbers per mile; `mile` is the number of miles in a meter -/
def LineSays [Field K] (mile pi : K) (l : EphLine K) (r : LineRow K) : Prop :=
  (∀ n ∈ l.name, r.id = n) ∧ EndSays l l.source r.source ∧ EndSays l l.sink r.sink ∧ r.mode = "full".toList ∧ r.length = l.length.map (· * mile) ∧
    MatrixSays (fun z => z.1 / mile) l.z r.r ∧ MatrixSays (fun z => z.2 / mile) l.z r.x ∧ MatrixSays (fun c => 2 * pi * 60 * (c.1 / mile) / 1000) l.c r.b

/-- the line can be written: at most three phases if an end is known, and a length if there is a capacitance -/
def LineOk (l : EphLine K) : Prop :=
  ((l.source ≠ none ∨ l.sink ≠ none) → (linePhases l).length ≤ 3) ∧ ((∃ i j, entryOf l.c i j ≠ none) → l.length ≠ none)

/-- the lines that are not switches -/
def plainLines (lines : List (EphLine K)) : List (EphLine K) := lines.filter fun l => l.isSwitch != some true

/-- the matrix is symmetric and has as many rows and columns as given -/
def Square (m : Option (List (List (K × K)))) (n : Nat) : Prop :=
  (∀ i j, (entryOf m i j).isSome ↔ i < n ∧ j < n) ∧ ∀ i j, entryOf m i j = entryOf m j i

/-- the model has the nodes of all lines, with their phases -/
def LinesHaveNodes (nodes : List (EphNode K)) (lines : List (EphLine K)) : Prop :=
  ∀ l ∈ plainLines lines, ∀ e, (l.source = some e ∨ l.sink = some e) → ∀ p ∈ linePhases l, ∃ n ∈ nodes, n.name = some e ∧ p.map Char.toLower ∈ lettersOf n.phases

end Ditto.Eph.Spec
