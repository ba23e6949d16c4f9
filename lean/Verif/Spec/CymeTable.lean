import Verif.Model.CymeTable
import Mathlib.Data.List.Forall2

/-! What the tables of a CYME file say, independent of the reader. -/
namespace Ditto.Cyme.Spec
open Ditto Glm Cyme

/-- the end of a line, or of the file -/
def Eol (e : Text) : Prop := e = [] ∨ e = ['\n'] ∨ e = ['\r', '\n']

/-- cells with commas between them -/
def joinCells : List Text → Text
  | [] => []
  | [c] => c
  | c :: d :: cs => c ++ ',' :: joinCells (d :: cs)

/-- a text that can stand between two commas -/
def CellText (c : Text) : Prop := ',' ∉ c ∧ '=' ∉ c ∧ '\n' ∉ c ∧ '\r' ∉ c

/-- the line consists of these cells, at least two -/
def RowLine (line : Text) (cells : List Text) : Prop :=
  2 ≤ cells.length ∧ (∀ c ∈ cells, CellText c) ∧ 2 < line.length ∧ ∃ e, Eol e ∧ line = joinCells cells ++ e

/-- the line names the columns: `FORMAT_...=a,b,c` -/
def FormatLine (line : Text) (cols : List Text) : Prop :=
  cols ≠ [] ∧ (∀ c ∈ cols, CellText c) ∧ ∃ name e, Eol e ∧ '=' ∉ name ∧ "format".toList <:+: name.map Char.toLower ∧
    line = name ++ '=' :: (joinCells cols ++ e)

/-- a table -/
structure Table where
  cols : List Text
  rows : List (List Text)

/-- one of the headers stands in the line -/
def Heads (headers : List Text) (line : Text) : Prop := ∃ h ∈ headers, h <:+: line

/-- the lines of a file with these tables: after each table there is an empty line, or the end of the file -/
inductive Lays (headers : List Text) : List Text → List Table → Prop
  | nil : Lays headers [] []
  | other {line : Text} {rest : List Text} {ts : List Table} : ¬Heads headers line → Lays headers rest ts → Lays headers (line :: rest) ts
  | table {h f blank : Text} {lines rest : List Text} {t : Table} {ts : List Table} :
      Heads headers h → FormatLine f t.cols → List.Forall₂ RowLine lines t.rows → blank.length ≤ 2 → Lays headers rest ts →
      Lays headers (h :: f :: (lines ++ blank :: rest)) (t :: ts)
  | last {h f : Text} {lines : List Text} {t : Table} :
      Heads headers h → FormatLine f t.cols → List.Forall₂ RowLine lines t.rows → t.rows ≠ [] → Lays headers (h :: f :: lines) [t]

/-- column `i` has the name `k`, in any case of letters, and no later one has -/
def IsColumn (cols : List Text) (k : Text) (i : Nat) : Prop :=
  (cols[i]?).map (List.map Char.toLower) = some k ∧ ∀ j, i < j → (cols[j]?).map (List.map Char.toLower) ≠ some k

/-- the cell of a row for an attribute -/
def Cell (cols row : List Text) (k c : Text) : Prop := ∃ i, IsColumn cols k i ∧ row[i]? = some c

/-- the key of a row: its first cell without blanks -/
def keyOf : List Text → Text
  | [] => []
  | c :: _ => Net.pyStrip c

/-- rows with the columns of their table -/
def rowsOf (ts : List Table) : List (List Text × List Text) := ts.flatMap fun t => t.rows.map fun r => (t.cols, r)

/-- texts that differ only in blanks at the ends -/
def Same (a b : Text) : Prop := Net.pyStrip a = Net.pyStrip b

/-- the entry of the dictionary has the cells of the row for these attributes, and nothing else -/
def Entry (attrs : List Text) (row : List Text × List Text) (p : Text × Values) : Prop :=
  p.1 = keyOf row.2 ∧
    ∀ k, ((k ∈ attrs ∧ ∃ c, Cell row.1 row.2 k c) → ∃ v c, getEntry k p.2 = some v ∧ Cell row.1 row.2 k c ∧ Same v c) ∧
      (¬(k ∈ attrs ∧ ∃ c, Cell row.1 row.2 k c) → getEntry k p.2 = none)

end Ditto.Cyme.Spec
