import Verif.Model.DssNodes

/-! What a reader of the file of coordinates and of the equipment should find. -/
namespace Ditto.Spec
open Ditto Ditto.Dss

/-- one equipment end says that its bus `b` has the number `k`: either the number follows the name, or nothing follows it and the equipment
has three phases -/
def Connects (three : Bool) (r : BusRef) (b : String) (k : Nat) : Prop :=
  r.1 = b ∧ ((∃ ns, r.2 = some ns ∧ k ∈ ns) ∨ (r.2 = none ∧ three = true ∧ (k = 1 ∨ k = 2 ∨ k = 3)))

/-- some equipment is connected to number `k` of bus `b` -/
def Touches (q : Equipment) (b : String) (k : Nat) : Prop :=
  (∃ l ∈ q.lines, Connects l.three l.bus1 b k ∨ Connects l.three l.bus2 b k) ∨ (∃ t ∈ q.trafos, ∃ r ∈ t.buses, Connects t.three r b k) ∨
    ∃ t ∈ q.loads, ∃ r ∈ t.buses, Connects t.three r b k

/-- the phases of an end are known -/
def Specified (three : Bool) (r : BusRef) : Prop := r.2 ≠ none ∨ three = true

/-- some equipment ends at bus `b` with known phases -/
def Mentions (q : Equipment) (b : String) : Prop :=
  (∃ l ∈ q.lines, l.bus1.1 = b ∨ l.bus2.1 = b) ∨ (∃ t ∈ q.trafos, ∃ r ∈ t.buses, r.1 = b ∧ Specified t.three r) ∨
    ∃ t ∈ q.loads, ∃ r ∈ t.buses, r.1 = b ∧ Specified t.three r

/-- an end of a line that the reader accepts: known phases, all of them 1, 2 or 3 -/
def ReadableEnd (three : Bool) (r : BusRef) : Prop := Specified three r ∧ ∀ ns, r.2 = some ns → ∀ k ∈ ns, k = 1 ∨ k = 2 ∨ k = 3

/-- the ends of the lines have numbers 1 to 3 -/
def ReadableLines (q : Equipment) : Prop := ∀ l ∈ q.lines, ReadableEnd l.three l.bus1 ∧ ReadableEnd l.three l.bus2

/-- the phases of all ends of transformers and loads are known -/
def SpecifiedEnds (q : Equipment) : Prop := (∀ t ∈ q.trafos, ∀ r ∈ t.buses, Specified t.three r) ∧ ∀ t ∈ q.loads, ∀ r ∈ t.buses, Specified t.three r

/-- the text of a number can be read back, and neither blanks nor the delimiter are in it; the delimiter is no character of names -/
structure Printable (shown : ℚ → List Char) (flt : List Char → Option ℚ) (d : Char) : Prop where
  reads : ∀ x, flt (shown x) = some x
  nonempty : ∀ x, shown x ≠ []
  blanks : ∀ x, ∀ c ∈ shown x, c.isWhitespace = false
  delimiter : ∀ x, d ∉ shown x
  names : d.isAlphanum = false ∧ d ≠ '_' ∧ d ≠ '\n'

/-- a line with other than three fields -/
def Malformed (d : Char) (line : List Char) : Prop := Net.pyStrip line ≠ [] ∧ (Net.splitCh d line).length ≠ 3

/-- the last line for a bus: name in small letters, longitude and latitude -/
def lastLine (flt : List Char → Option ℚ) (d : Char) (file : Option (List (List Char))) (b : Option String) : Option (Coord × Coord) :=
  (((file.getD []).filterMap (readCoord flt d)).reverse.find? fun c => decide (c.1 = b)).map (·.2)

end Ditto.Spec
