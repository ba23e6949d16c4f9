import Verif.Spec.CymeNodes
import Verif.Model.CymeSources

/-! What the sources of a CYME file are, independent of the reader. -/
namespace Ditto.Cyme.Spec
open Ditto Glm Cyme

/-- The lines of a file with tables of several kinds, in any order. A kind is the list of its headers; after each table there is an empty line, or
the end of the file. -/
inductive Mixed (kinds : List (List Text)) : List Text → List (List Text × Table) → Prop
  | nil : Mixed kinds [] []
  | other {line : Text} {rest : List Text} {ts : List (List Text × Table)} : (∀ hs ∈ kinds, ¬Heads hs line) → Mixed kinds rest ts →
      Mixed kinds (line :: rest) ts
  | table {hs : List Text} {h f blank : Text} {lines rest : List Text} {t : Table} {ts : List (List Text × Table)} :
      hs ∈ kinds → Heads hs h → (∀ hs' ∈ kinds, Heads hs' h → hs' = hs) → FormatLine f t.cols → List.Forall₂ RowLine lines t.rows →
      blank.length ≤ 2 → Mixed kinds rest ts → Mixed kinds (h :: f :: (lines ++ blank :: rest)) ((hs, t) :: ts)
  | last {hs : List Text} {h f : Text} {lines : List Text} {t : Table} :
      hs ∈ kinds → Heads hs h → (∀ hs' ∈ kinds, Heads hs' h → hs' = hs) → FormatLine f t.cols → List.Forall₂ RowLine lines t.rows →
      t.rows ≠ [] → Mixed kinds (h :: f :: lines) [(hs, t)]

/-- the table of this kind, without rows if there is none -/
def TableIs (ts : List (List Text × Table)) (hs cols : List Text) (rows : List (List Text)) : Prop :=
  (hs, ⟨cols, rows⟩) ∈ ts ∨ ((∀ t ∈ ts, t.1 ≠ hs) ∧ rows = [])

/-- the cell of a row for an attribute, in a column that is not the last one -/
def Inner (cols row : List Text) (k c : Text) : Prop := ∃ i, IsColumn cols k i ∧ row[i]? = some c ∧ i + 1 < row.length

/-- a section with the node at one of its ends -/
def EndsAt (s : Values) (n : Text) : Prop := getEntry "fromnodeid".toList s = some n ∨ getEntry "tonodeid".toList s = some n

/-- a section with its two nodes and its phases -/
def FullSection (s : Values) : Prop :=
  (∃ a, getEntry "fromnodeid".toList s = some a) ∧ (∃ b, getEntry "tonodeid".toList s = some b) ∧ ∃ p, getEntry "phase".toList s = some p

/-- a value in kV or the like, in V -/
def Kilo {N : Type} [Semiring N] (num : Text → Option N) (cols row : List Text) (k : Text) (v : Option N) : Prop :=
  (∀ c, Cell cols row k c → v = (num c).map fun x => 1000 * x) ∧ ((¬∃ c, Cell cols row k c) → v = none)

/-- an impedance in the columns `kr` and `kx`, or in the other two if there is no column `kr` -/
def Sequence {N : Type} (num : Text → Option N) (cols row : List Text) (kr kx fr fx : Text) (z : N × N) : Prop :=
  ((∃ c, Cell cols row kr c) → Point num cols row kr kx z) ∧ ((¬∃ c, Cell cols row kr c) → Point num cols row fr fx z)

/-- the two impedances of a row of the source equivalents -/
def Impedances {N : Type} (num : Text → Option N) (cols row : List Text) (z1 z0 : N × N) : Prop :=
  Sequence num cols row "positivesequenceresistance".toList "positivesequencereactance".toList "firstlevelr1".toList "firstlevelx1".toList z1 ∧
  Sequence num cols row "zerosequenceresistance".toList "zerosequencereactance".toList "firstlevelr0".toList "firstlevelx0".toList z0

/-- the row belongs to the default load model -/
def IsDefault (cols row : List Text) : Prop := ∃ c, Inner cols row "loadmodelname".toList c ∧ c.map Char.toLower = "default".toList

/-- the source of a row of the source equivalents -/
def EquivalentOk {N : Type} [Semiring N] (num : Text → Option N) (cols row : List Text) (s : SourceRec N) : Prop :=
  ∃ n, Inner cols row "nodeid".toList n ∧ s.name = n ++ "_src".toList ∧ s.element = n ∧ Kilo num cols row "voltage".toList s.voltage ∧
    Impedances num cols row s.positive s.zero

/-- the first row with this identification -/
def FirstRow (rows : List (List Text)) (k : Text) (row : List Text) : Prop := (rows.find? fun r => keyOf r = k) = some row

/-- the source of a row of the sources, with the row of its source equivalent and the one of its substation -/
def SourceOk {N : Type} [Semiring N] (num : Text → Option N) (cols row ecols erow scols srow : List Text) (s : SourceRec N) : Prop :=
  ∃ n, Inner cols row "nodeid".toList n ∧ s.name = n ++ "_src".toList ∧ s.element = n ∧
    ((∃ c, Cell cols row "desiredvoltage".toList c) → Kilo num cols row "desiredvoltage".toList s.voltage) ∧
    ((¬∃ c, Cell cols row "desiredvoltage".toList c) → Kilo num ecols erow "voltage".toList s.voltage) ∧
    Kilo num scols srow "mva".toList s.power ∧ Impedances num ecols erow s.positive s.zero

end Ditto.Cyme.Spec
