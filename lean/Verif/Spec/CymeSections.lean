import Verif.Spec.CymeTable
import Verif.Model.CymeSections

/-! What the table of sections of a CYME file says, independent of the reader. -/
namespace Ditto.Cyme.Spec
open Ditto Glm Cyme

/-- a network: the word before the equality sign, the values after it, and the rows of its sections -/
structure Network where
  word : Text
  values : List Text
  sections : List (List Text)

/-- no word stands in the line that the reader takes for a format -/
def NoFormat (line : Text) : Prop := ¬"format_".toList <:+: line.map Char.toLower

/-- `word=a,b,c` -/
def Assigns (line word : Text) (cells : List Text) : Prop :=
  cells ≠ [] ∧ (∀ c ∈ cells, CellText c) ∧ '=' ∉ word ∧ ∃ e, Eol e ∧ line = word ++ '=' :: (joinCells cells ++ e)

/-- the words that begin a network -/
def NetworkWord (word : Text) : Prop :=
  word.map Char.toLower = "feeder".toList ∨ word.map Char.toLower = "substation".toList ∨ word.map Char.toLower = "generalnetwork".toList

/-- the kind of network that the word begins -/
def wordKind (word : Text) : NetKind := if word.map Char.toLower = "substation".toList then .substation else .feeder

/-- the format of the sections -/
def SectionFormat (line : Text) (cols : List Text) : Prop := ∃ word, word.map Char.toLower = "format_section".toList ∧ Assigns line word cols

/-- the format of the networks -/
def NetworkFormat (line : Text) (cols : List Text) : Prop :=
  ∃ word word', word.map Char.toLower = "format_".toList ++ word'.map Char.toLower ∧ NetworkWord word' ∧ Assigns line word cols ∧
    ¬"format_section".toList <:+: line.map Char.toLower

/-- the lines of a network -/
def NetworkLines (lines : List Text) (n : Network) : Prop :=
  ∃ line rows, lines = line :: rows ∧ NetworkWord n.word ∧ Assigns line n.word n.values ∧ NoFormat line ∧
    List.Forall₂ RowLine rows n.sections ∧ ∀ row ∈ rows, NoFormat row

/-- the lines of a file until the end of its table of sections: the formats in any order, and the networks -/
def TableLines (lines netCols secCols : List Text) (nets : List Network) : Prop :=
  ∃ before head f f' body, lines = before ++ head :: f :: f' :: List.flatten body ∧
    (∀ line ∈ before, ¬"[SECTION]".toList <:+: line) ∧ "[SECTION]".toList <:+: head ∧
    ((SectionFormat f secCols ∧ NetworkFormat f' netCols) ∨ (NetworkFormat f netCols ∧ SectionFormat f' secCols)) ∧
    List.Forall₂ NetworkLines body nets

/-- a file with a table of sections, a line that ends the table, then anything -/
def SectionTable (content netCols secCols : List Text) (nets : List Network) : Prop :=
  ∃ lines blank after, content = lines ++ blank :: after ∧ TableLines lines netCols secCols nets ∧ blank.length ≤ 2

/-- column `i` is the last one with the name `k`, in any case of letters and with blanks around it -/
def NamedColumn (cols : List Text) (k : Text) (i : Nat) : Prop :=
  (cols[i]?).map (fun c => Net.pyStrip (c.map Char.toLower)) = some k ∧
    ∀ j, i < j → (cols[j]?).map (fun c => Net.pyStrip (c.map Char.toLower)) ≠ some k

/-- the value of a row in a column with this name -/
def Value (cols row : List Text) (k c : Text) : Prop := ∃ i, NamedColumn cols k i ∧ row[i]? = some c

/-- the values of a row by the names of its columns, apart from blanks, and nothing else -/
def Described (cols row : List Text) (v : Values) : Prop :=
  ∀ k, (∀ x, getEntry k v = some x → ∃ c, Value cols row k c ∧ Same x c) ∧ ∀ c, Value cols row k c → ∃ x, getEntry k v = some x ∧ Same x c

/-- no value has blanks at its ends -/
def Clean (v : Values) : Prop := ∀ k x, getEntry k v = some x → Net.pyStrip x = x

/-- all columns have different names and one of them is `k` -/
def Columns (cols : List Text) (k : Text) : Prop :=
  (cols.map fun c => Net.pyStrip (c.map Char.toLower)).Nodup ∧ k ∈ cols.map fun c => Net.pyStrip (c.map Char.toLower)

/-- the identification of a row: its value, in small letters and without blanks -/
def Identifies (cols row : List Text) (k id : Text) : Prop := ∃ c, Value cols row k c ∧ id = Net.pyStrip (c.map Char.toLower)

/-- rows of the sections with their networks -/
def sectionsOf (nets : List Network) : List (Network × List Text) := nets.flatMap fun n => n.sections.map fun r => (n, r)

end Ditto.Cyme.Spec
