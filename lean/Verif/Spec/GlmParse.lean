import Verif.Model.GlmParse

/-! What a GridLAB-D file says: the meaning of its rows, independent of the reader. Only the type of texts is taken from the model. -/
namespace Ditto.Glm.Spec
open Ditto Glm

/-- only blank characters -/
def Blank (s : Text) : Prop := ∀ c ∈ s, c.isWhitespace = true

/-- a word -/
def Word (w : Text) : Prop := w ≠ [] ∧ ∀ c ∈ w, c.isWhitespace = false

/-- nothing, or a blank character first -/
def Apart (t : Text) : Prop := ∀ c, t.head? = some c → c.isWhitespace = true

/-- the row consists of these words, with blanks around and between them -/
inductive Splits : Text → List Text → Prop
  | nil {s : Text} : Blank s → Splits s []
  | cons {s w t : Text} {ws : List Text} : Blank s → Word w → Apart t → Splits t ws → Splits (s ++ w ++ t) (w :: ws)

/-- the word begins a comment -/
def Comment (w : Text) : Prop := ['/', '/'] <+: w

/-- the word ends a block -/
def EndsBlock (w : Text) : Prop := ['}'] <:+ w ∨ ['}', ';'] <:+ w

/-- an empty row or a comment -/
def Empty (row : Text) : Prop := Splits row [] ∨ ∃ w ws, Splits row (w :: ws) ∧ Comment w

/-- a word that begins neither a block that is read nor a comment -/
def Plain (w : Text) : Prop := w ≠ "object".toList ∧ w ≠ "schedule".toList ∧ ¬Comment w

/-- the row `n v;`, perhaps with a comment that does not look like the end of the block -/
def Statement (row n v : Text) : Prop :=
  ∃ rest, Splits row (n :: (v ++ [';']) :: rest) ∧ Plain n ∧ (∀ w, rest.head? = some w → Comment w) ∧
    ∀ w, ((v ++ [';']) :: rest).getLast? = some w → ¬EndsBlock w

/-- an object of a file: its class, the number after the class, its statements -/
structure Decl where
  cls : Text
  num : Option Text
  statements : List (Text × Text)

/-- the row that begins an object: `object cls {` or `object cls:num {` -/
def Header (row : Text) (d : Decl) : Prop :=
  ':' ∉ d.cls ∧
    match d.num with
    | none => ∃ rest, Splits row ("object".toList :: d.cls :: rest)
    | some i => ':' ∉ i ∧ ∃ rest, Splits row ("object".toList :: (d.cls ++ ':' :: i) :: rest)

/-- the row that ends an object -/
def End (row : Text) : Prop := Splits row [['}']] ∨ Splits row [['}', ';']]

/-- the rows inside of an object -/
inductive Body : List Text → List (Text × Text) → Prop
  | nil : Body [] []
  | blank {row : Text} {rows : List Text} {l : List (Text × Text)} : Empty row → Body rows l → Body (row :: rows) l
  | statement {row n v : Text} {rows : List Text} {l : List (Text × Text)} : Statement row n v → Body rows l → Body (row :: rows) ((n, v) :: l)

/-- the rows of one object that contains no other object -/
def Block (rows : List Text) (d : Decl) : Prop := ∃ h body e, rows = h :: (body ++ [e]) ∧ Header h d ∧ Body body d.statements ∧ End e

/-- a row outside of objects that is not read -/
def Outside (row : Text) : Prop := Empty row ∨ ∃ w ws, Splits row (w :: ws) ∧ Plain w

/-- the rows of a file with these objects, none inside of another one and without schedules -/
inductive Lays : List Text → List Decl → Prop
  | nil : Lays [] []
  | outside {row : Text} {rows : List Text} {ds : List Decl} : Outside row → Lays rows ds → Lays (row :: rows) ds
  | block {block rows : List Text} {d : Decl} {ds : List Decl} : Block block d → Lays rows ds → Lays (block ++ rows) (d :: ds)

/-- the value of an attribute is the one of the last statement for it -/
def lastValue (l : List (Text × Text)) (k : Text) : Option Text := (l.reverse.find? fun p => p.1 = k).map (·.2)

/-- objects without a statement `name` have the class and the number as name, or else both ends -/
def nameOf (d : Decl) : Option Text :=
  match lastValue d.statements "name".toList, d.num with
  | some n, _ => some n
  | none, some i => some (d.cls ++ ':' :: i)
  | none, none =>
    match lastValue d.statements "from".toList, lastValue d.statements "to".toList with
    | some f, some t => some (f ++ '-' :: t)
    | _, _ => none

/-- the attributes of an object -/
def attrOf (d : Decl) (k : Text) : Option Text := if k = "name".toList then nameOf d else lastValue d.statements k

/-- classes of objects that are not converted -/
def leftOut : List Text :=
  ["house".toList, "solar".toList, "inverter".toList, "waterheater".toList, "climate".toList, "ZIPload".toList, "tape.recorder".toList,
    "player".toList, "tape.collector".toList, "tape.group_recorder".toList, "recorder".toList]

/-- the object can be read: it is left out, or class and attributes are in the schema and it has a name -/
def Good (schema : Schema) (d : Decl) : Prop :=
  d.cls ∈ leftOut ∨ ∃ ps, schema d.cls = some ps ∧ "name".toList ∈ ps ∧ (∀ p ∈ d.statements, p.1 ∈ ps) ∧ (nameOf d).isSome

/-- the last object of the file with this name -/
def lastNamed (ds : List Decl) (n : Text) : Option Decl :=
  ds.reverse.find? fun d => decide (d.cls ∉ leftOut) && (nameOf d == some n)

/-- the stored object is the one of the file -/
def Stored (o : GldObj) (d : Decl) : Prop := o.cls = d.cls ∧ ∀ k, (o.attrs.find? fun p => p.1 = k).map (·.2) = attrOf d k

/-- the dictionary contains exactly the objects of the file, the last one for each name, and what was there before -/
def Holds (objects before : List (Text × GldObj)) (ds : List Decl) : Prop :=
  ∀ n, match lastNamed ds n with
    | some d => ∃ o, (objects.find? fun p => p.1 = n).map (·.2) = some o ∧ Stored o d
    | none => objects.find? (fun p => p.1 = n) = before.find? fun p => p.1 = n

/-- the rows include no other files -/
def NoInclude (rows : List Text) : Prop := ∀ row ∈ rows, ¬"#include".toList <+: row

/-- the row `#include "name"` -/
def Includes (row name : Text) : Prop :=
  "#include".toList <+: row ∧ '"' ∉ name ∧ Splits row ["#include".toList, '"' :: (name ++ ['"'])]

/-- an entry of a schedule: five or more words for the time, and the value -/
def Entry (row : Text) (time : List Text) (v : Text) : Prop :=
  Splits row (time ++ [v ++ [';']]) ∧ 5 ≤ time.length ∧ v ≠ [] ∧ v.getLast? ≠ some ';' ∧ v.getLast? ≠ some '}' ∧
    ∀ w, time.head? = some w → Plain w ∧ w.head? ≠ some ';' ∧ w.head? ≠ some '{'

/-- the rows inside of a schedule, perhaps with groups in braces -/
inductive Times : List Text → List (List Text × Text) → Prop
  | nil : Times [] []
  | blank {row : Text} {rows : List Text} {l : List (List Text × Text)} : Empty row → Times rows l → Times (row :: rows) l
  | entry {row v : Text} {time : List Text} {rows : List Text} {l : List (List Text × Text)} :
      Entry row time v → Times rows l → Times (row :: rows) ((time, v) :: l)
  | group {o e : Text} {inner rows : List Text} {l m : List (List Text × Text)} :
      Splits o [['{']] → Times inner l → Splits e [['}']] → Times rows m → Times (o :: (inner ++ e :: rows)) (l ++ m)

end Ditto.Glm.Spec
