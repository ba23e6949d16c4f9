import Verif.Model.GlmLines
import Verif.Spec.GlmLoads
import Verif.Spec.GlmNodes
import Verif.Spec.GlmCaps

/-! What lines and line configurations in a GridLAB-D file say. From the model, only the types of the lines and `strip` of parentheses are used. -/
namespace Ditto.Glm.Spec
open Ditto Glm

/-- the number of a phase in the names of the impedances -/
def phaseDigit (c : Char) : Char := if c = 'A' then '1' else if c = 'B' then '2' else '3'

/-- the attribute with the impedance between two phases, such as `z12` -/
def zKey (a b : Char) : Text := ['z', phaseDigit a, phaseDigit b]

/-- the position of a phase in a matrix of all three phases -/
def letterPosition (c : Char) : Nat := if c = 'A' then 0 else if c = 'B' then 1 else 2

/-- the number is not written as a sum or difference -/
def OnePart (t : Text) : Prop := '+' ∉ t ∧ ∀ s c r, t = s ++ c :: '-' :: r → c = 'e'

/-- a number of one part with a minus sign, such as `-2j` -/
def NegativePart (t : Text) : Prop := OnePart t ∧ t.head? = some '-'

section numbers
variable {K : Type}

/-- complex numbers are printed in parentheses or without them, and can be read without them, also after `0+` if they are of one part -/
structure Impedances (showCx : Cx K → Text) (cpx : Text → Option (Cx K)) : Prop where
  inverse : ∀ z, cpx (stripParens (showCx z)) = some z
  zero : ∀ z, OnePart (stripParens (showCx z)) → ¬NegativePart (stripParens (showCx z)) →
    cpx ('0' :: '+' :: stripParens (showCx z)) = some z
  token : ∀ z, Token (stripParens (showCx z))

/-- the line is neither a switch nor a fuse -/
def Configured (l : WGLine K) : Prop := l.isSwitch ≠ some true ∧ l.isFuse ≠ some true

/-- the phases of the wires without neutral are these letters -/
structure LineLetters (l : WGLine K) (cs : List Char) : Prop where
  wires : (l.wires.filterMap (·.phase)).filter (fun p => p ≠ ['N']) = cs.map fun c => [c]
  once : cs.Nodup
  letters : ∀ c ∈ cs, c ∈ ['A', 'B', 'C']

/-- the position of a phase in the matrix: a matrix with less than three rows has only the phases of the line, in the order of the alphabet -/
def matrixPosition (m : List (List (Cx K))) (cs : List Char) (c : Char) : Nat :=
  if m.length < 3 then (cs.filter (· < c)).length else letterPosition c

/-- the impedance between two phases of the line -/
def Impedance (l : WGLine K) (cs : List Char) (a b : Char) (z : Cx K) : Prop :=
  ∃ m row, l.matrix = some m ∧ m[matrixPosition m cs a]? = some row ∧ row[matrixPosition m cs b]? = some z

/-- a line with phases A, B, C and with impedances for all of them -/
structure WritableMatrix (l : WGLine K) (cs : List Char) : Prop where
  letters : LineLetters l cs
  full : ∀ a ∈ cs, ∀ b ∈ cs, ∃ z, Impedance l cs a b z

/-- the configuration has the impedances of the line and no others -/
structure ConfigSays (showCx : Cx K → Text) (cpx : Text → Option (Cx K)) (l : WGLine K) (cs : List Char) (d : Decl) : Prop where
  values : ∀ a ∈ cs, ∀ b ∈ cs, ∀ z, Impedance l cs a b z → ¬NegativePart (stripParens (showCx z)) → Value cpx d (zKey a b) z
  others : ∀ a ∈ ['A', 'B', 'C'], ∀ b ∈ ['A', 'B', 'C'], ¬(a ∈ cs ∧ b ∈ cs) → attrOf d (zKey a b) = none

/-- two lines have the same phases and the same impedances -/
def SameImpedances (l l' : WGLine K) (cs cs' : List Char) : Prop :=
  (∀ c, c ∈ cs ↔ c ∈ cs') ∧ ∀ a b z, Impedance l cs a b z ↔ Impedance l' cs' a b z

/-- the row `object cls{`, as GridLAB-D also allows it -/
def BraceHeader (row : Text) (d : Decl) : Prop := ':' ∉ d.cls ∧ d.num = none ∧ Splits row ["object".toList, d.cls ++ ['{']]

/-- the rows of an object whose brace follows its class -/
def BraceBlock (rows : List Text) (d : Decl) : Prop :=
  ∃ h body e, rows = h :: (body ++ [e]) ∧ BraceHeader h d ∧ Body body d.statements ∧ End e

/-- objects of this kind with empty rows between them -/
inductive BraceLays : List Text → List Decl → Prop
  | nil : BraceLays [] []
  | blank {row : Text} {rows : List Text} {ds : List Decl} : Empty row → BraceLays rows ds → BraceLays (row :: rows) ds
  | block {block rows : List Text} {d : Decl} {ds : List Decl} : BraceBlock block d → BraceLays rows ds → BraceLays (block ++ rows) (d :: ds)

/-- the class of object for a line -/
inductive ClassOf (l : WGLine K) : Text → Prop
  | underground : l.lineType = some "underground".toList → ClassOf l "underground_line".toList
  | fuse : l.lineType ≠ some "underground".toList → l.isFuse = some true → ClassOf l "fuse".toList
  | switch : l.lineType ≠ some "underground".toList → l.isFuse ≠ some true → l.isSwitch = some true → ClassOf l "switch".toList
  | overhead : l.lineType ≠ some "underground".toList → Configured l → ClassOf l "overhead_line".toList

/-- a line with names and phases without blanks -/
structure WritableLine (l : WGLine K) (name : Text) : Prop where
  named : l.name = some name
  token : Token ('n' :: name)
  source : ∀ t, l.source = some t → Token ('n' :: t)
  target : ∀ t, l.target = some t → Token ('n' :: t)
  phases : Token (l.wires.flatMap fun w => w.phase.toList.flatten)

variable [Field K]

/-- what is written for a line; the length is in feet, of which there are 3.28084 in a meter -/
structure LineWritten (flt : Text → Option K) (config : Text → Option Text) (l : WGLine K) (n : Text) (d : Decl) : Prop where
  cls : ClassOf l d.cls
  name : nameOf d = some ('n' :: n)
  source : attrOf d "from".toList = l.source.map ('n' :: ·)
  target : attrOf d "to".toList = l.target.map ('n' :: ·)
  phases : attrOf d "phases".toList = if (l.wires.flatMap fun w => w.phase.toList.flatten) = [] then none
    else some (l.wires.flatMap fun w => w.phase.toList.flatten)
  length : d.cls ∉ ["fuse".toList, "switch".toList] → Optional flt d "length".toList (l.length.map (· * (328084 / 100000)))
  configuration : d.cls ∉ ["fuse".toList, "switch".toList] → attrOf d "configuration".toList = config n

end numbers

end Ditto.Glm.Spec
