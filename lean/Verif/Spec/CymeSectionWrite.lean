import Verif.Spec.CymeTable
import Verif.Model.CymeSectionWrite

/-! What the CYME writer has to write for lines, for C120. -/
namespace Ditto.Cyme.Spec
open Ditto Glm

variable {N : Type}

/-- a line between two nodes that belongs to a feeder -/
structure FeederLine (l : SectionLine N) (a b f : Text) : Prop where
  start : l.start = some a
  stop : l.stop = some b
  feeder : l.feeder = some f
  named : f ≠ []
  outside : l.isSubstation = false

/-- the wires that are written -/
def writtenWires (l : SectionLine N) : List SectionWire := l.wires.filter fun w => w.drop = false

/-- the letters of the phases of a line; neutral wires and others are left out -/
def phaseLetters (l : SectionLine N) : List Text := ((writtenWires l).map (·.phase)).filter fun p => p ∈ ["A".toList, "B".toList, "C".toList]

/-- a line below ground, or with low voltage -/
def IsCable [Field N] [LinearOrder N] (l : SectionLine N) : Prop :=
  (∃ t, l.lineType = some t ∧ t.map Char.toLower = "underground".toList) ∨ ∃ v, l.voltage = some v ∧ v < 600

/-- the table in which a line has to be -/
inductive TableOf [Field N] [LinearOrder N] (l : SectionLine N) : LineKind → Prop
  | fuse : l.isFuse = true → TableOf l .fuse
  | recloser : l.isFuse = false → l.isRecloser = true → TableOf l .recloser
  | breaker : l.isFuse = false → l.isRecloser = false → l.isBreaker = true → TableOf l .breaker
  | switch : l.isFuse = false → l.isRecloser = false → l.isBreaker = false → l.isSwitch = true → TableOf l .switch
  | underground : l.isFuse = false → l.isRecloser = false → l.isBreaker = false → l.isSwitch = false → IsCable l → TableOf l .underground
  | overhead : l.isFuse = false → l.isRecloser = false → l.isBreaker = false → l.isSwitch = false → ¬IsCable l →
      (phaseLetters l).length = 3 → l.matrix = true → TableOf l .overhead
  | byPhase : l.isFuse = false → l.isRecloser = false → l.isBreaker = false → l.isSwitch = false → ¬IsCable l →
      ((phaseLetters l).length ≠ 3 ∨ l.matrix = false) → TableOf l .byPhase

/-- phases in their order, without neutral ones -/
def PhasesInOrder (ws : List SectionWire) (ps : List Text) : Prop :=
  ps.Pairwise (· ≤ ·) ∧ ps.Perm ((ws.map (·.phase)).filter fun p => p ∉ ["N".toList, "N1".toList, "N2".toList])

/-- closed phases of a switch or breaker: those of the wires that are known to be closed -/
inductive ClosedText (l : SectionLine N) : Text → Prop
  | open : PhasesInOrder ((writtenWires l).filter fun w => w.isOpen = some false) [] → ClosedText l "None".toList
  | closed {p : Text} {ps : List Text} : PhasesInOrder ((writtenWires l).filter fun w => w.isOpen = some false) (p :: ps) →
      ClosedText l (p :: ps).flatten

/-- the row of a line in the table `k` -/
inductive TableRow (id : Text) (l : SectionLine N) : LineKind → Text → Prop
  | overhead {len : Text} : l.length = some len ∨ (l.length = none ∧ len = []) → TableRow id l .overhead (id ++ l.code ++ ',' :: len ++ ",0".toList)
  | byPhase {len : Text} : l.length = some len ∨ (l.length = none ∧ len = []) → TableRow id l .byPhase (id ++ l.code ++ ',' :: len ++ ",0".toList)
  | underground {len : Text} : l.length = some len ∨ (l.length = none ∧ len = []) →
      TableRow id l .underground (id ++ l.code ++ ',' :: len ++ ",0,10,2".toList)
  | switch {c : Text} : ClosedText l c → TableRow id l .switch (id ++ l.code ++ ",M,".toList ++ c ++ ",0,0,".toList ++ id)
  | breaker {c : Text} : ClosedText l c → TableRow id l .breaker (id ++ l.code ++ ",M,".toList ++ c ++ ",0,0,".toList ++ id)
  | fuse {ps : List Text} : PhasesInOrder (writtenWires l) ps → TableRow id l .fuse (id ++ l.code ++ ",M,".toList ++ ps.flatten ++ ",0,0,".toList ++ id)
  | recloser {ps : List Text} : PhasesInOrder (writtenWires l) ps →
      TableRow id l .recloser (id ++ l.code ++ ",M,".toList ++ ps.flatten ++ ",0,0,".toList ++ id)

/-- a fuse or recloser has a wire that is not neutral -/
def HasPhase (l : SectionLine N) : Prop :=
  l.isFuse = true ∨ l.isRecloser = true → ∃ w ∈ writtenWires l, w.phase ∉ ["N".toList, "N1".toList, "N2".toList]

/-- the row of the section of a line from `a` to `b` -/
def SectionRowOf (l : SectionLine N) (id a b : Text) (row : Text) : Prop :=
  ∃ i j, (l.startIndex = some i ∨ (l.startIndex = none ∧ i = "0".toList)) ∧ (l.stopIndex = some j ∨ (l.stopIndex = none ∧ j = "0".toList)) ∧
    row = joinCells [id, a, i, b, j, (phaseLetters l).flatten]

/-- a name with the smallest number of stars that is not there -/
def FreshName (before : List Text) (name id : Text) : Prop :=
  ∃ k, id = name ++ List.replicate k '*' ∧ id ∉ before ∧ ∀ j < k, name ++ List.replicate j '*' ∈ before

/-- lines of a feeder with their names -/
def ofFeeder (f : Text) (l : List (SectionLine N × Text)) : List (SectionLine N × Text) := l.filter fun p => p.1.feeder = some f

/-- the names of the sections, one line after the other -/
inductive NamesOf : List (SectionLine N × Text) → List (SectionLine N) → List Text → Prop
  | nil {before : List (SectionLine N × Text)} : NamesOf before [] []
  | cons {before : List (SectionLine N × Text)} {l : SectionLine N} {a b f id : Text} {ls : List (SectionLine N)} {ids : List Text} :
      FeederLine l a b f → FreshName ((ofFeeder f before).map (·.2)) (a ++ '_' :: b) id → NamesOf (before ++ [(l, id)]) ls ids →
      NamesOf before (l :: ls) (id :: ids)

/-- is the name of the section the beginning of the other one, or the other way round? -/
def near (n : Text) (l : SectionLine N) : Bool :=
  match l.start, l.stop with
  | some a, some b => (a ++ '_' :: b).isPrefixOf n || n.isPrefixOf (a ++ '_' :: b)
  | _, _ => false

/-- names are so short that a star for each line with a similar name can be added -/
def Room (ls : List (SectionLine N)) : Prop :=
  ∀ l ∈ ls, ∀ a b, l.start = some a → l.stop = some b → (a ++ '_' :: b).length + ls.countP (near (a ++ '_' :: b)) ≤ 64

/-- the rows of a feeder -/
def FeederRows (pairs : List (SectionLine N × Text)) (rows : Option (List Text)) : Prop :=
  (pairs = [] ∧ rows = none) ∨
    ∃ rs, pairs ≠ [] ∧ rows = some rs ∧
      List.Forall₂ (fun p r => ∃ a b, p.1.start = some a ∧ p.1.stop = some b ∧ SectionRowOf p.1 p.2 a b r) pairs rs

/-- what is written for lines with these names -/
structure WrittenFor [Field N] [LinearOrder N] (pairs : List (SectionLine N × Text)) (s : SectionState) : Prop where
  networks : ∀ f, FeederRows (ofFeeder f pairs) (getEntry f s.networks)
  rows : List.Forall₂ (fun p (r : LineKind × Text) => TableOf p.1 r.1 ∧ TableRow p.2 p.1 r.1 r.2) pairs s.rows
  points : s.inter = pairs.flatMap fun p => p.1.positions.zipIdx.map fun q => (p.2, q.2, q.1.1, q.1.2)

end Ditto.Cyme.Spec
