import Verif.Model.DssCodes
import Mathlib.Data.List.Forall2

/-! What it means that lines refer to their own data in OpenDSS files. -/
namespace Ditto.Spec
open Ditto Ditto.Dss

/-- the line is an underground cable -/
def Underground (l : DLine) : Prop := l.lineType = some "underground"

/-- the names that overhead wires (`false`) or cables (`true`) already have -/
def WireName (ls : List DLine) (cable : Bool) (n : String) : Prop :=
  ∃ l ∈ ls, (Underground l ↔ cable = true) ∧ ∃ w ∈ l.wires, w.nameclass = some n

/-- the names that lines already have -/
def LineName (ls : List DLine) (n : String) : Prop := ∃ l ∈ ls, l.nameclass = some n

/-- no name looks like another one, or like one of the prefixes, with a number -/
def NoClash (names : String → Prop) (pre : List String) : Prop :=
  ∀ n, names n → ∀ b, (names b ∨ b ∈ pre) → ∀ m : Nat, n ≠ b ++ "_" ++ m.repr

/-- the number of phases: wires of the phases A, B and C -/
def phaseCount (l : DLine) : Nat := l.wires.countP fun w => w.phase = some "A" || w.phase = some "B" || w.phase = some "C"

/-- lines with the same nameclass and number of phases have the same parameters -/
def Consistent (ls : List DLine) : Prop :=
  ∀ l ∈ ls, ∀ l' ∈ ls, ∀ n, l.nameclass = some n → l'.nameclass = some n → phaseCount l = phaseCount l' → parseLine l = parseLine l'

/-- names of lines stay different when their special characters are replaced -/
def CleanDistinct (ls : List DLine) : Prop :=
  ∀ l ∈ ls, ∀ l' ∈ ls, ∀ n n', l.nameclass = some n → l'.nameclass = some n' →
    cleanName (n ++ "_" ++ (phaseCount l).repr) = cleanName (n' ++ "_" ++ (phaseCount l').repr) →
    n ++ "_" ++ (phaseCount l).repr = n' ++ "_" ++ (phaseCount l').repr

/-- all that is needed to write the line by its geometry is known -/
def GeometryKnown (l : DLine) : Prop :=
  l.wires ≠ [] ∧ ∀ w ∈ l.wires, (∃ x, w.x = some x) ∧ (∃ y, w.y = some y) ∧ (∃ g, w.gmr = some g) ∧ (∃ d, w.diameter = some d) ∧
    (∃ a, w.ampacity = some a) ∧
    (Underground l → (∃ g, w.cnGmr = some g) ∧ (∃ r, w.cnResistance = some r) ∧ (∃ d, w.cnDiameter = some d) ∧ (∃ o, w.cnOutside = some o) ∧
      ∃ k, w.cnNstrand = some k)

/-- something to write is known about an overhead wire -/
def HasData (w : DWire) : Prop := w.gmr ≠ none ∨ w.diameter ≠ none ∨ w.ampacity ≠ none ∨ w.emergency ≠ none ∨ w.resistance ≠ none

/-- `w'` is the wire `w` with a name that belongs to exactly its own data; an overhead wire without data is unchanged -/
def WireRefers (ws : WireState) (cable : Bool) (w w' : DWire) : Prop :=
  w' = { w with nameclass := w'.nameclass } ∧
    (cable = false → (HasData w → ∃ n, w'.nameclass = some n ∧ ws.wires.lookup n = some (parseWire w)) ∧ (¬ HasData w → w' = w)) ∧
    (cable = true → ∃ n, w'.nameclass = some n ∧ ws.cables.lookup n = some (parseCable w))

/-- `l'` is the line `l` with new names of its wires -/
def LineRefers (ws : WireState) (l l' : DLine) : Prop :=
  l' = { l with wires := l'.wires } ∧ ∃ cable, (Underground l ↔ cable = true) ∧ List.Forall₂ (WireRefers ws cable) l.wires l'.wires

/-- the conductor `c` of a geometry describes the wire `w`: it names an entry of the right file with the data of the wire, and has its
position and ratings -/
def Describes (ws : WireState) (cable : Bool) (w : DWire) (c : Cond) : Prop :=
  c.cable = cable ∧ (if cable then ws.cables.lookup c.wire = some (parseCable w) else ws.wires.lookup c.wire = some (parseWire w)) ∧
    c.x = w.x ∧ c.h = w.y ∧ c.normamps = w.ampacity ∧ c.emergamps = w.emergency

/-- the geometry describes the line, conductor by conductor -/
def DescribesLine (ws : WireState) (l : DLine) (g : Geometry) : Prop :=
  g.nphases = phaseCount l ∧ (g.reduce = true ↔ phaseCount l < l.wires.length) ∧
    ∃ cable, (Underground l ↔ cable = true) ∧ List.Forall₂ (Describes ws cable) l.wires g.conds

end Ditto.Spec
