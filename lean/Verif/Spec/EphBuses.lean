import Verif.Model.EphBuses
import Mathlib.Data.List.Forall2

/-! What the sheets Switch, Bus and Vsource of an ePHASOR file should say. -/
namespace Ditto.Eph.Spec
open Ditto Ditto.Eph
open Ditto.Glm (Text)

/-- a bus is a node and a phase in lower case, joined by an underscore -/
def BusOf (element phase bus : Text) : Prop := bus = element ++ "_".toList ++ phase.map Char.toLower

/-- the line is a switch with both ends -/
def connects (l : EphSwitch) : Bool := l.isSwitch == some true && l.source.isSome && l.sink.isSome

/-- the wire has a phase that is not the neutral -/
def conducts (w : EphWire) : Bool := w.phase.isSome && w.phase != some ['N']

/-- the poles of a switch -/
def polesOf (l : EphSwitch) : List (EphSwitch × EphWire) := if connects l then (l.wires.filter conducts).map fun w => (l, w) else []

/-- the poles of all switches -/
def poles (lines : List EphSwitch) : List (EphSwitch × EphWire) := lines.flatMap polesOf

/-- the row of a pole: between the buses of its phase, and closed unless it is known to be open -/
def PoleSays (pole : EphSwitch × EphWire) (r : SwitchRow) : Prop :=
  ∃ s t n p, pole.1.source = some s ∧ pole.1.sink = some t ∧ pole.1.name = some n ∧ pole.2.phase = some p ∧ BusOf s p r.source ∧ BusOf t p r.sink ∧
    BusOf n p r.name ∧ (pole.2.isOpen = some true → r.status = "0".toList) ∧ (pole.2.isOpen ≠ some true → r.status = "1".toList)

/-- the three letters -/
def letters : List Text := [['a'], ['b'], ['c']]

/-- the phases of a node or source that are one of the letters, in any case -/
def lettersOf (phases : List (Option Text)) : List Text :=
  (phases.filterMap fun p => p.map fun t => t.map Char.toLower).filter fun p => p ∈ letters

/-- the angle of a phase -/
def angleOf (p : Text) : Int := if p = ['a'] then 0 else if p = ['b'] then 120 else -120

variable {K : Type}

/-- the nodes with their phases -/
def places (nodes : List (EphNode K)) : List (EphNode K × Text) := nodes.flatMap fun n => (lettersOf n.phases).map fun p => (n, p)

/-- the row of a phase of a node -/
def BusSays [Field K] (root : K) (place : EphNode K × Text) (r : BusRow K) : Prop :=
  ∃ m, place.1.name = some m ∧ BusOf m place.2 r.cells.bus ∧ r.cells.voltage = place.1.voltage.map (· / root) ∧
    (m.map Char.toLower = "sourcebus".toList → r.cells.type = "SLACK".toList) ∧ (m.map Char.toLower ≠ "sourcebus".toList → r.cells.type = "PQ".toList)

/-- the bus of a letter in a row of a source -/
def busOfLetter (r : SourceRow K) (p : Text) : Option Text := if p = ['a'] then r.busA else if p = ['b'] then r.busB else r.busC

/-- the row of a source -/
def SourceSays [Field K] (s : EphSource K) (r : SourceRow K) : Prop :=
  r.name = s.name ∧ r.angle = s.angle ∧ (∃ v, s.voltage = some v ∧ r.voltage = v / 1000) ∧ r.short1 = s.emergency.map (· / 1000000) ∧ r.short3 = r.short1 ∧
    ∀ p ∈ letters, (p ∈ lettersOf s.phases → ∃ e b, s.element = some e ∧ busOfLetter r p = some b ∧ BusOf e p b) ∧
      (p ∉ lettersOf s.phases → busOfLetter r p = none)

/-- the source can be written: voltage, phases and, if one of them is a letter, the node are known -/
def Written (s : EphSource K) : Prop := s.voltage ≠ none ∧ none ∉ s.phases ∧ (lettersOf s.phases ≠ [] → s.element ≠ none)

/-- the model has the nodes of all poles, with their phases -/
def PolesHaveNodes (nodes : List (EphNode K)) (lines : List EphSwitch) : Prop :=
  ∀ q ∈ poles lines, ∀ p ∈ q.2.phase, ∀ e, (q.1.source = some e ∨ q.1.sink = some e) →
    ∃ n ∈ nodes, n.name = some e ∧ p.map Char.toLower ∈ lettersOf n.phases

/-- the model has the nodes of all sources, with their phases -/
def SourcesHaveNodes (nodes : List (EphNode K)) (sources : List (EphSource K)) : Prop :=
  ∀ s ∈ sources, ∀ p ∈ lettersOf s.phases, ∀ e ∈ s.element, ∃ n ∈ nodes, n.name = some e ∧ p ∈ lettersOf n.phases

end Ditto.Eph.Spec
