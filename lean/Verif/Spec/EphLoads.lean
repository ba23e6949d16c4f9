import Verif.Model.EphLoads
import Verif.Spec.EphBuses

/-! What the sheet Multiphase Load of an ePHASOR file should say. -/
namespace Ditto.Eph.Spec
open Ditto Ditto.Eph
open Ditto.Glm (Text)

/-- the name ends in the letter of a phase -/
def endsInLetter (n : Text) : Bool := n.getLast?.any fun c => c.toLower ∈ ['a', 'b', 'c']

/-- the name without the letter of a phase at its end -/
def stem (n : Text) : Text := if endsInLetter n then n.dropLast else n

/-- the name without the prefix that the OpenDSS reader adds -/
def shortName (n : Text) : Text := if "load_".toList.isPrefixOf n then n.drop 5 else n

variable {K : Type}

/-- all loads have names, and no two of those that end in a letter are equal up to this letter -/
def Single (loads : List (EphLoad K)) : Prop :=
  (∀ l ∈ loads, l.name ≠ none ∧ l.name ≠ some []) ∧ (((loads.filterMap (·.name)).filter endsInLetter).map List.dropLast).Nodup

/-- the phase loads with a phase -/
def phased (l : EphLoad K) : List (EphPhaseLoad K) := l.phaseLoads.filter (·.phase.isSome)

/-- the columns with the numbers 1, 2 and 3 -/
def slotAt (r : LoadRow K) (i : Fin 3) : LoadSlot K := match i with | 0 => r.one | 1 => r.two | 2 => r.three

/-- the last value that phase loads give -/
def lastOf {α : Type} (f : EphPhaseLoad K → Option α) (js : List (EphPhaseLoad K)) : Option α := (js.filterMap f).getLast?

variable [Field K] [LinearOrder K]

/-- the bus and the power of a phase load, in kW and kVAr: those of a ZIP load as they are, those of others without sign -/
def SlotSays (element : Option Text) (j : EphPhaseLoad K) (s : LoadSlot K) : Prop :=
  (∀ e ∈ element, ∀ ph ∈ j.phase, ∃ b, s.bus = some b ∧ BusOf e ph b) ∧ (element = none → s.bus = none) ∧
    (j.useZip = none → s.p = none ∧ s.q = none) ∧
    (j.useZip = some 1 → ∃ p q, j.p = some p ∧ j.q = some q ∧ s.p = some (p / 1000) ∧ s.q = some (q / 1000)) ∧
    (∀ z, j.useZip = some z → z ≠ 1 → (∀ p q, j.p = some p → j.q = some q →
      s.p = some ((if p < 0 then -p else p) / 1000) ∧ s.q = some ((if q < 0 then -q else q) / 1000)) ∧ (j.p = none ∨ j.q = none → s.p = none ∧ s.q = none))

/-- the sum of two portions -/
def both (x y : Option K) : Option K := do let a ← x; let b ← y; pure (a + b)

/-- the portions of constant impedance, current and power of a phase load -/
def portionsOf (j : EphPhaseLoad K) : Option (K × K × K) :=
  if j.useZip = none then none
  else if j.useZip = some 1 then do let z ← both j.pImpedance j.qImpedance; let i ← both j.pCurrent j.qCurrent; let p ← both j.pPower j.qPower; pure (z, i, p)
  else if j.model = some 1 then some (0, 0, 1)
  else if j.model = some 2 then some (1, 0, 0)
  else if j.model = some 5 then some (0, 1, 0)
  else none

/-- the type of a phase load: a ZIP load, or the empty text -/
def typeOf (j : EphPhaseLoad K) : Option Text :=
  if j.useZip = none then none else if j.useZip = some 1 ∨ j.model = some 1 ∨ j.model = some 2 ∨ j.model = some 5 then some "ZIP".toList else some []

/-- the row of a load -/
structure LoadSays (l : EphLoad K) (r : LoadRow K) : Prop where
  id : ∃ n, l.name = some n ∧ r.id = some (shortName (stem n))
  voltage : r.voltage = l.voltage.map (· / 1000)
  wye : l.conn = some ['Y'] → r.conn = some "wye".toList
  delta : l.conn = some ['D'] → r.conn = some "delta".toList
  other : l.conn ≠ some ['Y'] → l.conn ≠ some ['D'] → r.conn = none
  phases : ∀ (i : Fin 3) (j : EphPhaseLoad K), (phased l)[i.val]? = some j → SlotSays l.element j (slotAt r i)
  absent : ∀ i : Fin 3, (phased l).length ≤ i.val → (slotAt r i).bus = none ∧ (slotAt r i).p = none ∧ (slotAt r i).q = none
  type : r.type = lastOf typeOf (phased l)
  kz : r.kz = lastOf (fun j => (portionsOf j).map (·.1)) (phased l)
  ki : r.ki = lastOf (fun j => (portionsOf j).map (·.2.1)) (phased l)
  kp : r.kp = lastOf (fun j => (portionsOf j).map (·.2.2)) (phased l)
  rest : r.bandwidth = some (2 / 100) ∧ r.status = some 1 ∧ r.initial = some 0

/-- the phase load can be written: a ZIP load has powers and portions, and none of its sums is zero -/
def PhaseOk (j : EphPhaseLoad K) : Prop :=
  j.useZip = some 1 → j.p ≠ none ∧ j.q ≠ none ∧ (∃ a, both j.pCurrent j.qCurrent = some a ∧ a ≠ 0) ∧ (∃ a, both j.pPower j.qPower = some a ∧ a ≠ 0) ∧
    ∃ a, both j.pImpedance j.qImpedance = some a ∧ a ≠ 0

end Ditto.Eph.Spec
