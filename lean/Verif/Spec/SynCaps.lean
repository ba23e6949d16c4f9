import Verif.Model.SynCaps
import Verif.Spec.SynLoads

/-! What a Synergi database says about capacitors. Only the types of tables and results are taken from the model. -/
namespace Ditto.Syn.Spec
open Ditto Glm Syn

section
variable {K : Type} [Field K] [DecidableEq K]

/-- the reactive power of a phase in kvar: the fixed one, or else the one of the switched module -/
def phaseKvar (r : CapRow K) : Char → K
  | 'A' => if r.fixed.1 ≠ 0 then r.fixed.1 else r.module1
  | 'B' => if r.fixed.2.1 ≠ 0 then r.fixed.2.1 else r.module1
  | 'C' => if r.fixed.2.2 ≠ 0 then r.fixed.2.2 else r.module1
  | _ => 0

/-- the phases of a capacitor; all three if none is given -/
def capLetters (r : CapRow K) : List Char := if r.phases = [] then ['A', 'B', 'C'] else r.phases.map Char.toUpper

/-- `c` is the capacitor of the row `r` -/
structure CapAt (db : CapDb K) (r : CapRow K) (c : SynCap K) : Prop where
  name : c.name = shown r.name
  connecting : ∀ s ∈ db.secs, Same s.id r.sec → c.connecting = some (shown s.toNode)
  notConnecting : (∀ s ∈ db.secs, ¬Same s.id r.sec) → c.connecting = none
  feeder : ∀ s ∈ db.secs, Same s.id r.sec → c.feeder = some (shown s.feeder)
  substation : (∀ p ∈ db.feederTable, ∀ q ∈ db.feederTable, shown p.1 = shown q.1 → shown p.2 = shown q.2) →
    ∀ s ∈ db.secs, Same s.id r.sec → ∀ p ∈ db.feederTable, shown p.1 = shown s.feeder → c.substation = some (shown p.2)
  voltage : c.voltage = 1000 * r.kv
  connection : c.connection = (r.connection.map Char.toUpper).take 1
  delay : c.delay = r.delay
  low : c.low = r.close
  high : c.high = r.trip
  ratios : c.pt = r.pt ∧ c.ct = r.ct
  ptPhase : c.ptPhase = r.metering.map Char.toUpper
  /-- the name of the line -/
  measuring : ' ' ∉ r.sec → c.measuring = shown r.sec
  letters : c.phaseCaps.map (·.1) = capLetters r
  /-- the reactive powers in var, if the phases are A, A and B, or all three -/
  powers : capLetters r <+: ['A', 'B', 'C'] → ∀ x ∈ c.phaseCaps, x.2 = 1000 * phaseKvar r x.1

end
end Ditto.Syn.Spec
