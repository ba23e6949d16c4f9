import Verif.Model.SynRegs
import Verif.Spec.SynLoads
import Mathlib.Algebra.Order.Field.Basic

/-! What a Synergi database says about regulators. Only the types of tables and results are taken from the model. -/
namespace Ditto.Syn.Spec
open Ditto Glm Syn

section
variable {K : Type}

/-- `d` is the only type of the regulator `r` in the warehouse -/
def RegTypeOf (devs : List (DevRegRow K)) (r : RegRow K) (d : DevRegRow K) : Prop :=
  d ∈ devs ∧ Same d.name r.type ∧ ∀ x ∈ devs, Same x.name r.type → x = d

variable [Field K] [LinearOrder K]

/-- `x` is the value for the three values of the phases: the smallest one that is not zero -/
structure Band (b : K × K × K) (x : Option K) : Prop where
  none : x = none ↔ b.1 = 0 ∧ b.2.1 = 0 ∧ b.2.2 = 0
  value : ∀ v, x = some v → v ≠ 0 ∧ (v = b.1 ∨ v = b.2.1 ∨ v = b.2.2) ∧ ∀ y, (y = b.1 ∨ y = b.2.1 ∨ y = b.2.2) → y ≠ 0 → v ≤ y

/-- `g` is the regulator of the row `r` -/
structure RegAt (db : RegDb K) (r : RegRow K) (g : SynReg K) : Prop where
  name : g.name = shown r.id
  ends : ∀ s ∈ db.secs, Same s.id r.sec → g.fromElement = some (shown s.fromNode) ∧ g.toElement = some (shown s.toNode)
  feeder : ∀ s ∈ db.secs, Same s.id r.sec → g.feeder = some (shown s.feeder)
  substation : (∀ p ∈ db.feederTable, ∀ q ∈ db.feederTable, shown p.1 = shown q.1 → shown p.2 = shown q.2) →
    ∀ s ∈ db.secs, Same s.id r.sec → ∀ p ∈ db.feederTable, shown p.1 = shown s.feeder → g.substation = some (shown p.2)
  delay : g.delay = r.delay
  /-- the taps are between minus the low setting and the high one -/
  taps : g.highstep = r.high ∧ g.lowstep = -r.low
  bandwidth : Band r.widths g.bandwidth
  bandcenter : Band r.centers g.bandcenter
  ratios : ∀ d, RegTypeOf db.devs r d → g.pt = some d.pt ∧ g.ct = some d.ct
  /-- resistance and reactance have this ratio and make the impedance -/
  impedance : ∀ d, RegTypeOf db.devs r d → ∃ x y, g.resistance = some x ∧ g.xhl = some y ∧ y = d.xr * x ∧ x ^ 2 + y ^ 2 = d.percentZ ^ 2
  windings : ∀ d, RegTypeOf db.devs r d → g.windings.length = 2 ∧ ∀ w ∈ g.windings, w.connection = some ((d.code.map Char.toUpper).take 1) ∧
    w.voltage = some (1000 * d.kv) ∧ w.rated = some (1000 * d.kva)
  /-- the phases, if they are written without blanks and neutral -/
  phases : (∀ c ∈ r.phases, c.isWhitespace = false ∧ c.toUpper ≠ 'N') → ∀ w ∈ g.windings, w.phases = r.phases.map Char.toUpper

/-- the roots of the types are exact -/
def RootsOf (sqrt : K → K) (devs : List (DevRegRow K)) : Prop := ∀ d ∈ devs, sqrt (d.percentZ ^ 2 / (d.xr ^ 2 + 1)) ^ 2 = d.percentZ ^ 2 / (d.xr ^ 2 + 1)

end
end Ditto.Syn.Spec
