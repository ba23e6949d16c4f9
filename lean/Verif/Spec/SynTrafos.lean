import Verif.Model.SynTrafos
import Verif.Spec.SynLoads
import Mathlib.Algebra.Field.Basic

/-! What a Synergi database says about transformers. Only the types of tables and results are taken from the model. -/
namespace Ditto.Syn.Spec
open Ditto Glm Syn

section
variable {K : Type}

/-- `d` is the type of the transformer `r`: the first row of the warehouse with this name -/
def TypeOf (devs : List (DevTrafoRow K)) (r : TrafoRow) (d : DevTrafoRow K) : Prop :=
  ∃ a b, devs = a ++ d :: b ∧ Same d.name r.type ∧ ∀ x ∈ a, ¬Same x.name r.type

variable [Field K]

/-- `sqrt` gives square roots -/
def IsSqrt (sqrt : K → Option K) : Prop := ∀ x y, sqrt x = some y → y ^ 2 = x

/-- the windings of a transformer of the type `d` in the section `s`, without resistances and connections -/
structure WindingsAt (d : DevTrafoRow K) (s : SecRow) (w1 w2 : SynWinding K) : Prop where
  high : w1.voltage = 1000 * d.highKv
  low : w2.voltage = 1000 * d.lowKv
  rated : w1.rated = 1000 * d.kva ∧ w2.rated = 1000 * d.kva
  emergency : w1.emergency = 1000 * d.emergencyKva ∧ w2.emergency = 1000 * d.emergencyKva
  phases : w1.phases = (phasesOf s).filter (· ≠ 'N') ∧ w2.phases = (phasesOf s).filter (· ≠ 'N')

/-- `t` is the transformer of the row `r`; the high voltage is at the side where it starts -/
structure TrafoAt (db : TrafoDb K) (r : TrafoRow) (t : SynTrafo K) : Prop where
  name : t.name = shown (r.id.filter (· ≠ ','))
  high : ∀ s ∈ db.secs, Same s.id r.sec → t.fromElement = some (shown (if r.highNearFrom then s.fromNode else s.toNode))
  low : ∀ s ∈ db.secs, Same s.id r.sec → t.toElement = some (shown (if r.highNearFrom then s.toNode else s.fromNode))
  feeder : ∀ s ∈ db.secs, Same s.id r.sec → t.feeder = some (shown s.feeder)
  substation : (∀ p ∈ db.feederTable, ∀ q ∈ db.feederTable, shown p.1 = shown q.1 → shown p.2 = shown q.2) →
    ∀ s ∈ db.secs, Same s.id r.sec → ∀ p ∈ db.feederTable, shown p.1 = shown s.feeder → t.substation = some (shown p.2)
  pt : ∀ d, TypeOf db.devs r d → t.pt = some d.pt
  /-- resistance and reactance make the impedance -/
  reactance : ∀ d, TypeOf db.devs r d → ∃ x, t.reactances = [x] ∧ d.percentR ^ 2 + x ^ 2 = d.percentZ ^ 2
  windings : ∀ d, TypeOf db.devs r d → ∀ s ∈ db.secs, Same s.id r.sec → ∃ w1 w2, t.windings = [w1, w2] ∧ WindingsAt d s w1 w2
  unknown : (∀ d ∈ db.devs, ¬Same d.name r.type) → t.windings = [] ∧ t.reactances = [] ∧ t.pt = none

end
end Ditto.Syn.Spec
