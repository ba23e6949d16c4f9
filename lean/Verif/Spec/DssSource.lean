import Verif.Model.DssSource

namespace Ditto.Spec
open Ditto Ditto.Dss

/-- What OpenDSS reports of the circuit of one source: an enabled voltage source at the bus with the voltage, per unit value and impedances
written, the impedances as lists or as single numbers. -/
structure ReportsSource {K : Type} (t : SourceText K) (d : SourceData K) : Prop where
  enabled : d.enabled = true
  bus : ∃ r, d.bus = some r ∧ r.1 = t.bus
  kV : ∀ v, t.kV = some v → d.basekv = some v
  pu : ∀ v, t.pu = some v → d.pu = some v
  z1 : ∀ z, t.z1 = some z → d.z1l = some [some z.1, some z.2] ∨ (d.z1l = none ∧ d.r1 = some z.1 ∧ d.x1 = some z.2)
  z0 : ∀ z, t.z0 = some z → d.z0l = some [some z.1, some z.2] ∨ (d.z0l = none ∧ d.r0 = some z.1 ∧ d.x0 = some z.2)

/-- the last line of the file that is not blank -/
def lastOfFile (flt : List Char → Option ℚ) (d : Char) (file : Option (List (List Char))) : Option (Option String × Coord × Coord) :=
  ((file.getD []).filterMap (readCoord flt d)).getLast?

end Ditto.Spec
