import Verif.Model.Voltages
import Verif.Spec.Connect

/-! Sourcebuses. -/
namespace Ditto.Net

/-- a power source that is marked as sourcebus -/
def Sourcebus (d : VoltDev) : Prop := d.net.cls = "PowerSource" ∧ d.isSourcebus = some true

/-- there is a sourcebus, and all sourcebuses are called `x` -/
def OnlySource (devs : List VoltDev) (x : String) : Prop :=
  (∃ d ∈ devs, Sourcebus d) ∧ ∀ d ∈ devs, Sourcebus d → d.net.name = some x

end Ditto.Net
