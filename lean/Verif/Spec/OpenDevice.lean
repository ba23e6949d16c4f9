import Verif.Spec.Connect

/-! Open switches and breakers. -/
namespace Ditto.Net

/-- a switch or breaker with wires, all of them open -/
def OpenDevice (o : NetObj) : Prop :=
  o.isLine = true ∧ (o.isSwitch = some true ∨ o.isBreaker = some true) ∧ o.wires ≠ [] ∧ ∀ w ∈ o.wires, w = some true

instance (o : NetObj) : Decidable (OpenDevice o) := by unfold OpenDevice; infer_instance

/-- the object connects `a` and `b` -/
def Joins (o : NetObj) (a b : String) : Prop := Declares o a b ∨ Declares o b a

end Ditto.Net
