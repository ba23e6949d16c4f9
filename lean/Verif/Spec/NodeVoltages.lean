import Verif.Model.NodeVoltages
import Verif.Spec.Route

/-! Which voltage a node has to get, for C128. -/
namespace Ditto.NodeVolt.Spec
open Ditto Ditto.Net

/-- the transformer named `t` is on the way from the source to `x`, and no other one is between it and `x` -/
def Feeds (d : List Edge) (s t x : String) : Prop :=
  ∃ pre e post, Route d s (pre ++ e :: post) x ∧ e.equip = some ("PowerTransformer", some t) ∧ ∀ e' ∈ post, e'.Plain

/-- there is no transformer on the way from the source to `x`, only lines -/
def NoTrafo (d : List Edge) (s x : String) : Prop := ∃ es, Route d s es x ∧ ∀ e ∈ es, e.Plain

/-- the object named `t` has windings, the last one with the voltage `v` -/
def LowSide (names : Named) (t : String) (v : Option ℚ) : Prop := ∃ ws, names (some t) = some (some (ws ++ [v]))

/-- `b` is the node `a` with the voltage it has to get -/
def Settled (d : List Edge) (s : String) (names : Named) (a b : VoltNode) : Prop :=
  b.name = a.name ∧ (∀ x t v, a.name = some x → Feeds d s t x → LowSide names t v → b.nominal = v) ∧
    (∀ x, a.name = some x → NoTrafo d s x → b.nominal = a.nominal) ∧ (a.name = none → b.nominal = a.nominal)

/-- the node is in the network, and it is below a transformer with windings, or there is none above it -/
def Fine (d : List Edge) (s : String) (names : Named) (a : VoltNode) : Prop :=
  ∀ x, a.name = some x → (∃ e ∈ d, e.u = x ∨ e.v = x) ∧ ((∃ t v, Feeds d s t x ∧ LowSide names t v) ∨ NoTrafo d s x)

end Ditto.NodeVolt.Spec
