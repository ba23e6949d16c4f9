import Verif.Model.Voltages
import Verif.Spec.Route

/-! Nominal voltages along routes. -/
namespace Ditto.Net

/-- `y` is the lowest known nominal voltage of the windings of the object called `nm` -/
def LowSide (devs : List VoltDev) (nm : String) (y : ℚ) : Prop :=
  ∃ t ∈ devs, t.net.name = some nm ∧ ∃ ws, t.windings = some ws ∧ some y ∈ ws ∧ ∀ z, some z ∈ ws → y ≤ z

/-- the edge is a transformer called `nm` -/
def Edge.Trafo (e : Edge) (nm : Option String) : Prop := e.equip = some ("PowerTransformer", nm)

/-- the voltage at the end of a route: the low side of its last transformer, or the voltage `sv` at its beginning -/
def RouteVoltage (devs : List VoltDev) (sv : ℚ) (es : List Edge) (y : ℚ) : Prop :=
  ((∀ e ∈ es, ∀ nm, ¬ e.Trafo nm) ∧ y = sv) ∨
    ∃ pre e post nm, es = pre ++ e :: post ∧ e.Trafo (some nm) ∧ (∀ e' ∈ post, ∀ nm', ¬ e'.Trafo nm') ∧ LowSide devs nm y

/-- names are distinct, every node of the network is the name of an object, transformers on its edges have windings with a known
voltage, and no transformer connects the source with itself -/
structure Energized (n : Network) (s : String) (devs : List VoltDev) : Prop where
  names : (devs.filterMap (·.net.name)).Nodup
  source : ∃ d ∈ devs, d.net.name = some s
  nodes : ∀ e ∈ n.digraph, ∃ d ∈ devs, d.net.name = some e.v
  trafos : ∀ e ∈ n.digraph, ∀ nm, e.Trafo nm → ∃ x y, nm = some x ∧ LowSide devs x y
  noSelf : ∀ e ∈ n.graph.edges, e.u = s → e.v = s → ∀ nm, ¬ e.Trafo nm

end Ditto.Net
