import Verif.Model.Network

/-! Voltages of nodes from the transformer above them: `Store.set_node_voltages`, ditto/store.py. -/
namespace Ditto.NodeVolt
open Ditto Ditto.Net

/-- A `Node`: what `set_node_voltages` reads and writes. -/
structure VoltNode where
  name : Option String
  nominal : Option ℚ
deriving DecidableEq

/-- `_model_names` after `set_names`, ditto/store.py:116-120, ditto/models/base.py:26-35: the objects by name, also one for `None` if an object has the
attribute but no name. Of an object there are the nominal voltages of its windings; `some none` is an object without the attribute `windings`. -/
abbrev Named := Option String → Option (Option (List (Option ℚ)))

/-- The voltage of one node: ditto/store.py:189-199. Only the `KeyError` of the names is caught, not that of `get_upstream_transformer`. The latter always ends
(C18); the case that it does not is taken as if there were no transformer. -/
def nodeVoltage (d : List Edge) (names : Named) (n : VoltNode) : Py VoltNode :=
  match n.name with
  | none => .ok n
  | some x =>
    match upstreamTransformer d x with
    | none => .ok n
    | some (.error e) => .error e
    | some (.ok t) =>
      match names t with
      | none => .ok n
      | some none => .error .attributeError
      | some (some ws) =>
        match ws.getLast? with
        | none => .error .indexError
        | some v => .ok { n with nominal := v }

/-- `Store.set_node_voltages`: ditto/store.py:186-199, for the nodes among the models, in their order. The exception that ends it, if any, is beside the nodes as
they are then. -/
def setNodeVoltages (d : List Edge) (names : Named) : List VoltNode → List VoltNode × Option PyErr
  | [] => ([], none)
  | n :: ns =>
    match nodeVoltage d names n with
    | .error e => (n :: ns, some e)
    | .ok n' => (n' :: (setNodeVoltages d names ns).1, (setNodeVoltages d names ns).2)

end Ditto.NodeVolt
