import Verif.Model.Network
import Verif.Model.Named

/-! Nominal voltages and the choice of the source in `ditto/modify/system_structure.py` and `ditto/metrics/network_analysis.py`. -/
namespace Ditto.Net
open Ditto

/-- What the methods read and write of an object: `nominal_voltage` (if the object has it), `is_sourcebus`, and `nominal_voltage` of
the windings (`none`: the object has no windings) -/
structure VoltDev where
  net : NetObj
  hasVoltage : Bool := true
  voltage : Option ℚ := none
  isSourcebus : Option Bool := none
  windings : Option (List (Option ℚ)) := none
  /-- `upstream_transformer_name` of loads -/
  upstream : Option String := none
deriving DecidableEq, Repr

/-- python `min` of a list of numbers -/
def minQ : List ℚ → Py ℚ
  | [] => .error .valueError
  | q :: qs => .ok (qs.foldl (fun a b => if b < a then b else a) q)

/-- lowest nominal voltage of the windings: ditto/modify/system_structure.py:231-237 and 241-247 -/
def lowVoltage (devs : List VoltDev) (nm : Option String) : Py ℚ :=
  match named (·.net.name) devs nm with
  | .error e => .error e
  | .ok t =>
    match t.windings with
    | none => .error .attributeError
    | some ws => minQ (ws.filterMap id)

/-- `new_value`: ditto/modify/system_structure.py:227-249 -/
def newVoltage (g : Graph) (devs : List VoltDev) (prev node : String) (v : ℚ) : Py ℚ :=
  match (g.find prev node).bind (·.equip) with
  | some (ty, nm) => if ty = "PowerTransformer" then lowVoltage devs nm else .ok v
  | none => .ok v

/-- lines 250-251 of ditto/modify/system_structure.py -/
def assignVoltage (x : String) (v : ℚ) (devs : List VoltDev) : Py (List VoltDev) :=
  match named (·.net.name) devs (some x) with
  | .error e => .error e
  | .ok d => .ok (if d.hasVoltage then updateNamed (·.net.name) (some x) (fun d => { d with voltage := some v }) devs else devs)

/-- `set_nominal_voltages_recur(node, voltage, previous)`: ditto/modify/system_structure.py:214-254. The number is the depth of
recursion that python still allows. -/
def voltRec (n : Network) : Nat → String → ℚ → String → List VoltDev → Py (List VoltDev)
  | 0, _, _, _, _ => .error .recursionError
  | k + 1, node, v, prev, devs =>
    match newVoltage n.graph devs prev node v with
    | .error e => .error e
    | .ok x =>
      match assignVoltage node x devs with
      | .error e => .error e
      | .ok devs => (successors n.digraph node).foldlM (fun devs c => voltRec n k c x node devs) devs

/-- `set_nominal_voltages_recur()`: lines 222-225 -/
def setVoltages (n : Network) (limit : Nat) (source : String) (sv : ℚ) (devs : List VoltDev) : Py (List VoltDev) :=
  voltRec n limit source sv source devs

/-- one iteration of `set_nominal_voltages_recur_line`: ditto/modify/system_structure.py:261-273. `all` are the
objects at that time, which `model[...]` looks at. -/
def lineVoltage (all : List VoltDev) (d : VoltDev) : Py VoltDev :=
  if d.net.isLine && d.voltage.isNone then
    match d.net.fromEl with
    | none => .ok d
    | some f =>
      match named (·.net.name) all (some f) with
      | .error e => .error e
      | .ok o => if o.hasVoltage && o.voltage.isSome then .ok { d with voltage := o.voltage } else .ok d
  else .ok d

/-- `set_nominal_voltages_recur_line`: ditto/modify/system_structure.py:256-273, on the objects `post` after `pre` -/
def lineVoltages : List VoltDev → List VoltDev → Py (List VoltDev)
  | pre, [] => .ok pre
  | pre, d :: post =>
    match lineVoltage (pre ++ d :: post) d with
    | .error e => .error e
    | .ok d' => lineVoltages (pre ++ [d']) post

/-! ### The source -/

/-- the names of the sourcebuses: ditto/modify/system_structure.py:60-63, ditto/metrics/network_analysis.py:119-122 -/
def sourceNames (devs : List VoltDev) : List (Option String) :=
  (devs.filter fun d => d.net.cls = "PowerSource" && d.isSourcebus == some true).map (·.net.name)

/-- the choice of the source: ditto/modify/system_structure.py:57-70 and ditto/metrics/network_analysis.py:116-129, without an
argument. `np.unique` sorts, which raises `TypeError` for `None` together with another entry. The source `None` is returned as such. -/
def chooseSource (devs : List VoltDev) : Py (Option String) :=
  let names := sourceNames devs
  if none ∈ names ∧ 1 < names.length then .error .typeError
  else
    match names.dedup with
    | [nm] => .ok nm
    | _ => .error .valueError

/-- `source_voltage`: ditto/modify/system_structure.py:77-84; `none` if it is not set -/
def sourceVoltage (devs : List VoltDev) : Option ℚ :=
  (devs.filter fun d => d.net.cls = "PowerSource" && d.voltage.isSome && d.isSourcebus == some true).getLast?.bind (·.voltage)

/-- The constructor of `system_structure_modifier`, and of `NetworkAnalyzer` with `compute_network`: the source, and the network
built from it. `source` is the optional argument. `None` is no node. -/
def construct (devs : List VoltDev) (source : Option String) : Py (String × Network) :=
  match (match source with | some s => .ok (some s) | none => chooseSource devs : Py (Option String)) with
  | .error e => .error e
  | .ok none => .error .keyError
  | .ok (some s) =>
    match build (devs.map (·.net)) s with
    | .error e => .error e
    | .ok n => .ok (s, n)

/-- `system_structure_modifier(model, source).set_nominal_voltages_recur()`; `source_voltage` may be missing -/
def setVoltagesOf (limit : Nat) (devs : List VoltDev) (source : Option String) : Py (List VoltDev) :=
  match construct devs source with
  | .error e => .error e
  | .ok (s, n) =>
    match sourceVoltage devs with
    | none => .error .attributeError
    | some sv => setVoltages n limit s sv devs

end Ditto.Net
