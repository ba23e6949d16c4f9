import Verif.Model.DssSeries
import Mathlib.Data.List.Sort
import Mathlib.Order.Defs.LinearOrder

/-! Master files of feeders and the voltage bases of OpenDSS files: `write_master_file` of ditto/writers/opendss/write.py and the sets
`_baseKV_` and `_baseKV_feeders_` filled before. -/
namespace Ditto.Dss
open Ditto Ditto.Json

/-! ### Voltage bases -/

/-- where a voltage comes from: a winding of a transformer with two windings, or with three; a winding of a regulator without transformer; a
load; a storage device; a PV system, with its own voltage or that of its node; a capacitor -/
inductive VoltSource
  | winding | threeWinding | regulator | load | storage | pv | capacitor
deriving DecidableEq, Repr

/-- a nominal voltage of an object that is written, in V, and its group -/
structure VoltUse (K : Type) where
  source : VoltSource
  group : String × String
  volt : K
deriving DecidableEq, Repr

section bases
variable {K : Type} [Field K] [LinearOrder K]

/-- what is added to `_baseKV_`, in kV: ditto/writers/opendss/write.py:597, 615-633, 852-870, 1092-1098, 1318-1326, 1355-1365, 1924-1930, 2261-2279,
2618-2624. `root3`: `math.sqrt(3)`. -/
def masterBases (root3 : K) (u : VoltUse K) : List K :=
  let low := u.volt < 300
  match u.source with
  | .winding => (if 0 < u.volt then [u.volt / 1000] else []) ++ [if low then u.volt * root3 / 1000 else u.volt / 1000]
  | .threeWinding | .regulator | .load | .storage => [if low then u.volt * root3 / 1000 else u.volt / 1000]
  | .pv | .capacitor => [u.volt / 1000]

/-- what is added to the set of the group in `_baseKV_feeders_`: the same lines -/
def feederBase (root3 : K) (u : VoltUse K) : K :=
  if u.volt < 300 then (match u.source with | .pv => u.volt * 2 / 1000 | _ => u.volt * root3 / 1000) else u.volt / 1000

/-- `set.add` -/
def addBase (x : K) (s : List K) : List K := if x ∈ s then s else s ++ [x]

/-- both sets after one voltage -/
def baseStep (root3 : K) (st : List K × List (String × List K)) (u : VoltUse K) : List K × List (String × List K) :=
  ((masterBases root3 u).foldl (fun s x => addBase x s) st.1,
    setKey (groupKey u.group) (addBase (feederBase root3 u) ((st.2.lookup (groupKey u.group)).getD [])) st.2)

/-- both sets after all objects are written -/
def baseSets (root3 : K) (uses : List (VoltUse K)) : List K × List (String × List K) := uses.foldl (baseStep root3) ([], [])

/-- the list of the master file, with the voltages of the sources: ditto/writers/opendss/write.py:3900-3907, 3982-3984 -/
def masterVoltages (root3 : K) (uses : List (VoltUse K)) (sources : List K) : List K :=
  ((sources.map (· / 1000)).foldl (fun s x => addBase x s) (baseSets root3 uses).1).insertionSort (· ≤ ·)

end bases

/-! ### Files of feeders -/

/-- `os.path.join(s, f)` for names without slashes -/
def joinPath (s f : String) : String := if s = "" then f else s ++ "/" ++ f

/-- the files written by one function, e.g. "Loads.dss", and the substations and feeders (as names of folders) whose folder they are in -/
structure Phase where
  file : String
  groups : List (String × String)
deriving DecidableEq, Repr

/-- `d[k].append(v)`, with an empty list before -/
def appendAt (k v : String) (d : List (String × List String)) : List (String × List String) :=
  setKey k ((d.lookup k).getD [] ++ [v]) d

/-- `feeders_redirect`: ditto/writers/opendss/write.py:990-996 for transformers, 2102-2108 for loads, 3058-3064 for lines, and the same in the others -/
def feedersRedirect (sf : Bool) (ps : List Phase) : List (String × List String) :=
  ps.foldl (fun d p => p.groups.foldl (fun d g => if sf then appendAt (joinPath g.1 g.2) p.file d else d) d) []

/-- `substations_redirect`: ditto/writers/opendss/write.py:976-989, 2090-2101, 3046-3057, and the same in the others -/
def substationsRedirect (sf ss : Bool) (ps : List Phase) : List (String × List String) :=
  ps.foldl (fun d p => p.groups.foldl (fun d g => if ss then appendAt g.1 (if sf then joinPath g.2 p.file else p.file) d else d) d) []

/-- the attributes of a `Node` that are used: ditto/models/node.py:21-125 -/
structure ConnNode (K : Type) where
  name : Option String := none
  connection : Bool := false
  feeder : Option String := none
  substation : Option String := none
  setpoint : Option K := none
  volt : Option K := none
deriving DecidableEq, Repr

/-- the master file of a feeder. `circuit`: the name after "New Circuit.", or `none` if there is no such command; `coords`: the combined file of
buses is named. -/
structure FeederMaster (K : Type) where
  circuit : Option String
  bus : String
  pu : Option K
  kV : Option K
  redirects : List String
  bases : List K
  coords : Bool
deriving DecidableEq, Repr

/-- what the writer has when it comes to the master files of the feeders. `exists`: whether there is a folder. -/
structure MasterState (K : Type) where
  sf : Bool
  ss : Bool
  phases : List Phase
  bases : List (String × List K)
  coords : Bool
  folders : List String → Bool

section masters
variable {K : Type} [Field K] [LinearOrder K]

/-- whether the file is that of a feeder: ditto/writers/opendss/write.py:4032-4037 and 4058-4063. (`strip` has nothing to remove, as names of folders
have no slashes and that of the feeder is not empty.) -/
def isFeeder (m : MasterState K) (s f : String) : Bool :=
  ((feedersRedirect m.sf m.phases).lookup (joinPath s f)).isSome && ((substationsRedirect m.sf m.ss m.phases).lookup (joinPath s f)).isNone

/-- the list of voltages of a feeder: ditto/writers/opendss/write.py:4071-4080, where names are as in the model -/
def feederVoltages (m : MasterState K) (s f : String) : List K :=
  ((m.bases.lookup (groupKey (s, f))).getD []).insertionSort (· ≤ ·)

/-- the text of the master file of a node: ditto/writers/opendss/write.py:4020-4096. `s`, `f`: names as in the model. -/
def feederMaster (m : MasterState K) (s f name : String) (n : ConnNode K) : FeederMaster K :=
  let p := joinPath (cleanLower s) (cleanLower f)
  { circuit := if isFeeder m (cleanLower s) (cleanLower f) then some ("feeder_" ++ name) else none
    bus := cleanName name
    pu := n.setpoint
    kV := n.volt.map (· / 1000)
    redirects := if isFeeder m (cleanLower s) (cleanLower f) then ((feedersRedirect m.sf m.phases).lookup p).getD [] else []
    bases := feederVoltages m s f
    coords := m.coords }

/-- one node: ditto/writers/opendss/write.py:4003-4096. Nodes without feeder are skipped, so that no master file of a substation is written. -/
def masterStep (m : MasterState K) (files : List (List String × List (FeederMaster K))) (n : ConnNode K) :
    Py (List (List String × List (FeederMaster K))) :=
  if n.connection then
    match n.feeder, n.substation with
    | none, _ => .error .attributeError
    | some _, none => .error .attributeError
    | some f, some s =>
      if cleanLower f = "" then .ok files
      else if m.folders [cleanLower s, cleanLower f] then
        match n.name with
        | none => .error .typeError
        | some name => .ok (putFile [cleanLower s, cleanLower f] [feederMaster m s f name n] files)
      else .error .fileNotFoundError
  else .ok files

/-- the loop over the nodes: ditto/writers/opendss/write.py:4002-4096 -/
def feederMasters (m : MasterState K) (nodes : List (ConnNode K)) : Py (List (List String × List (FeederMaster K))) :=
  nodes.foldlM (masterStep m) []

end masters

end Ditto.Dss
