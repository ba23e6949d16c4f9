import Verif.Model.CymeLoads
import Verif.Model.CymeSources

/-! The load file of CYME: the tables that `parse_loads` in ditto/readers/cyme/read.py takes from it. -/
namespace Ditto.Cyme
open Ditto Glm

/-- ditto/readers/cyme/read.py:5568, 5621-5628 -/
def loadsQuery : Query where
  headers := ["[LOADS]".toList]
  attrs := ["sectionid".toList, "devicenumber".toList, "loadtype".toList, "connection".toList]
  mapping := [("sectionid".toList, 0), ("devicenumber".toList, 1), ("loadtype".toList, 4), ("connection".toList, 5)]

/-- ditto/readers/cyme/read.py:5570-5583, 5636-5656 -/
def customerQuery : Query where
  headers := ["[CUSTOMER LOADS]".toList]
  attrs := ["sectionid".toList, "devicenumber".toList, "loadtype".toList, "customernumber".toList, "customertype".toList, "loadmodelid".toList,
    "valuetype".toList, "loadphase".toList, "value1".toList, "value2".toList, "connectedkva".toList, "numberofcustomer".toList]
  mapping := [("sectionid".toList, 0), ("devicenumber".toList, 1), ("loadtype".toList, 2), ("customernumber".toList, 3), ("customertype".toList, 4),
    ("loadmodelid".toList, 8), ("valuetype".toList, 11), ("loadphase".toList, 12), ("value1".toList, 13), ("value2".toList, 14),
    ("connectedkva".toList, 15), ("numberofcustomer".toList, 17)]

/-- ditto/readers/cyme/read.py:5585-5597, 5664-5683 -/
def classQuery : Query where
  headers := ["[CUSTOMER CLASS]".toList]
  attrs := ["id".toList, "constantpower".toList, "constantcurrent".toList, "constantimpedance".toList, "powerfactor".toList,
    "constantimpedancezp".toList, "constantimpedancezq".toList, "constantcurrentip".toList, "constantcurrentiq".toList, "constantpowerpp".toList,
    "constantpowerpq".toList]
  mapping := [("id".toList, 0), ("constantpower".toList, 4), ("constantcurrent".toList, 5), ("constantimpedance".toList, 6), ("powerfactor".toList, 8),
    ("constantimpedancezp".toList, 17), ("constantimpedancezq".toList, 18), ("constantcurrentip".toList, 19), ("constantcurrentiq".toList, 20),
    ("constantpowerpp".toList, 21), ("constantpowerpq".toList, 22)]

/-- `parse_loads`: ditto/readers/cyme/read.py:5563-5906. `secs` is `section_phase_mapping` and `feeders` is `section_feeder_mapping`. -/
noncomputable def parseLoadFile (num : Text → Option ℝ) (int : Text → Option ℤ) (secs : List (Text × Values)) (feeders : List (Text × Text))
    (content : List Text) : Py (List (Text × LoadRec)) :=
  match readMany [loadsQuery, customerQuery, classQuery] content with
  | .error e => .error e
  | .ok ds =>
    match ds with
    | [loads, customers, classes] => parseLoads ⟨num, int, loads, classes, secs, feeders⟩ customers
    | _ => .error .valueError

end Ditto.Cyme
