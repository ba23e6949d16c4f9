import Verif.Model.Network
import Verif.Spec.Connect

/-! `replace_kth_switch_with_recloser` of `ditto/modify/system_structure.py`. -/
namespace Ditto.Net
open Ditto

/-- What is read of an object with a name: `is_switch` and `is_recloser`, and `is_open` of the wires, `none` if there is no such
attribute (the object is no line). Simplification: names are distinct. -/
structure SwObj where
  name : Option String
  isSwitch : Option Bool
  isRecloser : Option Bool
  wires : List Bool
deriving DecidableEq, Repr

/-- What is read of the objects over which the method loops; `isConn` is `is_substation_connection` -/
structure ConnNode where
  name : String
  isConn : Bool
  voltage : Option ℚ
deriving DecidableEq, Repr

/-- the test of the object: ditto/modify/system_structure.py:478-484. (`is_open` is a boolean.) -/
def SwObj.closedSwitch (o : SwObj) : Bool :=
  o.isSwitch = some true &&
  match o.wires with
  | [] => false
  | w :: _ => !w

/-- ditto/modify/system_structure.py:487-488 -/
def SwObj.toRecloser (o : SwObj) : SwObj := { o with isSwitch := some false, isRecloser := some true }

/-- the object called `nm` becomes a recloser -/
def reclose (nm : Option String) (os : List SwObj) : List SwObj := os.map fun o => if o.name = nm then o.toRecloser else o

/-- `_name`, after the lookups of the edge in both directions: ditto/modify/system_structure.py:466-470 -/
def keepName (equip : Option (String × Option String)) (name : Option (Option String)) : Option (Option String) :=
  match equip with
  | some (_, nm) => some nm
  | none => name

/-- The walk downstream: ditto/modify/system_structure.py:457-492. `name` is the variable `_name`: it keeps its value when the edge has no
equipment, and `none` is its state before the first assignment (`NameError`, which is caught). `cnt` is `switch_cnt` and `target` is
`target_depth`. The result is `_name` and the objects; the outer `none`: the walk has not ended within the given number of steps. -/
def recloserWalk (n : Network) (target : Nat) : Nat → String → Option (Option String) → Nat → List SwObj →
    Option (Option (Option String) × List SwObj)
  | 0, _, _, _, _ => none
  | k + 1, x, name, cnt, os =>
    match successors n.digraph x with
    | [] => some (name, os)
    | y :: _ =>
      match keepName (n.graph.equipOf x y) name with
      | none => some (none, os)
      | some nm =>
        match os.find? (fun o => o.name = nm) with
        | none => some (some nm, os)
        | some o =>
          if o.closedSwitch then
            if cnt + 1 = target then some (some nm, reclose nm os)
            else recloserWalk n target k y (some nm) (cnt + 1) os
          else recloserWalk n target k y (some nm) cnt os

/-- The loop over the objects: ditto/modify/system_structure.py:441-492. `draws` are the depths drawn at random, one for each
connection; a voltage that is `None` cannot be compared. -/
def recloserLoop (n : Network) (fuel : Nat) : List ConnNode → List Nat → Option (Option String) → List SwObj →
    Option (Py (List SwObj))
  | [], _, _, os => some (.ok os)
  | c :: cs, draws, name, os =>
    if c.isConn then
      match draws with
      | [] => none
      | d :: draws =>
        match c.voltage with
        | none => some (.error .typeError)
        | some v =>
          if v < 69000 then
            match recloserWalk n d fuel c.name name 0 os with
            | none => none
            | some (name, os) => recloserLoop n fuel cs draws name os
          else recloserLoop n fuel cs draws name os
    else recloserLoop n fuel cs draws name os

/-- `replace_kth_switch_with_recloser`: ditto/modify/system_structure.py:435-492. `none`: there are not enough draws, or a walk has not
ended. -/
def replaceSwitches (n : Network) (fuel : Nat) (cs : List ConnNode) (draws : List Nat) (os : List SwObj) : Option (Py (List SwObj)) :=
  recloserLoop n fuel cs draws none os

end Ditto.Net
