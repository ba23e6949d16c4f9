import Verif.Model.Network
import Verif.Model.Named

/-! `feeder_preprocessing` of `ditto/modify/system_structure.py`. -/
namespace Ditto.Net
open Ditto

/-- What the method reads and writes of an object. `hasNames`: it has the attributes `substation_name` and `feeder_name`. -/
structure FeedDev where
  net : NetObj
  isSub : Bool := false
  hasNames : Bool := true
  substation : Option String := none
  feeder : Option String := none
deriving DecidableEq, Repr

/-- `x is not None and len(x) != 0` -/
def isSet : Option String → Bool
  | none => false
  | some x => x ≠ ""

/-- The objects after a part of a method, and the exception that ended it, if any: an exception does not take the changes back. -/
structure Outcome (σ : Type) where
  state : σ
  err : Option PyErr
deriving DecidableEq, Repr

/-- the body of the innermost loop for the object `model[key]` and the substation `elt`:
ditto/modify/system_structure.py:402-433 -/
def assignFeeder (elt : FeedDev) (key : Option String) (devs : List FeedDev) : Outcome (List FeedDev) :=
  match named (·.net.name) devs key with
  | .error e => ⟨devs, some e⟩
  | .ok d =>
    if d.hasNames then
      if isSet d.substation then ⟨devs, some .valueError⟩
      else
        let devs1 := updateNamed (·.net.name) key (fun d => { d with substation := elt.net.name }) devs
        if isSet d.feeder then ⟨devs1, some .valueError⟩
        else
          match elt.net.name with
          | none => ⟨devs1, some .typeError⟩
          | some x => ⟨updateNamed (·.net.name) key (fun d => { d with feeder := some ("Feeder_" ++ x) }) devs1, none⟩
    else ⟨devs, some .attributeError⟩

/-- the innermost loop, which an exception ends -/
def assignFeeders (elt : FeedDev) : List (Option String) → List FeedDev → Outcome (List FeedDev)
  | [], devs => ⟨devs, none⟩
  | key :: keys, devs =>
    match assignFeeder elt key devs with
    | ⟨devs, some e⟩ => ⟨devs, some e⟩
    | ⟨devs, none⟩ => assignFeeders elt keys devs

/-- the names of the objects that `get_all_elements_downstream` finds below `x`. The python set is in an unknown order; here it is that
of the search. -/
def downstreamKeys (n : Network) (devs : List FeedDev) (x : String) : Py (List (Option String)) :=
  elementsDownstream n (fun key => if devs.any (fun d => d.net.name = key) then some key else none) x

/-- the object `model[key]` is a substation: ditto/modify/system_structure.py:387-399 -/
def subAt (devs : List FeedDev) (key : Option String) : Bool :=
  match named (·.net.name) devs key with
  | .error _ => false
  | .ok d => d.isSub

/-- the body of the outer loop for the substation `elt`: ditto/modify/system_structure.py:370-433. Not modelled: a substation without
`to_element` (networkx then searches the whole graph), here an exception. -/
def feederOf (n : Network) (elt : FeedDev) (devs : List FeedDev) : Outcome (List FeedDev) :=
  match elt.net.toEl with
  | none => ⟨devs, some .genericException⟩
  | some t =>
    match downstreamKeys n devs t with
    | .error e => ⟨devs, some e⟩
    | .ok keys => if keys.any (subAt devs) then ⟨devs, none⟩ else assignFeeders elt keys devs

/-- the outer loop -/
def feedersOf (n : Network) : List FeedDev → List FeedDev → Outcome (List FeedDev)
  | [], devs => ⟨devs, none⟩
  | elt :: elts, devs =>
    match feederOf n elt devs with
    | ⟨devs, some e⟩ => ⟨devs, some e⟩
    | ⟨devs, none⟩ => feedersOf n elts devs

/-- the substation transformers -/
def substations (devs : List FeedDev) : List FeedDev :=
  devs.filter fun d => d.net.cls = "PowerTransformer" && d.isSub

/-- `feeder_preprocessing`: ditto/modify/system_structure.py:343-433. The loop reads only what it does not change of the
substations. -/
def feederPreprocessing (n : Network) (devs : List FeedDev) : Outcome (List FeedDev) :=
  feedersOf n (substations devs) devs

end Ditto.Net
