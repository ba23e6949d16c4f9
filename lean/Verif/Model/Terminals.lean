import Verif.Model.TrafoLoads

/-! `terminals_to_phases` of `ditto/modify/system_structure.py`. -/
namespace Ditto.Net
open Ditto

/-- A load: its `phase_loads` have the phases `phases`, and `upstream` is `upstream_transformer_name` -/
structure TermLoad where
  net : NetObj
  phases : List (Option String)
  upstream : Option String
deriving DecidableEq, Repr

/-- A transformer: the phases of the phase windings of its windings -/
structure TermTrafo where
  name : Option String
  windings : List (List (Option String))
deriving DecidableEq, Repr

/-- `for phase_winding, l_phase in zip(...)`: ditto/modify/system_structure.py:1067-1070 and 1075-1078 -/
def overlay : List (Option String) → List (Option String) → List (Option String)
  | _ :: s, p :: ps => p :: overlay s ps
  | s, _ => s

/-- ditto/modify/system_structure.py:1062-1078. A new `PhaseWinding` has no phase. -/
def matchWindings (ws : List (List (Option String))) (ps : List (Option String)) : List (List (Option String)) :=
  match ws with
  | [a, b] => [a, overlay b ps]
  | [a, b, c] => [a, overlay (b ++ [none]) ps, c]
  | _ => ws

/-- `self.model[transformer_name]` is changed; `KeyError` if there is no such object. Names are distinct. -/
def matchTrafo (trs : List TermTrafo) (t : String) (ps : List (Option String)) : Py (List TermTrafo) :=
  if trs.any (fun tr => tr.name = some t) then
    .ok (trs.map fun tr => if tr.name = some t then { tr with windings := matchWindings tr.windings ps } else tr)
  else .error .keyError

/-- The body of the loop: ditto/modify/system_structure.py:990-1078. The walk upstream is that of `get_transformer_load_mapping`.
Simplifications: the names of the loads are distinct, so that `self.model[load_name]` is the load itself; transformers have names. -/
def termLoad (n : Network) (trs : List TermTrafo) (l : TermLoad) : Option (Py (TermLoad × List TermTrafo)) :=
  match mapUp n l.net with
  | none => none
  | some (some (some t)) =>
    match matchTrafo trs t l.phases with
    | .error e => some (.error e)
    | .ok trs => some (.ok ({ l with upstream := some t }, trs))
  | some _ => some (.ok (l, trs))

/-- `terminals_to_phases`: ditto/modify/system_structure.py:974-1078, on the loads and transformers of the model; `none` if a walk does
not end -/
def terminalsToPhases (n : Network) : List TermLoad → List TermTrafo → Option (Py (List TermLoad × List TermTrafo))
  | [], trs => some (.ok ([], trs))
  | l :: ls, trs =>
    match termLoad n trs l with
    | none => none
    | some (.error e) => some (.error e)
    | some (.ok (l', trs)) =>
      match terminalsToPhases n ls trs with
      | none => none
      | some (.error e) => some (.error e)
      | some (.ok (ls', trs)) => some (.ok (l' :: ls', trs))

end Ditto.Net
