import Verif.Model.Py

/-! Repair of transformers on the paths to loads: `fix_transformer_phase_path`, ditto/consistency/fix_transformer_phase_path.py. -/
namespace Ditto.TrafoFix
open Ditto

/-- An edge of a path from the source to a load, with the attributes that `Network.set_attributes` copies from its element. `upper` is the node at the side of
the source. `phases` are those of the wires, of lines only. -/
structure PathEdge where
  upper : String
  lower : String
  equipment : String
  substation : Bool := false
  name : String
  phases : List String := []
deriving DecidableEq

/-- A `PowerTransformer`. `first` has the phases of the first winding, nothing if there are no windings. -/
structure FixTrafo where
  fromElement : Option String
  toElement : Option String
  first : Option (List String)
deriving DecidableEq

/-- is the edge a transformer? -/
def PathEdge.isTrafo (e : PathEdge) : Bool := e.equipment = "PowerTransformer"

/-- is it one outside of substations? ditto/consistency/fix_transformer_phase_path.py:70, 97 -/
def PathEdge.counted (e : PathEdge) : Bool := e.isTrafo && !e.substation

/-- `transformer_names` and `transformer_low_side` after an edge, from the load: ditto/consistency/fix_transformer_phase_path.py:69-74 -/
def climbStep (s : List String × Option String) (e : PathEdge) : List String × Option String :=
  let names := if e.counted then s.1 ++ [e.name] else s.1
  (names, if names = [] ∧ e.isTrafo = false then some e.upper else s.2)

/-- the loop from the load to the source: ditto/consistency/fix_transformer_phase_path.py:61-74 -/
def climb (path : List PathEdge) : List String × Option String := path.reverse.foldl climbStep ([], none)

/-- the ends of the transformer: ditto/consistency/fix_transformer_phase_path.py:79-88 -/
def rotate (low : Option String) (t : FixTrafo) : FixTrafo :=
  if t.toElement ≠ low then
    if t.fromElement = low then { t with fromElement := t.toElement, toElement := t.fromElement } else t
  else t

/-- `len(set(l)) == 1` -/
def oneElement : List String → Bool
  | [] => false
  | x :: xs => xs.all (· = x)

/-- The phases of the first winding after the loop from the source: ditto/consistency/fix_transformer_phase_path.py:95-107. `high` is `high_phases`, which is
read again before the phase is set; `cur` are the phases of the winding. -/
def phaseLoop : List String → List String → List PathEdge → List String
  | _, cur, [] => cur
  | high, cur, e :: es =>
    if e.counted then cur
    else if e.equipment = "Line" then
      let line := e.phases.filter (· ≠ "N")
      if high.all (· ∈ line) then phaseLoop high cur es
      else if oneElement high && oneElement line then phaseLoop cur (line.take 1 ++ cur.drop 1) es
      else phaseLoop high cur es
    else phaseLoop high cur es

/-- One load: ditto/consistency/fix_transformer_phase_path.py:57-107. `model` has the transformers by name; that another object has the name is not
represented. -/
def fixLoad (model : String → Option FixTrafo) (path : List PathEdge) : Py (String → Option FixTrafo) :=
  match climb path with
  | ([n], low) =>
    match model n with
    | none => .error .keyError
    | some t =>
      match t.first with
      | none => .error .indexError
      | some high => .ok fun x => if x = n then some { rotate low t with first := some (phaseLoop high high path) } else model x
  | _ => .ok model

/-- All loads that are connected to a source, for one source after the other: ditto/consistency/fix_transformer_phase_path.py:49-107. The loads of a source are
in a set, which can be in any order. The graph is not changed. -/
def fixLoads (model : String → Option FixTrafo) : List (List PathEdge) → Py (String → Option FixTrafo)
  | [] => .ok model
  | p :: ps =>
    match fixLoad model p with
    | .error e => .error e
    | .ok model' => fixLoads model' ps

end Ditto.TrafoFix
