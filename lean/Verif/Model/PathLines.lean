import Verif.Model.Py

/-! Lines on a path and their impedances: ditto/metrics/network_analysis.py. -/
namespace Ditto.PathLines
open Ditto

/-- a `Line` -/
structure MapLine where
  name : Option String
  fromEl : Option String
  toEl : Option String
deriving DecidableEq

/-- one line in the loop of `compute_node_line_mapping`: ditto/metrics/network_analysis.py:2126-2135 -/
def mapStep (m : String × String → Option (Option String)) (l : MapLine) : String × String → Option (Option String) :=
  match l.fromEl, l.toEl with
  | some f, some t => fun k => if k = (f, t) then some l.name else m k
  | _, _ => m

/-- `compute_node_line_mapping`: ditto/metrics/network_analysis.py:2119-2135, for the lines among the models. A line without name gives the value `None`. -/
def lineMapping (lines : List MapLine) : String × String → Option (Option String) := lines.foldl mapStep fun _ => none

/-- `edge_list`: ditto/metrics/network_analysis.py:2166 -/
def edgesOf (path : List String) : List (String × String) := path.zip path.tail

/-- The loop of `list_lines_betweeen_nodes`: ditto/metrics/network_analysis.py:2168-2175, for the shortest path, which is given (networkx). -/
def linesOn (m : String × String → Option (Option String)) (path : List String) : List (Option String) :=
  (edgesOf path).filterMap fun e => (m e).or (m (e.2, e.1))

/-- `get_impedance_list_between_nodes`: ditto/metrics/network_analysis.py:2137-2156, after the list of lines. `matrix` has `impedance_matrix` of the objects by
name, `[]` for `None` and for none at all; `positive` is the positive sequence impedance of a matrix (ditto/readers/abstract_reader.py). -/
def impedances {N : Type} (matrix : Option String → Option (List (List N))) (positive : List (List N) → N) : List (Option String) → Py (List N)
  | [] => .ok []
  | l :: ls =>
    match matrix l with
    | none => .error .keyError
    | some z =>
      match impedances matrix positive ls with
      | .error e => .error e
      | .ok zs =>
        match z with
        | [] => .ok zs
        | [[x]] => .ok (x :: zs)
        | z => .ok (positive z :: zs)

end Ditto.PathLines
