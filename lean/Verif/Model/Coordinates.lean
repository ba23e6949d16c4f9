import Verif.Model.Network

/-! `set_missing_coords_recur` of `ditto/modify/system_structure.py`. Simplification: coordinates are rational numbers. -/
namespace Ditto.Net
open Ditto

/-- What the method reads and writes of an object: its name, whether it has the attribute `positions`, and its value with `lat`
and `long` of the positions -/
structure CoordObj where
  name : Option String
  hasPositions : Bool := true
  positions : Option (List (Option ℚ × Option ℚ)) := some []
deriving DecidableEq, Repr

/-- no positions, or 0 as first `lat` or `long`: ditto/modify/system_structure.py:117-121 and, negated, 138-142 -/
def CoordObj.unset (o : CoordObj) : Bool :=
  match o.positions with
  | none => true
  | some [] => true
  | some (p :: _) => p.1 == some 0 || p.2 == some 0

/-- the nodes to look at: ditto/modify/system_structure.py:112-129 -/
def recurNodes (g : Graph) (objs : List CoordObj) : List String :=
  objs.filterMap fun o => if o.hasPositions && o.unset then o.name.filter (· ∈ g.nodes) else none

/-- `model[name]`: the last object of that name -/
def coordNamed (objs : List CoordObj) (x : String) : Py CoordObj :=
  match (objs.filter fun o => o.name = some x).getLast? with
  | none => .error .keyError
  | some o => .ok o

/-- `adj_lats_longs`: ditto/modify/system_structure.py:134-144 -/
def adjPositions (objs : List CoordObj) : List String → Py (List (Option ℚ × Option ℚ))
  | [] => .ok []
  | j :: js =>
    match coordNamed objs j with
    | .error e => .error e
    | .ok o =>
      match adjPositions objs js with
      | .error e => .error e
      | .ok ps =>
        match o.positions with
        | some (p :: _) => .ok (if o.hasPositions && !o.unset then p :: ps else ps)
        | _ => .ok ps

/-- the sums: ditto/modify/system_structure.py:149-157. `None` cannot be added. -/
def sumPositions : List (Option ℚ × Option ℚ) → ℚ × ℚ → Py (ℚ × ℚ)
  | [], t => .ok t
  | (some a, some b) :: ps, t => sumPositions ps (t.1 + a, t.2 + b)
  | _ :: _, _ => .error .typeError

/-- assignment to `model[name].positions` -/
def setPosition (x : String) (p : ℚ × ℚ) : List CoordObj → List CoordObj
  | [] => []
  | o :: rest =>
    if rest.any (fun o' => o'.name = some x) then o :: setPosition x p rest
    else if o.name = some x then { o with hasPositions := true, positions := some [(some p.1, some p.2)] } :: rest
    else o :: rest

/-- the body of the inner loop: ditto/modify/system_structure.py:134-161. `none`: the node is looked at again -/
def fillNode (g : Graph) (objs : List CoordObj) (i : String) : Py (Option (List CoordObj)) :=
  match adjPositions objs (g.neighbors i) with
  | .error e => .error e
  | .ok [] => .ok none
  | .ok (p :: ps) =>
    match sumPositions (p :: ps) (0, 0) with
    | .error e => .error e
    | .ok t => .ok (some (setPosition i (t.1 / (ps.length + 1), t.2 / (ps.length + 1)) objs))

/-- one round of the outer loop: the objects and `next_recur` -/
def fillRound (g : Graph) : List String → List CoordObj → Py (List CoordObj × List String)
  | [], objs => .ok (objs, [])
  | i :: is, objs =>
    match fillNode g objs i with
    | .error e => .error e
    | .ok none =>
      match fillRound g is objs with
      | .error e => .error e
      | .ok (objs, next) => .ok (objs, i :: next)
    | .ok (some objs) => fillRound g is objs

/-- the outer loop: ditto/modify/system_structure.py:131-167. `none`: it has not ended after the given number of rounds -/
def fillLoop (g : Graph) : Nat → List String → List CoordObj → Option (Py (List CoordObj))
  | 0, _, _ => none
  | n + 1, is, objs =>
    if is = [] then some (.ok objs)
    else
      match fillRound g is objs with
      | .error e => some (.error e)
      | .ok (objs, next) => if next.length = is.length then some (.ok objs) else fillLoop g n next objs

/-- `set_missing_coords_recur` with the given number of rounds: ditto/modify/system_structure.py:108-167 -/
def fillCoords (g : Graph) (rounds : Nat) (objs : List CoordObj) : Option (Py (List CoordObj)) :=
  fillLoop g rounds (recurNodes g objs) objs

end Ditto.Net
