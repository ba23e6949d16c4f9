import Verif.Model.Consistency

/-! `ditto/consistency`: the checks of transformers and phases. -/
namespace Ditto.Net
open Ditto Ditto.Search

/-- What the checks read of a winding: `rated_power` and the phases of its `phase_windings` -/
structure Winding where
  rated : Option ℚ
  phases : List (Option String)
deriving DecidableEq, Repr

/-- An object of the model with the attributes that the checks read: `is_substation`, the phases of the wires of a line, the
windings of a transformer, and `p` of the phase loads of a load. -/
structure Dev where
  net : NetObj
  isSub : Bool := false
  wirePhases : List (Option String) := []
  windings : List Winding := []
  phaseLoads : List (Option ℚ) := []
deriving DecidableEq, Repr

/-- `all_transformers` -/
def transformers (devs : List Dev) : List Dev := devs.filter fun d => d.net.cls = "PowerTransformer"

/-- `all_loads` -/
def devLoads (devs : List Dev) : List Dev := devs.filter fun d => d.net.cls = "Load"

/-- `model.models` as `Network` sees it -/
def netList (devs : List Dev) : List NetObj := devs.map (·.net)

/-! ### check_matched_phases -/

/-- equality of python sets -/
def sameSet {α : Type} [DecidableEq α] (a b : List α) : Bool := a.all (· ∈ b) && b.all (· ∈ a)

/-- The test of one transformer: ditto/consistency/check_matched_phases.py:37-87. In line 48 `set(low) in set(high)` asks whether
a set is one of the phases, which is never so. -/
def matchedPhases (d : Dev) : Bool :=
  match d.windings with
  | [high, low] => sameSet high.phases low.phases
  | [high, low, low2] => low2.phases = low.phases && low2.phases.length = 2 && high.phases.length ≤ 2
  | _ => false

/-- One iteration: with `verbose` the message needs the name of the transformer (`str + None` is a `TypeError`). -/
def matchedStep (verbose : Bool) (res : Bool) (d : Dev) : Py Bool :=
  if matchedPhases d then .ok res
  else if verbose && d.net.name.isNone then .error .typeError
  else .ok false

/-- `check_matched_phases`: ditto/consistency/check_matched_phases.py:20-89. `ts` are the transformers in the order of the
python set. -/
def checkMatchedPhases (verbose : Bool) (ts : List Dev) : Py Bool := ts.foldlM (matchedStep verbose) true

/-! ### Paths and the attributes of their edges -/

/-- `paths[w] = paths[v] + [w]` for the edges of the breadth first tree -/
def addPath (ps : List (String × List String)) (e : String × String) : List (String × List String) :=
  match ps.lookup e.1 with
  | some p => ps ++ [(e.2, p ++ [e.2])]
  | none => ps

/-- `nx.single_source_shortest_path(graph, s)`: networkx goes through the levels of the breadth first search, in the order of
`nx.bfs_edges` -/
def shortestPaths (g : Graph) (s : String) : List (String × List String) :=
  (bfsEdges g.neighbors g.nodes.length s).foldl addPath [(s, [s])]

/-- the attributes of an edge that the checks read; `none` is a missing key -/
structure Element where
  equip : Option String
  name : Option (Option String)
  isSub : Option Bool
  wires : Option (List (Option String))
deriving DecidableEq, Repr

/-- `graph[a][b]` after `build` and `set_attributes` (ditto/network/network.py:240-320): `equipment` is set by `build`, the
others by the named objects between `a` and `b`, in the order of the model, if the directed graph `d` has the edge. Simplification:
attributes set by an object whose `connecting_element` and name are `a` and `b` are left out. -/
def element (d : List Edge) (g : Graph) (devs : List Dev) (a b : String) : Element :=
  let here := if d.any (fun e => e.joins a b) then
    devs.filter fun x => x.net.name.isSome && decide ((x.net.fromEl = some a ∧ x.net.toEl = some b) ∨
      (x.net.fromEl = some b ∧ x.net.toEl = some a)) else []
  ⟨((g.find a b).bind (·.equip)).map (·.1), here.getLast?.map (·.net.name), here.getLast?.map (·.isSub),
    (here.filter (·.net.isLine)).getLast?.map (·.wirePhases)⟩

/-- the elements of the edges of a path, from the source -/
def pathElements (d : List Edge) (g : Graph) (devs : List Dev) : List String → List Element
  | a :: b :: p => element d g devs a b :: pathElements d g devs (b :: p)
  | _ => []

/-- `element['equipment'] == 'PowerTransformer' and not element['is_substation']` -/
def isTransformer (e : Element) : Py Bool :=
  match e.equip with
  | none => .error .keyError
  | some ty =>
    if ty = "PowerTransformer" then
      match e.isSub with
      | none => .error .keyError
      | some b => .ok (!b)
    else .ok false

/-- `model[name]` after `set_names`: the last object of that name -/
def devNamed (devs : List Dev) (nm : Option String) : Py Dev :=
  match nm with
  | none => .error .keyError
  | some _ =>
    match (devs.filter fun d => d.net.name = nm).getLast? with
    | none => .error .keyError
    | some d => .ok d

/-- The network of a source: the directed graph made by `build`, and the graph without open devices -/
def sourceNetwork (devs : List Dev) (s : String) : Py (List Edge × Graph) :=
  match build (netList devs) s with
  | .error e => .error e
  | .ok n =>
    match removeOpenSwitches n (netList devs) with
    | .error e => .error e
    | .ok n' => .ok (n.digraph, n'.graph)

/-- the sources among the objects -/
def devSources (devs : List Dev) : List Dev := devs.filter fun d => d.net.cls = "PowerSource" && d.net.connecting.isSome

/-! ### check_transformer_phase_path -/

/-- names of the transformers and `transformer_low_side`, from the load: ditto/consistency/check_transformer_phase_path.py:66-77.
The list has the elements from the load to the source, each with its node on the side of the source. -/
def scanUp : List (Element × String) → List (Option String) → Option String → Py (List (Option String) × Option String)
  | [], names, low => .ok (names, low)
  | (e, up) :: rest, names, low =>
    match isTransformer e with
    | .error x => .error x
    | .ok true =>
      match e.name with
      | none => .error .keyError
      | some nm => scanUp rest (names ++ [nm]) low
    | .ok false => scanUp rest names (if names = [] ∧ e.equip ≠ some "PowerTransformer" then some up else low)

/-- phases of a line without the neutral -/
def linePhases (ws : List (Option String)) : List (Option String) := ws.filter (· ≠ some "N")

/-- the loop over the low side, from the load: ditto/consistency/check_transformer_phase_path.py:106-118 -/
def lowLoop (low : List (Option String)) : List Element → Py Bool
  | [] => .ok true
  | e :: rest =>
    match isTransformer e with
    | .error x => .error x
    | .ok true => .ok true
    | .ok false =>
      if e.equip = some "Line" then
        match e.wires with
        | none => .error .keyError
        | some ws => if sameSet (linePhases ws) low then lowLoop low rest else .ok false
      else lowLoop low rest

/-- the loop over the high side, from the source: ditto/consistency/check_transformer_phase_path.py:121-145 -/
def highLoop (high : List (Option String)) : Nat → List Element → Py Bool
  | _, [] => .ok true
  | prev, e :: rest =>
    match isTransformer e with
    | .error x => .error x
    | .ok true => .ok true
    | .ok false =>
      if e.equip = some "Line" then
        match e.wires with
        | none => highLoop high prev rest
        | some ws =>
          if ¬ (high.all (· ∈ linePhases ws)) then .ok false
          else if (linePhases ws).length > prev then .ok false
          else highLoop high (linePhases ws).length rest
      else highLoop high prev rest

/-- the loop over a path without transformers: ditto/consistency/check_transformer_phase_path.py:151-170 -/
def plainLoop : Nat → List Element → Py Bool
  | _, [] => .ok true
  | prev, e :: rest =>
    match e.equip with
    | none => .error .keyError
    | some ty =>
      if ty = "Line" then
        match e.wires with
        | none => plainLoop prev rest
        | some ws =>
          if (linePhases ws).length > prev then .ok false else plainLoop (linePhases ws).length rest
      else plainLoop prev rest

/-- `element['name']` where `element` is the last one looked at, next to the source (line 81) -/
def firstName (els : List Element) : Py (Option String) :=
  match els with
  | [] => .error .nameError
  | e :: _ =>
    match e.name with
    | none => .error .keyError
    | some nm => .ok nm

/-- The body of the loop over the loads with one transformer of the given name:
ditto/consistency/check_transformer_phase_path.py:80-85 and 100-145 -/
def oneTransformer (devs : List Dev) (els : List Element) (nm : Option String) (low : Option String) : Py Bool :=
  match firstName els with
  | .error x => .error x
  | .ok _ =>
    match devNamed devs nm with
    | .error x => .error x
    | .ok t =>
      match t.windings with
      | w0 :: w1 :: _ =>
        match lowLoop w1.phases els.reverse with
        | .error x => .error x
        | .ok r1 =>
          match highLoop w0.phases 3 els with
          | .error x => .error x
          | .ok r2 => .ok (decide (t.net.toEl = low) && r1 && r2)
      | _ => .error .indexError

/-- The body of the loop over the loads, on the path to the load: ditto/consistency/check_transformer_phase_path.py:64-170. The
names in the messages are not modelled (a message about an object without a name raises `TypeError`). -/
def checkPath (needs : Bool) (devs : List Dev) (d : List Edge) (g : Graph) (path : List String) : Py Bool :=
  let els := pathElements d g devs path
  match scanUp (els.zip path).reverse [] none with
  | .error x => .error x
  | .ok ([], _) =>
    match plainLoop 3 els with
    | .error x => .error x
    | .ok r => .ok (!needs && r)
  | .ok ([nm], low) => oneTransformer devs els nm low
  | .ok (names, _) => .ok (decide (names.length ≤ 2))

/-- one iteration of the loop over the loads: lines 59-64 -/
def checkPathLoad (needs : Bool) (devs : List Dev) (d : List Edge) (g : Graph) (paths : List (String × List String)) (res : Bool)
    (l : Dev) : Py Bool :=
  match l.net.connecting with
  | none => .ok res
  | some c =>
    match paths.lookup c with
    | none => .ok res
    | some p =>
      match checkPath needs devs d g p with
      | .error x => .error x
      | .ok r => .ok (res && r)

/-- one iteration of the loop over the sources: lines 49-170 -/
def checkPathSource (needs : Bool) (devs ls : List Dev) (res : Bool) (src : Dev) : Py Bool :=
  match src.net.connecting with
  | none => .ok res
  | some s =>
    match sourceNetwork devs s with
    | .error x => .error x
    | .ok (d, g) => ls.foldlM (checkPathLoad needs devs d g (shortestPaths g s)) res

/-- `check_transformer_phase_path`: ditto/consistency/check_transformer_phase_path.py:25-171. `ls` are the loads in the order of the
python set. -/
def checkTransformerPhasePath (needs : Bool) (devs ls : List Dev) : Py Bool :=
  if devSources devs = [] then .ok false
  else (devSources devs).foldlM (checkPathSource needs devs ls) true

/-! ### fix_undersized_transformers -/

/-- `transformer_sizes` in kVA: ditto/consistency/fix_undersized_transformers.py:25 -/
def catalogue : List ℚ := [15, 25, 50, 75, 100, 300, 500, 1000, 2000, 3000, 5000]

/-- `transformer_load_map` -/
abbrev LoadMap := List (Option String × List (Option String))

/-- `map[t].append(load)` -/
def appendLoad (m : LoadMap) (t l : Option String) : LoadMap :=
  if m.any (fun p => p.1 = t) then m.map fun p => if p.1 = t then (p.1, p.2 ++ [l]) else p else m ++ [(t, [l])]

/-- `transformer_names`, from the load: ditto/consistency/fix_undersized_transformers.py:58-65 -/
def transformerNames : List Element → Py (List (Option String))
  | [] => .ok []
  | e :: rest =>
    match isTransformer e with
    | .error x => .error x
    | .ok false => transformerNames rest
    | .ok true =>
      match e.name with
      | none => .error .keyError
      | some nm =>
        match transformerNames rest with
        | .error x => .error x
        | .ok ns => .ok (nm :: ns)

/-- one iteration of the loop over the loads: ditto/consistency/fix_undersized_transformers.py:52-71 -/
def mapLoad (devs : List Dev) (d : List Edge) (g : Graph) (paths : List (String × List String)) (m : LoadMap) (l : Dev) :
    Py LoadMap :=
  match l.net.connecting with
  | none => .ok m
  | some c =>
    match paths.lookup c with
    | none => .ok m
    | some p =>
      match transformerNames (pathElements d g devs p).reverse with
      | .error x => .error x
      | .ok [t] => .ok (appendLoad m t l.net.name)
      | .ok _ => .ok m

/-- the sum of the loads in kW; `None / 1000` is a `TypeError` -/
def sumP : List (Option ℚ) → Py ℚ
  | [] => .ok 0
  | none :: _ => .error .typeError
  | some p :: rest =>
    match sumP rest with
    | .error x => .error x
    | .ok t => .ok (p / 1000 + t)

/-- `total_load_kw`: ditto/consistency/fix_undersized_transformers.py:75-80 -/
def totalLoad (devs : List Dev) : List (Option String) → Py ℚ
  | [] => .ok 0
  | nm :: rest =>
    match devNamed devs nm with
    | .error x => .error x
    | .ok l =>
      match sumP l.phaseLoads with
      | .error x => .error x
      | .ok p =>
        match totalLoad devs rest with
        | .error x => .error x
        | .ok t => .ok (p + t)

/-- new ratings of the windings: ditto/consistency/fix_undersized_transformers.py:74 and 81-92 -/
def resize (ws : List Winding) (total : ℚ) : Py (List Winding) :=
  match ws with
  | [] => .error .indexError
  | w0 :: _ =>
    match w0.rated with
    | none => .error .typeError
    | some r =>
      if r / 1000 < total then
        match catalogue.find? (fun sz => sz > total) with
        | some sz => .ok (ws.map fun w => { w with rated := some (sz * 1000) })
        | none => .ok ws
      else .ok ws

/-- assignment to the windings of `model[name]`, the last object of that name -/
def setWindings (nm : Option String) (ws : List Winding) : List Dev → List Dev
  | [] => []
  | d :: rest =>
    if rest.any (fun x => x.net.name = nm) then d :: setWindings nm ws rest
    else if d.net.name = nm then { d with windings := ws } :: rest
    else d :: rest

/-- one iteration of the loop over the transformers: ditto/consistency/fix_undersized_transformers.py:73-92 -/
def resizeStep (devs : List Dev) (e : Option String × List (Option String)) : Py (List Dev) :=
  match devNamed devs e.1 with
  | .error x => .error x
  | .ok t =>
    match totalLoad devs e.2 with
    | .error x => .error x
    | .ok total =>
      match resize t.windings total with
      | .error x => .error x
      | .ok ws => .ok (setWindings e.1 ws devs)

/-- one iteration of the loop over the sources: ditto/consistency/fix_undersized_transformers.py:44-92 -/
def fixSource (ls : List Dev) (st : LoadMap × List Dev) (src : Dev) : Py (LoadMap × List Dev) :=
  match src.net.connecting with
  | none => .ok st
  | some s =>
    match sourceNetwork st.2 s with
    | .error x => .error x
    | .ok (d, g) =>
      match ls.foldlM (mapLoad st.2 d g (shortestPaths g s)) st.1 with
      | .error x => .error x
      | .ok m =>
        match m.foldlM resizeStep st.2 with
        | .error x => .error x
        | .ok devs => .ok (m, devs)

/-- `fix_undersized_transformers`: ditto/consistency/fix_undersized_transformers.py:19-92. `ls` are the loads in the order of the
python set. -/
def fixUndersized (devs ls : List Dev) : Py (List Dev) :=
  match (devSources devs).foldlM (fixSource ls) ([], devs) with
  | .error x => .error x
  | .ok (_, devs) => .ok devs

end Ditto.Net
