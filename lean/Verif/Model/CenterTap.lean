import Verif.Model.Network
import Verif.Model.Named
import Verif.Spec.Connect

/-! `center_tap_load_preprocessing` of `ditto/modify/system_structure.py`. -/
namespace Ditto.Net
open Ditto

/-- A `PhaseLoad`. The other attributes are only copied. -/
structure PhaseLoad where
  phase : Option String
  p : Option ℚ
  q : Option ℚ
  drop : Bool := false
deriving DecidableEq, Repr

/-- A `Wire`. The other attributes are only copied. -/
structure TapWire where
  phase : Option String
  drop : Bool := false
deriving DecidableEq, Repr

/-- What the method reads and writes of an object. `windings`: the phases of the phase windings of each winding. Lists that are not
set (`None`) are not modelled. -/
structure TapDev where
  net : NetObj
  phaseLoads : List PhaseLoad := []
  wires : List TapWire := []
  windings : List (List (Option String)) := []
  isCenterTap : Bool := false
  /-- `center_tap_perct_1_N`, `center_tap_perct_N_2`, `center_tap_perct_1_2` -/
  shares : Option (ℚ × ℚ × ℚ) := none
  upstream : Option String := none
deriving DecidableEq, Repr

/-! ### The way to the transformer -/

/-- The walk upstream: ditto/modify/system_structure.py:764-830, with the lines found so far. `none`: the loop has not ended within the
given number of iterations. At the source `next` of no predecessor raises `StopIteration`. An edge has both an equipment type and a
name or neither, so that the two `ValueError`s are not reachable. -/
def tapWalk (n : Network) : Nat → String → List (Option String) → Option (Py (Option String × List (Option String)))
  | 0, _, _ => none
  | k + 1, x, lines =>
    match n.digraph.find? (fun e => e.v = x) with
    | none => some (.error .stopIteration)
    | some e =>
      match n.graph.equipOf e.u e.v with
      | none => tapWalk n k e.u lines
      | some (ty, nm) =>
        if ty = "PowerTransformer" then some (.ok (nm, lines))
        else if ty = "Line" then tapWalk n k e.u (lines ++ [nm])
        else tapWalk n k e.u lines

/-- the upstream transformer of a load and the lines in between, for its connecting element -/
def tapUp (n : Network) : Option String → Option (Py (Option String × List (Option String)))
  | none => some (.error .networkXError)
  | some x =>
    if n.digraph.any (fun e => e.u = x || e.v = x) then tapWalk n (n.digraph.length + 1) x []
    else some (.error .networkXError)

/-! ### The phases of the transformer -/

/-- the order of strings -/
def phaseLt : Option String → Option String → Bool
  | some a, some b => decide (a.toList < b.toList)
  | _, _ => false

/-- insertion into a sorted list without repetitions -/
def insertUnique (x : Option String) : List (Option String) → List (Option String)
  | [] => [x]
  | y :: ys => if x = y then y :: ys else if phaseLt x y then x :: y :: ys else y :: insertUnique x ys

/-- `np.unique` of strings or `None`, which cannot be compared -/
def npUnique (l : List (Option String)) : Py (List (Option String)) :=
  if none ∈ l ∧ 1 < l.length then .error .typeError else .ok (l.foldr insertUnique [])

/-- the phases of a transformer: ditto/modify/system_structure.py:838-860. All exceptions become `ValueError`. An array made of lists
of different lengths also raises it, as in numpy since 1.24. -/
def trafoPhases (devs : List TapDev) (nm : Option String) : Py (List (Option String)) :=
  match named (·.net.name) devs nm with
  | .error _ => .error .valueError
  | .ok t =>
    if t.windings.all fun w => t.windings.all fun w' => w.length = w'.length then
      match npUnique t.windings.flatten with
      | .error _ => .error .valueError
      | .ok ph => .ok ph
    else .error .valueError

/-! ### Phase loads and wires -/

/-- `sum([pl.p for pl in load.phase_loads])`: `None` raises `TypeError` -/
def sumPy : List (Option ℚ) → Py ℚ
  | [] => .ok 0
  | none :: _ => .error .typeError
  | some x :: l =>
    match sumPy l with
    | .error e => .error e
    | .ok y => .ok (x + y)

/-- ditto/modify/system_structure.py:893-897 -/
def dropLoads (ph : List (Option String)) (pls : List PhaseLoad) : List PhaseLoad :=
  pls.map fun pl => if pl.phase ∈ ph then pl else { pl with drop := true }

/-- ditto/modify/system_structure.py:908-916 -/
def dropWires (ph : List (Option String)) (ws : List TapWire) : List TapWire :=
  ws.map fun w => if w.phase ∉ [some "N", some "N1", some "N2"] ∧ w.phase ∉ ph then { w with drop := true } else w

/-- ditto/modify/system_structure.py:926-934 -/
def addPhaseLoad (p : Option String) (pls : List PhaseLoad) : Py (List PhaseLoad) :=
  if p ∈ pls.map (·.phase) then .ok pls
  else
    match pls with
    | [] => .error .indexError
    | pl :: _ => .ok (pls ++ [{ pl with phase := p, drop := false }])

/-- ditto/modify/system_structure.py:944-948 -/
def addWire (p : Option String) (ws : List TapWire) : Py (List TapWire) :=
  if p ∈ ws.map (·.phase) then .ok ws
  else
    match ws with
    | [] => .error .indexError
    | _ :: _ => .ok (ws ++ [⟨p, false⟩])

/-- with the power `p`, `q` -/
def PhaseLoad.withPower (p q : ℚ) (pl : PhaseLoad) : PhaseLoad := { pl with p := some p, q := some q }

/-- ditto/modify/system_structure.py:950-953 -/
def shareLoads (totalP totalQ : ℚ) (pls : List PhaseLoad) : Py (List PhaseLoad) :=
  let k := (pls.filter fun pl => !pl.drop).length
  if pls = [] then .ok []
  else if k = 0 then .error .zeroDivisionError
  else .ok (pls.map (PhaseLoad.withPower (totalP / k) (totalQ / k)))

/-! ### The objects of the model -/

/-- the wires of the line `nm` changed by `f`; a missing line raises `ValueError`, another object has no wires -/
def onLine (f : List TapWire → Py (List TapWire)) (devs : List TapDev) (nm : Option String) : Py (List TapDev) :=
  match named (·.net.name) devs nm with
  | .error _ => .error .valueError
  | .ok d =>
    if d.net.isLine then
      match f d.wires with
      | .error e => .error e
      | .ok ws => .ok (updateNamed (·.net.name) nm (fun d => { d with wires := ws }) devs)
    else .error .attributeError

/-- the phase loads of the `i`-th object changed by `f` -/
def onLoad (f : List PhaseLoad → Py (List PhaseLoad)) (i : Nat) (devs : List TapDev) : Py (List TapDev) :=
  match devs[i]? with
  | none => .error .indexError
  | some d =>
    match f d.phaseLoads with
    | .error e => .error e
    | .ok pls => .ok (devs.set i { d with phaseLoads := pls })

/-- a center tap load -/
def TapDev.tag (d : TapDev) : TapDev := { d with isCenterTap := true, shares := some (1 / 2, 1 / 2, 0) }

/-- the new phase load and wires for the phase `p`: ditto/modify/system_structure.py:924-948 -/
def addPhase (i : Nat) (lines : List (Option String)) (devs : List TapDev) (p : Option String) : Py (List TapDev) :=
  match onLoad (addPhaseLoad p) i devs with
  | .error e => .error e
  | .ok devs => lines.foldlM (onLine (addWire p)) devs

/-- The load that is the `i`-th object, the transformer `t`, the lines in between and the phases: ditto/modify/system_structure.py:872-953 -/
def tapLoad (devs : List TapDev) (i : Nat) (t : Option String) (lines ph : List (Option String)) : Py (List TapDev) :=
  match named (·.net.name) devs t with
  | .error e => .error e
  | .ok tr =>
    let devs1 := if tr.isCenterTap then devs.modify i TapDev.tag else devs
    match devs1[i]? with
    | none => .error .indexError
    | some load =>
      match sumPy (load.phaseLoads.map (·.p)), sumPy (load.phaseLoads.map (·.q)) with
      | .error e, _ => .error e
      | _, .error e => .error e
      | .ok totalP, .ok totalQ =>
        match onLoad (fun pls => .ok (dropLoads ph pls)) i devs1 with
        | .error e => .error e
        | .ok devs2 =>
          match lines.foldlM (onLine fun ws => .ok (dropWires ph ws)) devs2 with
          | .error e => .error e
          | .ok devs3 =>
            match ph.foldlM (addPhase i lines) devs3 with
            | .error e => .error e
            | .ok devs4 => onLoad (shareLoads totalP totalQ) i devs4

/-! ### The method -/

/-- the indices of the loads -/
def loadIndices (devs : List TapDev) : List Nat :=
  (List.range devs.length).filter fun i => (devs[i]?.map (·.net.cls)) = some "Load"

/-- what is found out about a load: its index, the transformer and the lines in between -/
structure TapInfo where
  idx : Nat
  trafo : Option String
  lines : List (Option String)
deriving DecidableEq, Repr

/-- the first loop for one load, which also stores the name of the transformer in the object that has the name of the load -/
def tapFind (n : Network) (devs : List TapDev) (i : Nat) : Py (TapInfo × List TapDev) :=
  match devs[i]? with
  | none => .error .indexError
  | some d =>
    match tapUp n d.net.connecting with
    | none => .error .recursionError
    | some (.error e) => .error e
    | some (.ok (t, lines)) =>
      match named (·.net.name) devs d.net.name with
      | .error e => .error e
      | .ok _ => .ok (⟨i, t, lines⟩, updateNamed (·.net.name) d.net.name (fun d => { d with upstream := t }) devs)

/-- the first loop: ditto/modify/system_structure.py:758-830 -/
def tapFinds (n : Network) : List Nat → List TapDev → Py (List TapInfo × List TapDev)
  | [], devs => .ok ([], devs)
  | i :: is, devs =>
    match tapFind n devs i with
    | .error e => .error e
    | .ok (info, devs) =>
      match tapFinds n is devs with
      | .error e => .error e
      | .ok (infos, devs) => .ok (info :: infos, devs)

/-- the last loop -/
def tapLoads : List (TapInfo × List (Option String)) → List TapDev → Py (List TapDev)
  | [], devs => .ok devs
  | (info, ph) :: l, devs =>
    match tapLoad devs info.idx info.trafo info.lines ph with
    | .error e => .error e
    | .ok devs => tapLoads l devs

/-- `center_tap_load_preprocessing`: ditto/modify/system_structure.py:722-953 -/
def centerTap (n : Network) (devs : List TapDev) : Py (List TapDev) :=
  match tapFinds n (loadIndices devs) devs with
  | .error e => .error e
  | .ok (infos, devs) =>
    match infos.mapM (fun info => trafoPhases devs info.trafo) with
    | .error e => .error e
    | .ok phs => tapLoads (infos.zip phs) devs

end Ditto.Net
