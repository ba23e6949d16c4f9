import Verif.Model.Network
import Verif.Spec.Connect

/-! `set_switching_devices_ampacity` of `ditto/modify/system_structure.py`. -/
namespace Ditto.Net
open Ditto

/-- an ampacity: `None`, `nan` or a number -/
inductive Amp
  | unset
  | nan
  | val (q : ℚ)
deriving DecidableEq, Repr

/-- What is read of a line. `isDev`: one of `is_switch`, `is_breaker`, `is_sectionalizer`, `is_fuse` and `is_recloser` is `True`
(ditto/modify/system_structure.py:1124-1130). Simplification: no other object of the model has the name of a line. -/
structure AmpLine where
  name : Option String
  fromEl : Option String
  toEl : Option String
  isDev : Bool
  wires : List Amp
deriving DecidableEq, Repr

/-- `edge_equipment_name[(a, b)]`: ditto/modify/system_structure.py:104-106. `nx.get_edge_attributes` has one key for each edge of the
undirected graph, beginning with the node that was added first. `none` if there is no such key. -/
def edgeName (g : Graph) (a b : String) : Option (Option String) :=
  if g.nodes.idxOf a ≤ g.nodes.idxOf b then (g.equipOf a b).map (·.2) else none

/-- `self.model[name].wires[0].ampacity`, if that exists and is a number: ditto/modify/system_structure.py:1208-1234 and 1245-1263. An
object without wires raises `AttributeError`, which is caught. -/
def firstAmp (ls : List AmpLine) (nm : Option String) : Option ℚ :=
  match ls.find? (fun l => l.name = nm) with
  | none => none
  | some l =>
    match l.wires with
    | .val q :: _ => some q
    | _ => none

/-- the ampacity of the equipment of an edge, `none` if there is none or an exception was caught -/
def edgeAmp (g : Graph) (ls : List AmpLine) (a b : String) : Option ℚ :=
  match edgeName g a b with
  | none => none
  | some nm => firstAmp ls nm

/-- neighbours on one side: ditto/modify/system_structure.py:1173-1187 -/
def sideOf (g : Graph) (x other : String) : List String := (g.neighbors x).filter (· ≠ other)

/-- the draw of `idx`: ditto/modify/system_structure.py:1190-1200. `r` is the random number, taken modulo the bound; `randint(0, -1)`
raises. Without neighbours on the from side `idx` keeps its value, `none` if it has none yet. -/
def drawIdx (nf nt : List String) (r : Nat) (idx : Option Nat) : Py (Option Nat) :=
  if nf = [] then .ok idx
  else if nt = [] then .error .valueError
  else .ok (some (r % min nf.length nt.length))

/-- `neighbors[idx]` -/
def pick (l : List String) (idx : Option Nat) : Py String :=
  match idx with
  | none => .error .unboundLocalError
  | some i =>
    match l[i]? with
    | none => .error .indexError
    | some x => .ok x

/-- the from side: ditto/modify/system_structure.py:1202-1234. The key that is tested has the from element of the device, the key that is
looked up has the node that was reached. -/
def fromSide (g : Graph) (ls : List AmpLine) (dev x : String) (nf : List String) (idx : Option Nat) : Py (Option ℚ) :=
  if nf = [] then .ok none
  else
    match pick nf idx with
    | .error e => .error e
    | .ok y => .ok (if (edgeName g y dev).isSome then edgeAmp g ls y x else none)

/-- the to side: ditto/modify/system_structure.py:1236-1263 -/
def toSide (g : Graph) (ls : List AmpLine) (x : String) (nt : List String) (idx : Option Nat) (v : Option ℚ) : Py (Option ℚ) :=
  match v with
  | some q => .ok (some q)
  | none =>
    if nt = [] then .ok none
    else
      match pick nt idx with
      | .error e => .error e
      | .ok y => .ok (edgeAmp g ls x y)

/-- One iteration of the search: ditto/modify/system_structure.py:1168-1276. `.inl`: the value that was found; `.inr`: the node from which
the search goes on, which becomes both `to_node` and `from_node`. -/
def ampStep (g : Graph) (ls : List AmpLine) (dev f t : String) (r : Nat) (idx : Option Nat) : Py (Option Nat × (ℚ ⊕ String)) :=
  if f ∈ g.nodes ∧ t ∈ g.nodes then
    match drawIdx (sideOf g f t) (sideOf g t f) r idx with
    | .error e => .error e
    | .ok idx =>
      match fromSide g ls dev f (sideOf g f t) idx with
      | .error e => .error e
      | .ok v =>
        match toSide g ls t (sideOf g t f) idx v with
        | .error e => .error e
        | .ok (some q) => .ok (idx, .inl q)
        | .ok none =>
          match pick (sideOf g t f) idx with
          | .error e => .error e
          | .ok y => .ok (idx, .inr y)
  else .error .valueError

/-- The search: ditto/modify/system_structure.py:1159-1276. `rs` is the schedule of random numbers. `none`: it has not ended within the
given number of iterations. -/
def ampSearch (g : Graph) (ls : List AmpLine) (dev : String) (rs : Nat → Nat) : Nat → String → String → Option Nat →
    Option (Py (Option Nat × ℚ))
  | 0, _, _, _ => none
  | k + 1, f, t, idx =>
    match ampStep g ls dev f t (rs k) idx with
    | .error e => some (.error e)
    | .ok (idx, .inl q) => some (.ok (idx, q))
    | .ok (idx, .inr y) => ampSearch g ls dev rs k y y idx

/-- the valid ampacities: ditto/modify/system_structure.py:1143 -/
def validAmps (ws : List Amp) : List ℚ :=
  ws.filterMap fun w => match w with
    | .val q => some q
    | _ => none

/-- `np.max` of a list with a first element -/
def maxFrom (q : ℚ) (qs : List ℚ) : ℚ := qs.foldl max q

/-- all the wires get the same ampacity: ditto/modify/system_structure.py:1153-1154 and 1279-1280 -/
def AmpLine.setAll (l : AmpLine) (q : ℚ) : AmpLine := { l with wires := l.wires.map fun _ => .val q }

/-- The body of the loop for one line: ditto/modify/system_structure.py:1123-1280. `np.isnan` raises `TypeError` for an array of objects,
which it is if one of the ampacities is `None`. `idx` is the local variable, which keeps its value from one device to the next. -/
def ampDevice (g : Graph) (ls : List AmpLine) (rs : Nat → Nat) (fuel : Nat) (l : AmpLine) (idx : Option Nat) :
    Option (Py (Option Nat × AmpLine)) :=
  if l.isDev then
    if .unset ∈ l.wires then some (.error .typeError)
    else if .nan ∈ l.wires then
      match validAmps l.wires with
      | q :: qs => some (.ok (idx, l.setAll (maxFrom q qs)))
      | [] =>
        match l.fromEl, l.toEl with
        | some f, some t =>
          match ampSearch g ls f rs fuel f t idx with
          | none => none
          | some (.error e) => some (.error e)
          | some (.ok (idx, q)) => some (.ok (idx, l.setAll q))
        | _, _ => some (.ok (idx, l))
    else some (.ok (idx, l))
  else some (.ok (idx, l))

/-- The loop over the lines: ditto/modify/system_structure.py:1122. `done` are the lines already visited. The graph was built before. -/
def ampLoop (g : Graph) (rs : Nat → Nat → Nat) (fuel : Nat) : List AmpLine → List AmpLine → Option Nat → Option (Py (List AmpLine))
  | done, [], _ => some (.ok done)
  | done, l :: rest, idx =>
    match ampDevice g (done ++ l :: rest) (rs done.length) fuel l idx with
    | none => none
    | some (.error e) => some (.error e)
    | some (.ok (idx, l')) => ampLoop g rs fuel (done ++ [l']) rest idx

/-- `set_switching_devices_ampacity`: ditto/modify/system_structure.py:1117-1280. `rs i` is the schedule of random numbers during the
search for the line number `i`. -/
def setAmpacities (g : Graph) (rs : Nat → Nat → Nat) (fuel : Nat) (ls : List AmpLine) : Option (Py (List AmpLine)) :=
  ampLoop g rs fuel [] ls none

end Ditto.Net
