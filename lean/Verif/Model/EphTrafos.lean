import Verif.Model.EphBuses

/-! The sheet Multiphase Transformer of the ePHASOR writer: `transformer` in ditto/writers/ephasor/write.py. Numbers are exact; the function `round2` rounds to
two digits and `root` is the square root of three. -/
namespace Ditto.Eph
open Ditto
open Ditto.Glm (Text)

/-- the attributes of a `PhaseWinding` that are used here: ditto/models/phase_winding.py:9-17 -/
structure EphPhaseWinding (K : Type) where
  phase : Option Text
  tap : Option K
deriving DecidableEq

/-- the attributes of a `Winding` that are used here: ditto/models/winding.py:21-56 -/
structure EphWinding (K : Type) where
  connection : Option Text
  voltage : Option K
  power : Option K
  resistance : Option K
  phases : List (EphPhaseWinding K)
deriving DecidableEq

/-- the attributes of a `PowerTransformer` that are used here: ditto/models/powertransformer.py:23-68 -/
structure EphTrafo (K : Type) where
  name : Option Text
  source : Option Text
  sink : Option Text
  reactances : List K
  windings : List (EphWinding K)
deriving DecidableEq

/-- the columns of a winding: ditto/writers/ephasor/write.py:606-612, 613-619. The buses are those of the letters A, B, C. -/
structure WindingCells (K : Type) where
  buses : List (Option Text) := [none, none, none]
  voltage : Option K := none
  power : Option K := none
  resistance : Option K := none
  connection : Option Text := none
deriving DecidableEq

/-- a row of the sheet: ditto/writers/ephasor/write.py:603-634. The columns Mutual Impedance, Lowest Tap, Highest Tap, Min Range, Max Range, Z0 leakage, Z1 leakage,
X0/R0, X1/R1 and No Load Loss are in `constants`, in this order. -/
structure TrafoRow (K : Type) where
  id : Option Text := none
  phases : Option Nat := none
  first : WindingCells K := {}
  second : WindingCells K := {}
  taps : List (Option K) := [none, none, none]
  x : Option K := none
  constants : Option (List Int) := none
deriving DecidableEq

/-- an entry of `_transformer_dict`: ditto/writers/ephasor/write.py:662-669. The name and the taps of an entry are not used anywhere. -/
structure TrafoEntry (K : Type) where
  combined : Bool
  index : Nat
  voltage : Option K
  power : Option K
deriving DecidableEq

/-- `_transformer_dict`: ditto/writers/ephasor/write.py:86 -/
abbrev TrafoDict (K : Type) := List (Text × TrafoEntry K)

/-- the state of the first loop: ditto/writers/ephasor/write.py:603-637. `count` is the number of rows; `next` is the number after `index`. -/
structure FirstState (K : Type) where
  count : Nat
  next : Nat
  dict : TrafoDict K

/-- the first number plus the second one; `None` raises TypeError: ditto/writers/ephasor/write.py:648-653 -/
def addNumbers {K : Type} [Add K] : Option K → Option K → Except PyErr (Option K)
  | some a, some b => .ok (some (a + b))
  | _, _ => .error .typeError

section numbers
variable {K : Type} [Field K] [DecidableEq K]

/-- the entry of another transformer is combined with this one: ditto/writers/ephasor/write.py:645-656 -/
def combineEntry (e : TrafoEntry K) (w : EphWinding K) : Except PyErr (TrafoEntry K) := do
  let v ← addNumbers e.voltage w.voltage
  let p ← addNumbers e.power w.power
  return { combined := true, index := e.index, voltage := v, power := p }

/-- a single phase transformer in the first loop: ditto/writers/ephasor/write.py:642-669 -/
def firstSingle (s : FirstState K) (key : Text) (w : EphWinding K) : Except PyErr (FirstState K) :=
  match s.dict.find? (·.1 = key) with
  | some e => (combineEntry e.2 w).map fun e' => { s with next := e.2.index + 1, dict := s.dict.map fun d => if d.1 = key then (key, e') else d }
  | none => .ok { count := s.count + 1, next := s.next + 1, dict := s.dict ++ [(key, ⟨false, s.next, w.voltage, w.power⟩)] }

/-- the key of a transformer; `None` raises TypeError: ditto/writers/ephasor/write.py:644, 687 -/
def trafoKey (t : EphTrafo K) : Except PyErr Text :=
  match t.source, t.name with
  | some e, some n => .ok (e ++ n)
  | _, _ => .error .typeError

/-- a transformer in the first loop: ditto/writers/ephasor/write.py:638-673 -/
def firstStep (s : FirstState K) (t : EphTrafo K) : Except PyErr (FirstState K) :=
  match t.windings with
  | [] => .error .indexError
  | w :: _ =>
    if w.phases.length = 1 then
      match trafoKey t with
      | .error e => .error e
      | .ok key => firstSingle s key w
    else .ok { s with count := s.count + 1, next := s.next + 1 }

/-- a number divided by another one; `None` raises TypeError: ditto/writers/ephasor/write.py:734, 736, 740 -/
def divided (a : Option K) (b : K) : Except PyErr (Option K) :=
  match a with
  | some a => .ok (some (a / b))
  | none => .error .typeError

/-- the text of a connection; others leave the cell as it is: ditto/writers/ephasor/write.py:742-759 -/
def connectionCell (c : Option Text) (old : Option Text) : Option Text :=
  if c = some ['Y'] then some "wye".toList else if c = some ['D'] then some "delta".toList else old

/-- the bus of a phase: ditto/writers/ephasor/write.py:778-784. `None` raises TypeError, a missing phase AttributeError. -/
def windingBus (element : Option Text) (phase : Option Text) : Except PyErr Text :=
  match element with
  | none => .error .typeError
  | some e => match phase with
    | none => .error .attributeError
    | some p => .ok (busName e p)

/-- the phases of a winding: ditto/writers/ephasor/write.py:773-796. A fourth phase raises IndexError. The pair are the buses and the taps. -/
def windingPhases (element : Option Text) : Nat → List (EphPhaseWinding K) → List (Option Text) × List (Option K) → Except PyErr (List (Option Text) × List (Option K))
  | _, [], cells => .ok cells
  | k, pw :: pws, cells =>
    match windingBus element pw.phase with
    | .error e => .error e
    | .ok b =>
      if k < 3 then windingPhases element (k + 1) pws (cells.1.set k (some b), cells.2.set k (some (match pw.tap with | none => 0 | some t => t)))
      else .error .indexError

/-- power and voltage of a winding: ditto/writers/ephasor/write.py:721-737. `sums` are the sums of a combined transformer. -/
def windingRatings (round2 : K → K) (root : K) (sums : Option (Option K × Option K)) (w : EphWinding K) : Except PyErr (Option K × Option K) :=
  match sums with
  | some (kv1, kva) => do
    let p ← divided kva 1000
    let v ← divided kv1 root
    return (p.map round2, v.map fun v => round2 (v / 1000))
  | none => do
    let p ← divided w.power 1000
    let v ← divided w.voltage 1000
    return (p, v)

/-- a winding: ditto/writers/ephasor/write.py:718-796. The pair are its columns and the taps. -/
def windingCells (round2 : K → K) (root : K) (sums : Option (Option K × Option K)) (element : Option Text) (w : EphWinding K)
    (cells : WindingCells K × List (Option K)) : Except PyErr (WindingCells K × List (Option K)) := do
  let pv ← windingRatings round2 root sums w
  let r ← divided w.resistance 100
  let bt ← windingPhases element 0 w.phases (cells.1.buses, cells.2)
  return ({ buses := bt.1, voltage := pv.2, power := pv.1, resistance := r, connection := connectionCell w.connection cells.1.connection }, bt.2)

/-- the sums of a combined transformer; the dictionary is asked for the node, while its keys are nodes and names: ditto/writers/ephasor/write.py:721-724 -/
def combinedSums (dict : TrafoDict K) (source : Option Text) (kv1 kva : Option K) : Option (Option K × Option K) :=
  match source with
  | none => none
  | some e => match dict.find? (·.1 = e) with
    | some d => if d.2.combined then some (kv1, kva) else none
    | none => none

/-- the columns of the windings; a transformer with one winding leaves them: ditto/writers/ephasor/write.py:710-813 -/
def trafoWindings (round2 : K → K) (root : K) (sums : Option (Option K × Option K)) (t : EphTrafo K) (r : TrafoRow K) : Except PyErr (TrafoRow K) :=
  match t.windings with
  | w1 :: w2 :: _ =>
    match t.reactances with
    | [] => .error .indexError
    | x :: _ => do
      let c1 ← windingCells round2 root sums t.source w1 (r.first, r.taps)
      let c2 ← windingCells round2 root sums t.sink w2 (r.second, c1.2)
      return { r with x := some x, first := c1.1, second := c2.1, taps := c2.2 }
  | _ => .ok r

/-- the state of the second loop: ditto/writers/ephasor/write.py:675-680. `phases` is the first element of `N_phases`, if that has been set. -/
structure SecondState (K : Type) where
  rows : List (TrafoRow K)
  next : Nat
  phases : Option Nat

/-- the row of a transformer, and the sums of its entry: ditto/writers/ephasor/write.py:680-691 -/
def trafoPlace (dict : TrafoDict K) (next : Nat) (t : EphTrafo K) : Except PyErr (Nat × Option K × Option K) :=
  match t.windings with
  | [] => .error .indexError
  | w :: _ =>
    if w.phases.length = 1 then
      match trafoKey t with
      | .error e => .error e
      | .ok key => match dict.find? (·.1 = key) with
        | some d => .ok (d.2.index, d.2.voltage, d.2.power)
        | none => .ok (next, some 0, some 0)
    else .ok (next, some 0, some 0)

/-- the numbers of phases found so far: ditto/writers/ephasor/write.py:717, 775, 835. A transformer with one winding leaves the number of the one before. -/
def phaseCount (t : EphTrafo K) (before : Option Nat) : Option Nat :=
  match t.windings with
  | w1 :: _ :: _ => some w1.phases.length
  | _ => before

/-- the values that are the same for all transformers: ditto/writers/ephasor/write.py:830-840 -/
def trafoConstants : List Int := [0, -16, 16, 10, 10, 0, 0, 0, 0, 0]

/-- the row with the columns of a transformer: ditto/writers/ephasor/write.py:697-840. If the number of phases is not known, UnboundLocalError is raised. -/
def trafoFill (round2 : K → K) (root : K) (sums : Option (Option K × Option K)) (before : Option Nat) (t : EphTrafo K) (r : TrafoRow K) : Except PyErr (TrafoRow K) :=
  match trafoWindings round2 root sums t { r with id := some (match t.name with | some n => n | none => "None".toList) } with
  | .error e => .error e
  | .ok r' => match phaseCount t before with
    | none => .error .unboundLocalError
    | some n => .ok { r' with constants := some trafoConstants, phases := some n }

/-- a transformer in the second loop: ditto/writers/ephasor/write.py:677-840 -/
def secondStep (round2 : K → K) (root : K) (dict : TrafoDict K) (s : SecondState K) (t : EphTrafo K) : Except PyErr (SecondState K) :=
  match trafoPlace dict s.next t with
  | .error e => .error e
  | .ok (i, kv1, kva) => match s.rows[i]? with
    | none => .error .indexError
    | some r => (trafoFill round2 root (combinedSums dict t.source kv1 kva) s.phases t r).map fun r' =>
        { rows := s.rows.set i r', next := i + 1, phases := phaseCount t s.phases }

/-- `transformer`: ditto/writers/ephasor/write.py:592-881. The first argument in parentheses is the dictionary that the writer has from files written before; the
result are the rows and the new dictionary. -/
def trafoSheet (round2 : K → K) (root : K) (dict : TrafoDict K) (trafos : List (EphTrafo K)) : Except PyErr (List (TrafoRow K) × TrafoDict K) := do
  let s ← trafos.foldlM firstStep { count := 0, next := 0, dict := dict }
  let s' ← trafos.foldlM (secondStep round2 root s.dict) { rows := List.replicate s.count {}, next := 0, phases := none }
  return (s'.rows, s.dict)

end numbers
end Ditto.Eph
