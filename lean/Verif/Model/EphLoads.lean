import Verif.Model.EphBuses
import Mathlib.Order.Defs.LinearOrder

/-! The sheet Multiphase Load of the ePHASOR writer: `load` in ditto/writers/ephasor/write.py. Numbers are exact. -/
namespace Ditto.Eph
open Ditto
open Ditto.Glm (Text)

/-- the attributes of a `PhaseLoad` that are used: ditto/models/phase_load.py:21-74 -/
structure EphPhaseLoad (K : Type) where
  phase : Option Text
  p : Option K
  q : Option K
  model : Option Int
  useZip : Option Int
  pCurrent : Option K
  qCurrent : Option K
  pPower : Option K
  qPower : Option K
  pImpedance : Option K
  qImpedance : Option K
deriving DecidableEq

/-- the attributes of a `Load` that are used: ditto/models/load.py:24-62 -/
structure EphLoad (K : Type) where
  name : Option Text
  voltage : Option K
  conn : Option Text
  element : Option Text
  phaseLoads : List (EphPhaseLoad K)
deriving DecidableEq

/-- the columns with the same number: ditto/writers/ephasor/write.py:1092-1102 -/
structure LoadSlot (K : Type) where
  bus : Option Text := none
  p : Option K := none
  q : Option K := none
deriving DecidableEq

/-- a row of the sheet: ditto/writers/ephasor/write.py:1091-1111. A new row has only `None`. -/
structure LoadRow (K : Type) where
  one : LoadSlot K := {}
  two : LoadSlot K := {}
  three : LoadSlot K := {}
  id : Option Text := none
  type : Option Text := none
  voltage : Option K := none
  bandwidth : Option K := none
  conn : Option Text := none
  kz : Option K := none
  ki : Option K := none
  kp : Option K := none
  status : Option Int := none
  initial : Option Int := none
deriving DecidableEq

/-- the letters at the end of the names of single phase loads: ditto/writers/ephasor/write.py:1130-1134 -/
def isLetter (c : Char) : Bool := c.toLower = 'a' || c.toLower = 'b' || c.toLower = 'c'

/-- the ID of a load: ditto/writers/ephasor/write.py:1141-1144, 1152-1155 -/
def loadId (n : Text) : Text := if n.take 5 = "load_".toList then n.drop 5 else n

section numbers
variable {K : Type}

/-- the rows, `index` and `load_dict`: ditto/writers/ephasor/write.py:1121-1123. The index -1 is `none`; it only occurs before the first row. -/
structure LoadState (K : Type) where
  rows : List (LoadRow K) := []
  index : Option Nat := none
  dict : List (Text × Nat) := []

/-- `index += 1`: ditto/writers/ephasor/write.py:1139, 1151 -/
def nextIndex : Option Nat → Nat
  | none => 0
  | some i => i + 1

/-- a new row at the end, and the ID written to the row after the current one: ditto/writers/ephasor/write.py:1137-1144, 1149-1155 -/
def newRow (s : LoadState K) (n : Text) : LoadState K :=
  { s with
    rows := (s.rows ++ [({} : LoadRow K)]).modify (nextIndex s.index) fun r => { r with id := some (loadId n) }
    index := some (nextIndex s.index) }

/-- the row of a load: ditto/writers/ephasor/write.py:1128-1155. An empty name raises IndexError. -/
def placeLoad (s : LoadState K) (name : Option Text) : Except PyErr (LoadState K) :=
  match name with
  | none => .ok s
  | some n =>
    match n.getLast? with
    | none => .error .indexError
    | some c =>
      if isLetter c then
        match s.dict.find? (·.1 = n.dropLast) with
        | some e => .ok { s with index := some e.2 }
        | none => .ok { newRow s n.dropLast with dict := s.dict ++ [(n.dropLast, nextIndex s.index)] }
      else .ok (newRow s n)

/-- the columns with a number; other numbers raise KeyError: ditto/writers/ephasor/write.py:1173, 1235, 1238, 1270, 1273 -/
def setSlot (k : Nat) (f : LoadSlot K → LoadSlot K) (r : LoadRow K) : Except PyErr (LoadRow K) :=
  match k with
  | 1 => .ok { r with one := f r.one }
  | 2 => .ok { r with two := f r.two }
  | 3 => .ok { r with three := f r.three }
  | _ => .error .keyError

variable [Field K] [LinearOrder K]

/-- the sum of the portions of the active and reactive power. The messages divide by it: ditto/writers/ephasor/write.py:1181-1228 -/
def portion (x y : Option K) : Except PyErr K :=
  match x, y with
  | some a, some b => if a + b = 0 then .error .zeroDivisionError else .ok (a + b)
  | _, _ => .error .typeError

/-- a phase load with `use_zip`: ditto/writers/ephasor/write.py:1181-1249 -/
def zipPhase (k : Nat) (j : EphPhaseLoad K) (r : LoadRow K) : Except PyErr (LoadRow K) := do
  let ki ← portion j.pCurrent j.qCurrent
  let kp ← portion j.pPower j.qPower
  let kz ← portion j.pImpedance j.qImpedance
  match j.p, j.q with
  | some p, some q => do
    let r ← setSlot k (fun s => { s with p := some (p / 1000), q := some (q / 1000) }) { r with type := some "ZIP".toList }
    .ok { r with kp := some kp, ki := some ki, kz := some kz }
  | _, _ => .error .typeError

/-- `abs`: ditto/writers/ephasor/write.py:1271, 1275 -/
def magnitude (x : K) : K := if x < 0 then -x else x

/-- the portions of the load models 1, 2 and 5: ditto/writers/ephasor/write.py:1277-1293 -/
def modelPortions (model : Option Int) (r : LoadRow K) : LoadRow K :=
  if model = some 1 then { r with kp := some 1, ki := some 0, kz := some 0, type := some "ZIP".toList }
  else if model = some 2 then { r with kp := some 0, ki := some 0, kz := some 1, type := some "ZIP".toList }
  else if model = some 5 then { r with kp := some 0, ki := some 1, kz := some 0, type := some "ZIP".toList }
  else r

/-- the power of a phase load without `use_zip`: ditto/writers/ephasor/write.py:1254-1275 -/
def plainPower (k : Nat) (j : EphPhaseLoad K) (r : LoadRow K) : Except PyErr (LoadRow K) :=
  match j.p, j.q with
  | some p, some q => setSlot k (fun s => { s with p := some (magnitude p / 1000), q := some (magnitude q / 1000) }) { r with type := some [] }
  | _, _ => .ok { r with type := some [] }

/-- a phase load without `use_zip`: ditto/writers/ephasor/write.py:1252-1293 -/
def plainPhase (k : Nat) (j : EphPhaseLoad K) (r : LoadRow K) : Except PyErr (LoadRow K) := (plainPower k j r).map (modelPortions j.model)

/-- the bus of a phase load: ditto/writers/ephasor/write.py:1169-1175 -/
def busPhase (element : Option Text) (k : Nat) (phase : Text) (r : LoadRow K) : Except PyErr (LoadRow K) :=
  match element with
  | some e => setSlot k (fun s => { s with bus := some (busName e phase) }) r
  | none => .ok r

/-- a phase load: ditto/writers/ephasor/write.py:1167-1293 -/
def loadPhase (element : Option Text) (k : Nat) (j : EphPhaseLoad K) (phase : Text) (r : LoadRow K) : Except PyErr (LoadRow K) :=
  match busPhase element k phase r with
  | .error e => .error e
  | .ok r =>
    match j.useZip with
    | none => .ok r
    | some z => if z = 1 then zipPhase k j r else plainPhase k j r

/-- the phase loads; `phase_cnt` counts those with a phase: ditto/writers/ephasor/write.py:1163-1294 -/
def loadPhases (element : Option Text) : Nat → List (EphPhaseLoad K) → LoadRow K → Except PyErr (LoadRow K)
  | _, [], r => .ok r
  | k, j :: js, r =>
    match j.phase with
    | none => loadPhases element k js r
    | some ph =>
      match loadPhase element k j ph r with
      | .error e => .error e
      | .ok r => loadPhases element (k + 1) js r

/-- the voltage of a load: ditto/writers/ephasor/write.py:1157-1161 -/
def volted (l : EphLoad K) (r : LoadRow K) : LoadRow K :=
  match l.voltage with
  | some v => { r with voltage := some (v / 1000) }
  | none => r

/-- the cells after the phases: ditto/writers/ephasor/write.py:1296-1310 -/
def finishLoad (l : EphLoad K) (r : LoadRow K) : LoadRow K :=
  if l.conn = some ['Y'] then { r with bandwidth := some (2 / 100), status := some 1, initial := some 0, conn := some "wye".toList }
  else if l.conn = some ['D'] then { r with bandwidth := some (2 / 100), status := some 1, initial := some 0, conn := some "delta".toList }
  else { r with bandwidth := some (2 / 100), status := some 1, initial := some 0 }

/-- the cells of a load: ditto/writers/ephasor/write.py:1157-1310 -/
def fillLoad (l : EphLoad K) (r : LoadRow K) : Except PyErr (LoadRow K) := (loadPhases l.element 1 l.phaseLoads (volted l r)).map (finishLoad l)

/-- an iteration: ditto/writers/ephasor/write.py:1124-1310. A load without a name before all rows raises IndexError; an error of its phases that comes
first is not told apart. -/
def loadStep (s : LoadState K) (l : EphLoad K) : Except PyErr (LoadState K) :=
  match placeLoad s l.name with
  | .error e => .error e
  | .ok s =>
    match s.index with
    | none => .error .indexError
    | some i =>
      match s.rows[i]? with
      | none => .error .indexError
      | some r =>
        match fillLoad l r with
        | .error e => .error e
        | .ok r => .ok { s with rows := s.rows.set i r }

/-- `load`: ditto/writers/ephasor/write.py:1081-1337 -/
def loadSheet (loads : List (EphLoad K)) : Except PyErr (List (LoadRow K)) := (loads.foldlM loadStep {}).map (·.rows)

end numbers
end Ditto.Eph
