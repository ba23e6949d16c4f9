import Verif.Model.DssFiles
import Mathlib.Algebra.Order.Field.Basic

/-! Loads in OpenDSS files: `write_loads` of ditto/writers/opendss/write.py and `parse_loads` of ditto/readers/opendss/read.py. Numbers are in
any ordered field, floats in the code; square roots are a parameter. -/
namespace Ditto.Dss
open Ditto

/-- the attributes of a `PhaseLoad`: ditto/models/phase_load.py:21-73. `zip`: the coefficients ppercentimpedance, ppercentcurrent,
ppercentpower, qpercentimpedance, qpercentcurrent, qpercentpower -/
structure PLoad (K : Type) where
  phase : Option String := none
  p : Option K := none
  q : Option K := none
  model : Nat := 1
  useZip : Bool := false
  zip : List (Option K) := []
deriving DecidableEq, Repr

/-- the attributes of a `Load` that are written (time series are not modelled) -/
structure DLoad (K : Type) where
  name : Option String := none
  conn : Option String := none
  bus : Option String := none
  volt : Option K := none
  vmin : Option K := none
  vmax : Option K := none
  phaseLoads : Option (List (PLoad K)) := none
deriving DecidableEq, Repr

/-- the text of a load, as the values after each keyword. The bus has the numbers appended to it; `none` is the text ".None". -/
structure LoadText (K : Type) where
  name : String
  conn : Option String := none
  bus : Option (String × List (Option Nat)) := none
  kV : Option K := none
  vmin : Option K := none
  vmax : Option K := none
  model : Option Nat := none
  kW : Option K := none
  kvar : Option K := none
  phases : Option Nat := none
deriving DecidableEq, Repr

/-- `phase_mapping` of the writer: ditto/writers/opendss/write.py:247-280 -/
def toDssPhase (p : String) : Option Nat :=
  if p = "A" then some 1 else if p = "B" then some 2 else if p = "C" then some 3 else if p = "N" then some 0 else none

/-- `phase_mapping` of the reader for numbers: ditto/readers/opendss/read.py:155-184 -/
def ofDssPhase (n : Nat) : Option String :=
  if n = 1 then some "A" else if n = 2 then some "B" else if n = 3 then some "C" else none

/-- ditto/writers/opendss/write.py:1880-1885 -/
def connText (c : Option String) : Option String :=
  if c = some "Y" then some "wye" else if c = some "D" then some "delta" else none

/-- the second connection of a single phase delta load: ditto/writers/opendss/write.py:1903-1910 -/
def otherPhase (p : Option String) : List (Option Nat) :=
  match p.bind toDssPhase with
  | some 1 => [some 2]
  | some 2 => [some 3]
  | some 3 => [some 1]
  | _ => []

/-- ditto/writers/opendss/write.py:1893-1910 -/
def loadSuffix {K : Type} (conn : Option String) (ps : List (PLoad K)) : List (Option Nat) :=
  (ps.filterMap (·.phase)).map toDssPhase ++
    (match ps with
    | [p] => if conn = some "D" then otherPhase p.phase else []
    | _ => [])

/-- one step of the sums: ditto/writers/opendss/write.py:1951-1952, 1959-1960 -/
def addKnown {K : Type} [Field K] (s : K) : Option K → K
  | some v => s + v
  | none => s

/-- the sums: ditto/writers/opendss/write.py:1946-1961 -/
def sumKnown {K : Type} [Field K] (xs : List (Option K)) : K := xs.foldl addKnown 0

/-- the keywords `model`, `kW` and `kvar` are written if there are phase loads: ditto/writers/opendss/write.py:1945-1961 -/
def powerText {K : Type} [Field K] : List (PLoad K) → Option Nat × Option K × Option K
  | [] => (none, none, none)
  | p :: ps => (some p.model, some (sumKnown ((p :: ps).map (·.p)) / 1000), some (sumKnown ((p :: ps).map (·.q)) / 1000))

/-- ditto/writers/opendss/write.py:1963-1970 -/
def phasesText {K : Type} [Field K] [LinearOrder K] (volt : Option K) (n : Nat) : Nat :=
  match volt with
  | some v => if v < 300 then 1 else n
  | none => n

/-- The text of a load: ditto/writers/opendss/write.py:1873-2059. The coefficients of the ZIP model are looked up on the load, which does not
have them, so they are never written. -/
def writeLoad {K : Type} [Field K] [LinearOrder K] (l : DLoad K) : Option (LoadText K) :=
  l.name.map fun n =>
    let w := match l.phaseLoads with | some ps => powerText ps | none => (none, none, none)
    { name := n
      conn := connText l.conn
      bus := l.bus.map fun b => (cleanName b, match l.phaseLoads with | some ps => loadSuffix l.conn ps | none => [])
      kV := l.volt.map (· / 1000)
      vmin := l.vmin
      vmax := l.vmax
      model := w.1
      kW := w.2.1
      kvar := w.2.2
      phases := l.phaseLoads.map fun ps => phasesText l.volt ps.length }

/-! ### Reader -/

/-- what OpenDSS reports of a load. A bus without "." has no numbers (`none`); `none` for the bus: not given or not readable. `zipv`: the
coefficients, if they can be read. -/
structure LoadData (K : Type) where
  name : String
  enabled : Bool := true
  bus : Option (String × Option (List Nat)) := none
  conn : Option String := none
  kV : Option K := none
  vmin : Option K := none
  vmax : Option K := none
  phases : Option Nat := none
  kW : Option K := none
  kVA : Option K := none
  pf : Option K := none
  model : Option Nat := none
  zipv : Option (List K) := none
deriving DecidableEq, Repr

/-- a result of numpy: a number, or `nan` or infinite -/
inductive Num (K : Type)
  | val (x : K)
  | nan
deriving DecidableEq, Repr

/-- a `PhaseLoad` that is read; `zip` in the order impedance, current, power of P and Q -/
structure RPhase (K : Type) where
  phase : Option String
  p : K
  q : Num K
  model : Option Nat
  useZip : Option Bool
  zip : Option (List K)
deriving DecidableEq, Repr

/-- a `Load` that is read -/
structure RLoad (K : Type) where
  name : String
  bus : Option String
  conn : Option String
  volt : Option K
  vmin : Option K
  vmax : Option K
  phaseLoads : List (RPhase K)
deriving DecidableEq, Repr

/-- ditto/readers/opendss/read.py:2419-2427 -/
def connOf (c : Option String) : Option String :=
  match c with
  | none => none
  | some c => if pyLower c = "wye" then some "Y" else if pyLower c = "delta" then some "D" else none

/-- the phases of the connection: ditto/readers/opendss/read.py:2448-2461 and, for the mapping, 2531 -/
def busPhases (bus : Option (String × Option (List Nat))) : List (Option String) :=
  match bus with
  | none => []
  | some (_, none) => [some "A", some "B", some "C"]
  | some (_, some ns) => ns.map ofDssPhase

/-- ditto/readers/opendss/read.py:2475-2493. `N_phases` is never `None`, nor are the phases. -/
def loadPhases {K : Type} (d : LoadData K) : List (Option String) :=
  if d.phases.getD 1 ≠ (busPhases d.bus).length ∧ connOf d.conn = some "D" then (busPhases d.bus).take (d.phases.getD 1) else busPhases d.bus

/-- the reactive power: ditto/readers/opendss/read.py:2536-2538. Numpy has no exceptions here. -/
def reactive {K : Type} [Field K] [LinearOrder K] (sqrt : K → K) (kW pf : K) : Num K :=
  if pf = 0 ∨ 1 < pf ^ 2 then .nan else .val (kW * 1000 * sqrt (1 - pf ^ 2) / pf)

/-- the coefficients of the ZIP model: ditto/readers/opendss/read.py:2569-2594. An index out of range is not caught. -/
def zipOf {K : Type} [Field K] (model : Option Nat) (zipv : Option (List K)) : Py (Option Bool × Option (List K)) :=
  if model = some 8 then
    match zipv with
    | none => .ok (none, none)
    | some (a :: b :: c :: d :: e :: f :: _) => .ok (some true, some [a * 100, b * 100, c * 100, d * 100, e * 100, f * 100])
    | some _ => .error .indexError
  else .ok (some false, none)

/-- the loop over the phases: ditto/readers/opendss/read.py:2526-2596. Both powers are known here, since they have been divided. Without a
power factor the name `kvar` is not defined. -/
def readPhases {K : Type} [Field K] [LinearOrder K] (sqrt : K → K) (d : LoadData K) (kW : K) : List (Option String) → Py (List (RPhase K))
  | [] => .ok []
  | ph :: phs =>
    match d.pf with
    | none => .error .nameError
    | some pf =>
      match zipOf d.model d.zipv with
      | .error e => .error e
      | .ok z =>
        match readPhases sqrt d kW phs with
        | .error e => .error e
        | .ok rest => .ok (⟨ph, kW * 1000, reactive sqrt kW pf, d.model, z.1, z.2⟩ :: rest)

/-- `kW /= float(len(phases))`: ditto/readers/opendss/read.py:2523-2524 -/
def perPhase {K : Type} [Field K] (x : Option K) (n : Nat) : Py K :=
  match x with
  | none => .error .typeError
  | some v => if n = 0 then .error .zeroDivisionError else .ok (v / (n : K))

/-- One load of `parse_loads`: ditto/readers/opendss/read.py:2381-2599. `none`: it is disabled. Simplification: the name is what comes after
"Load.". -/
def readLoad {K : Type} [Field K] [LinearOrder K] (sqrt : K → K) (d : LoadData K) : Py (Option (RLoad K)) :=
  if d.enabled = false then .ok none
  else
    match perPhase d.kW (loadPhases d).length with
    | .error e => .error e
    | .ok kW =>
      match perPhase d.kVA (loadPhases d).length with
      | .error e => .error e
      | .ok _ =>
        match readPhases sqrt d kW (loadPhases d) with
        | .error e => .error e
        | .ok ps => .ok (some ⟨"load_" ++ pyLower d.name, d.bus.map (·.1), connOf d.conn, d.kV.map (· * 1000), d.vmin, d.vmax, ps⟩)

end Ditto.Dss
