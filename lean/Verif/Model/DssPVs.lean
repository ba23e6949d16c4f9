import Verif.Model.DssStorage

/-! PV systems in OpenDSS files: `write_PVs` of ditto/writers/opendss/write.py. There is no reader for them. -/
namespace Ditto.Dss
open Ditto

/-- the attributes of a PV system that are numbers and are written as they are: cutout, cutin, resistance, reactance, maximal and minimal
voltage -/
structure PVLimits (K : Type) where
  cutout : Option K := none
  cutin : Option K := none
  resistance : Option K := none
  reactance : Option K := none
  vmax : Option K := none
  vmin : Option K := none
deriving DecidableEq, Repr

/-- ditto/models/photovoltaic.py -/
structure DPV (K : Type) where
  name : Option String := none
  bus : Option String := none
  phases : Option (List String) := some []
  volt : Option K := none
  activeRating : Option K := none
  pf : Option K := none
  ratedPower : Option K := none
  reactiveRating : Option K := none
  conn : Option String := none
  limits : PVLimits K := {}
  control : Option String := none
deriving DecidableEq, Repr

/-- the model that is written at the end of the line -/
inductive PVModel (K : Type)
  | powerFactor (pf : K)
  | kvarZero
  | plain
deriving DecidableEq, Repr

/-- what is written for a PV system; `none`: nothing -/
structure PVText (K : Type) where
  name : Option String := none
  bus : Option (String × List (Option Nat)) := none
  phases : Option Nat := none
  kV : Option K := none
  kVA : Option K := none
  pmpp : Option K := none
  kvarmax : Option K := none
  conn : Option String := none
  limits : PVLimits K := {}
  model : Option (PVModel K) := none
deriving DecidableEq, Repr

section
variable {K : Type} [Field K] [LinearOrder K]

/-- the voltage: ditto/writers/opendss/write.py:1301, 1331-1335. `nodeVolt` is the voltage of `model[connecting_element]`. -/
def pvVolt (nodeVolt : Option String → Py (Option K)) (p : DPV K) : Py (Option K) :=
  match p.volt with
  | some v => .ok (some v)
  | none => nodeVolt p.bus

/-- the number of phases: ditto/writers/opendss/write.py:1302-1313, 1336-1347 -/
def pvPhases (p : DPV K) (v : Option K) : Option Nat :=
  match p.phases, v with
  | some _, some v => some (if v < 300 then 1 else 3)
  | _, _ => none

/-- ditto/writers/opendss/write.py:1288-1298 -/
def pvBus (p : DPV K) : Option (String × List (Option Nat)) :=
  p.bus.map fun b => (cleanName b, (p.phases.getD []).map toDssPhase)

/-- ditto/writers/opendss/write.py:1370-1376; division by zero raises `ZeroDivisionError` -/
def pvKVA (p : DPV K) : Py (Option K) :=
  match p.activeRating with
  | none => .ok none
  | some a => if p.pf = some 0 then .error .zeroDivisionError else .ok (some (a / |p.pf.getD 1| / 1000))

/-- ditto/writers/opendss/write.py:1378-1392 -/
def pvPmpp (p : DPV K) : Option K :=
  match p.ratedPower with
  | some r => some (r / 1000)
  | none => p.activeRating.map fun a => a * |p.pf.getD 1| * (11 / 10) / 1000

/-- ditto/writers/opendss/write.py:1401-1411 -/
def pvConn (c : Option String) : Py (Option String) :=
  match c with
  | none => .ok none
  | some c => if c = "D" then .ok (some "delta") else if c = "Y" then .ok (some "wye") else .error .notImplementedError

/-- ditto/writers/opendss/write.py:1437-1468 -/
def pvModel (p : DPV K) : Option (PVModel K) :=
  if p.control = none ∨ p.control = some "powerfactor" then p.pf.map .powerFactor
  else if p.control = some "voltwatt" ∨ p.control = some "voltvar" then some .kvarZero
  else if p.control = some "voltwatt_voltvar" then some .plain
  else none

/-- the line of a PV system without timeseries: ditto/writers/opendss/write.py:1284-1468 -/
def pvText (nodeVolt : Option String → Py (Option K)) (p : DPV K) : Py (PVText K) :=
  match pvVolt nodeVolt p with
  | .error e => .error e
  | .ok v =>
    match pvKVA p with
    | .error e => .error e
    | .ok kva =>
      match pvConn p.conn with
      | .error e => .error e
      | .ok c => .ok
        { name := p.name
          bus := pvBus p
          phases := pvPhases p v
          kV := v.map (· / 1000)
          kVA := kva
          pmpp := pvPmpp p
          kvarmax := p.reactiveRating.map (· / 1000)
          conn := c
          limits := p.limits
          model := pvModel p }

/-- what is added to the voltage bases of the network and to those of the feeder: ditto/writers/opendss/write.py:1318-1329, 1355-1368 -/
def pvBases (v : K) : K × K := if v < 300 then (v / 1000, v * 2 / 1000) else (v / 1000, v / 1000)

end

/-! ### Inverter controls -/

/-- the three sets of names of a feeder: `voltvar_nodes`, `voltwatt_nodes`, `voltwatt_voltvar_nodes`. Sets are lists without duplicates. -/
structure PVSets where
  voltvar : List (Option String) := []
  voltwatt : List (Option String) := []
  both : List (Option String) := []
deriving DecidableEq, Repr

/-- `set.add` -/
def addName (n : Option String) (l : List (Option String)) : List (Option String) := if n ∈ l then l else l ++ [n]

/-- one PV system of a feeder: ditto/writers/opendss/write.py:1268-1282, 1446-1468, 1500-1506. The first two sets are fetched from the maps, the
third one is new for each PV system. -/
def addPV {K : Type} (s : PVSets) (p : DPV K) : PVSets :=
  { voltvar := if p.control = some "voltvar" then addName p.name s.voltvar else s.voltvar
    voltwatt := if p.control = some "voltwatt" then addName p.name s.voltwatt else s.voltwatt
    both := if p.control = some "voltwatt_voltvar" then [p.name] else [] }

/-- a piece of the text of the controls: definitions of the curves, a control of a mode for a PV system, and a single "]" without end of line -/
inductive InvPiece
  | voltvarCurve
  | voltwattCurve
  | voltvar (pv : Option String)
  | voltwatt (pv : Option String)
  | both (pv : Option String)
  | bracket
deriving DecidableEq, Repr

/-- ditto/writers/opendss/write.py:1521-1529 -/
def voltvarPart (s : PVSets) : List InvPiece :=
  if s.voltvar ≠ [] ∧ s.voltwatt = [] then .voltvarCurve :: s.voltvar.map .voltvar else []

/-- ditto/writers/opendss/write.py:1531-1540 -/
def voltwattPart (s : PVSets) : List InvPiece :=
  if s.voltwatt ≠ [] then .voltwattCurve :: s.voltwatt.map .voltwatt ++ [.bracket] else []

/-- ditto/writers/opendss/write.py:1543-1549 -/
def bothPart (s : PVSets) : List InvPiece :=
  if s.both ≠ [] then
    (if s.voltvar = [] then [.voltvarCurve] else []) ++ (if s.voltwatt = [] then [.voltwattCurve] else []) ++ s.both.map .both
  else []

/-- the controls of the PV systems of one feeder, in the order of the model. Simplification: the order within a set is the one of first
insertion. -/
def pvControls {K : Type} (ps : List (DPV K)) : List InvPiece :=
  voltvarPart (ps.foldl addPV {}) ++ voltwattPart (ps.foldl addPV {}) ++ bothPart (ps.foldl addPV {})

end Ditto.Dss
