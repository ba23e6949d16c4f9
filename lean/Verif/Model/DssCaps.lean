import Verif.Model.DssLoads

/-! Capacitors in OpenDSS files: `write_capacitors` of ditto/writers/opendss/write.py and `parse_capacitors` of ditto/readers/opendss/read.py. -/
namespace Ditto.Dss
open Ditto

/-- the attributes of a `PhaseCapacitor`: ditto/models/phase_capacitor.py -/
structure PCap (K : Type) where
  phase : Option String := none
  var : Option K := none
deriving DecidableEq, Repr

/-- the attributes of a `Capacitor` that are written or read: ditto/models/capacitor.py -/
structure DCap (K : Type) where
  name : Option String := none
  bus : Option String := none
  volt : Option K := none
  conn : Option String := none
  caps : Option (List (PCap K)) := none
  delay : Option K := none
  mode : Option String := none
  low : Option K := none
  high : Option K := none
  ptRatio : Option K := none
  ctRatio : Option K := none
  ptPhase : Option String := none
  measuring : Option String := none
deriving DecidableEq, Repr

/-- the text of a `CapControl`. For `type` and `ptPhase` the inner `none` is the text "None". -/
structure CtlText (K : Type) where
  element : Option String := none
  delay : Option K := none
  type : Option (Option String) := none
  vmin : Option K := none
  vmax : Option K := none
  pt : Option K := none
  ct : Option K := none
  ptPhase : Option (Option Nat) := none
deriving DecidableEq, Repr

/-- the text of a capacitor and its control, as the values after each keyword -/
structure CapText (K : Type) where
  name : String
  bus : Option (String × List Nat) := none
  phases : Option Nat := none
  kV : Option K := none
  conn : Option String := none
  kvar : Option K := none
  control : Option (CtlText K) := none
deriving DecidableEq, Repr

/-- `mode_mapping`: ditto/writers/opendss/write.py:284-299 -/
def modeText (mode : String) : Option String :=
  let m := pyLower mode
  if m = "currentflow" then some "current" else if m = "voltage" then some "voltage" else if m = "activepower" then some "PF"
  else if m = "reactivepower" then some "kvar" else if m = "admittance" then none else if m = "timescheduled" then some "time" else none

/-- the number of a phase in the suffix: ditto/writers/opendss/write.py:2594-2599 -/
def capPhase (p : String) : Option Nat :=
  if p = "A" then some 1 else if p = "B" then some 2 else if p = "C" then some 3 else none

/-- ditto/writers/opendss/write.py:2583-2599 -/
def capSuffix {K : Type} (ps : List (PCap K)) : List Nat := if ps.length ≠ 3 then (ps.filterMap (·.phase)).filterMap capPhase else []

/-- ditto/writers/opendss/write.py:2603-2607 -/
def capPhases {K : Type} (ps : List (PCap K)) : Nat := if ps.length = 2 ∨ ps.length = 1 then 1 else 3

/-- ditto/writers/opendss/write.py:2630-2640 -/
def capConn (c : Option String) : Option String :=
  if c = some "Y" then some "Wye" else if c = some "D" then some "delta" else none

/-- ditto/writers/opendss/write.py:2664-2676 -/
def hasControl {K : Type} (c : DCap K) : Bool :=
  c.delay.isSome || c.mode.isSome || c.low.isSome || c.high.isSome || c.ptRatio.isSome || c.ctRatio.isSome || c.ptPhase.isSome

/-- ditto/writers/opendss/write.py:2678-2718 -/
def controlText {K : Type} (c : DCap K) : CtlText K where
  element := c.measuring.map ("Line." ++ ·)
  delay := c.delay
  type := c.mode.map modeText
  vmin := c.low
  vmax := c.high
  pt := c.ptRatio
  ct := c.ctRatio
  ptPhase := c.ptPhase.map toDssPhase

/-- The text of a capacitor: ditto/writers/opendss/write.py:2572-2721 -/
def writeCap {K : Type} [Field K] (c : DCap K) : Option (CapText K) :=
  c.name.map fun n =>
    { name := n
      bus := c.bus.map fun b => (cleanName b, match c.caps with | some ps => capSuffix ps | none => [])
      phases := c.caps.map capPhases
      kV := c.volt.map (· / 1000)
      conn := capConn c.conn
      kvar := c.caps.map fun ps => sumKnown (ps.map (·.var)) / 1000
      control := if hasControl c then some (controlText c) else none }

/-! ### Reader -/

/-- the value of `kvar`: a list of steps, or a number -/
inductive Kvar (K : Type)
  | steps (xs : List K)
  | one (x : K)
deriving DecidableEq, Repr

/-- what OpenDSS reports of a capacitor -/
structure CapData (K : Type) where
  name : String
  enabled : Bool := true
  bus : Option (String × Option (List Nat)) := none
  conn : Option String := none
  kV : Option K := none
  phases : Option Nat := none
  kvar : Kvar K
deriving DecidableEq, Repr

/-- what OpenDSS reports of a control -/
structure CtlData (K : Type) where
  capacitor : String
  element : Option String := none
  delay : Option K := none
  type : Option String := none
  vmin : Option K := none
  vmax : Option K := none
  pt : Option K := none
  ct : Option K := none
  ptPhase : Option Nat := none
deriving DecidableEq, Repr

/-- ditto/readers/opendss/read.py:2229-2242; other types leave the mode as it is -/
def modeOf (t : Option String) : Option String :=
  if t = some "Voltage" then some "voltage" else if t = some "Current" then some "currentFlow" else if t = some "kvar" then some "reactivePower"
  else if t = some "PF" then none else if t = some "time" then some "timeScheduled" else none

/-- the control of a capacitor: ditto/readers/opendss/read.py:2210-2215 -/
def findControl {K : Type} (name : String) (cs : List (CtlData K)) : Option (CtlData K) := cs.find? fun c => decide (pyLower c.capacitor = name)

/-- the numbers of the phases: ditto/readers/opendss/read.py:2293-2316 -/
def capDataPhases {K : Type} (d : CapData K) : Option (List Nat) :=
  match d.bus with
  | some (_, some ns) => some ns
  | some (_, none) => some [1, 2, 3]
  | none => if d.phases = some 3 then some [1, 2, 3] else none

/-- ditto/readers/opendss/read.py:2308-2319 -/
def capDataCount {K : Type} (d : CapData K) (ptPhase : Option String) : Option Nat :=
  match d.phases with
  | some n => some n
  | none => if ptPhase.isSome then some 1 else none

/-- division by the number of phases: errors are caught and the value is left `None` -/
def shareOf {K : Type} [Field K] (x : K) (n : Nat) : Option K := if n = 0 then none else some (x / (n : K) * 1000)

/-- the value of the phase number `p`: ditto/readers/opendss/read.py:2337-2359 -/
def varOf {K : Type} [Field K] (kvar : Kvar K) (n len p : Nat) : Option K :=
  match kvar with
  | .steps xs => if xs.length = len then (xs[p]?).map (· * 1000) else xs.head?.bind (shareOf · n)
  | .one x => shareOf x n

/-- the phase capacitors: ditto/readers/opendss/read.py:2323-2361. Both branches for the phase assign the same value. -/
def phaseCaps {K : Type} [Field K] (d : CapData K) (ptPhase : Option String) : Option (List (PCap K)) :=
  match capDataPhases d, capDataCount d ptPhase with
  | some ns, some n => some (ns.mapIdx fun p k => ⟨ofDssPhase k, varOf d.kvar n ns.length p⟩)
  | _, _ => none

/-- One capacitor of `parse_capacitors`: ditto/readers/opendss/read.py:2172-2363. `none`: it is disabled. The resistance and reactance are not
modelled. -/
def readCap {K : Type} [Field K] (cs : List (CtlData K)) (d : CapData K) : Option (DCap K) :=
  if d.enabled = false then none
  else
    let ctl := findControl (pyLower d.name) cs
    let pt := (ctl.bind (·.ptPhase)).bind ofDssPhase
    some
      { name := some (pyLower d.name)
        bus := d.bus.map (·.1)
        volt := d.kV.map (· * 1000)
        conn := connOf d.conn
        caps := phaseCaps d pt
        delay := ctl.bind (·.delay)
        mode := modeOf (ctl.bind (·.type))
        low := ctl.bind (·.vmin)
        high := ctl.bind (·.vmax)
        ptRatio := ctl.bind (·.pt)
        ctRatio := ctl.bind (·.ct)
        ptPhase := pt
        measuring := ctl.bind (·.element) }

end Ditto.Dss
