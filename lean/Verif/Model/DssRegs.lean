import Verif.Model.DssTrafos
import Mathlib.Data.List.Dedup

/-! Regulators in OpenDSS files: `write_regulators` of ditto/writers/opendss/write.py and `parse_regulators` of
ditto/readers/opendss/read.py. Not modelled: the voltage bases of the master file. -/
namespace Ditto.Dss
open Ditto

/-- the attributes of a `PhaseWinding` -/
structure RegPhase where
  phase : Option String := none
  tap : Option ℚ := none
  compR : Option ℚ := none
  compX : Option ℚ := none
deriving DecidableEq, Repr

/-- the attributes of a `Winding` that are written or read -/
structure RWinding where
  conn : Option String := none
  voltageType : Option Nat := none
  nominal : Option ℚ := none
  rated : Option ℚ := none
  emergency : Option ℚ := none
  resistance : Option ℚ := none
  pws : List RegPhase := []
deriving DecidableEq, Repr

/-- the attributes of a `Regulator` that are written or read -/
structure DReg where
  name : Option String := none
  winding : Option Int := none
  ctPrim : Option ℚ := none
  noload : Option ℚ := none
  delay : Option ℚ := none
  highstep : Option Int := none
  lowstep : Option Int := none
  ptRatio : Option ℚ := none
  bandwidth : Option ℚ := none
  bandcenter : Option ℚ := none
  voltageLimit : Option ℚ := none
  setpoint : Option ℚ := none
  ptPhase : Option String := none
  phaseShift : Option ℚ := none
  connected : Option String := none
  fromEl : Option String := none
  toEl : Option String := none
  reactances : Option (List ℚ) := none
  windings : List RWinding := []
deriving DecidableEq, Repr

/-- the text of a transformer that is made for a regulator; without powers the text is `kvas)` -/
structure NewTrafo where
  name : String
  phases : Nat
  windings : Nat
  buses : Option (String × String × List (Option Nat)) := none
  conns : List String := []
  kVs : List ℚ := []
  kVAs : List ℚ := []
  emerg : Option ℚ := none
  xhl : Option ℚ := none
  xlt : Option ℚ := none
  xht : Option ℚ := none
deriving DecidableEq, Repr

/-- the text of a regulator, as the values after each keyword; `vreg` may be given twice -/
structure RegText where
  name : String
  transformer : String
  winding : Int
  ct : Option ℚ := none
  delay : Option ℚ := none
  ptratio : Option ℚ := none
  band : Option ℚ := none
  vregs : List ℚ := []
  ptPhase : Option (Option Nat) := none
  vlimit : Option ℚ := none
  x : Option ℚ := none
  r : Option ℚ := none
deriving DecidableEq, Repr

/-- a transformer that has been written, with the compensators of its phase windings: ditto/writers/opendss/write.py:524-565 -/
structure CompSource where
  name : String
  rs : List ℚ := []
  xs : List ℚ := []
deriving DecidableEq, Repr

/-- `self.compensator[name]["R"]`, as a list: ditto/writers/opendss/write.py:531-547 -/
def compRs (ts : List CompSource) (name : String) : List ℚ := ((ts.filter fun t => t.name = name).flatMap (·.rs)).dedup

/-- `self.compensator[name]["X"]`, as a list: ditto/writers/opendss/write.py:549-565 -/
def compXs (ts : List CompSource) (name : String) : List ℚ := ((ts.filter fun t => t.name = name).flatMap (·.xs)).dedup

/-- ditto/writers/opendss/write.py:2234-2238 -/
def regConn (c : Option String) : Option String :=
  if c = some "Y" then some "Wye" else if c = some "D" then some "Delta" else if c = some "Z" then some "Zigzag" else none

/-- the ends and phases of the new transformer: ditto/writers/opendss/write.py:2219-2228 -/
def newBuses (r : DReg) (ps : List (Option Nat)) : Option (String × String × List (Option Nat)) :=
  match r.fromEl, r.toEl with
  | some a, some b => some (cleanName a, cleanName b, ps)
  | _, _ => none

/-- The transformer that is made for a regulator without one: ditto/writers/opendss/write.py:2181-2353. The emergency rating is not
converted to kVA. -/
def newTrafo (name : String) (r : DReg) : Py NewTrafo :=
  match r.windings with
  | [] => .error .indexError
  | w :: ws =>
    match w.pws with
    | [] => .error .typeError
    | p :: ps =>
      if ∃ x ∈ w :: ws, x.nominal = none then .error .typeError
      else .ok
        { name := "trans_" ++ name
          phases := (p :: ps).length
          windings := (w :: ws).length
          buses := newBuses r ((p :: ps).map fun q => q.phase.bind toDssPhase)
          conns := (w :: ws).filterMap fun x => regConn x.conn
          kVs := (w :: ws).filterMap fun x => x.nominal.map (· / 1000)
          kVAs := (w :: ws).filterMap fun x => x.rated.map (· / 1000)
          emerg := w.emergency
          xhl := r.reactances.bind (·[0]?)
          xlt := r.reactances.bind (·[1]?)
          xht := r.reactances.bind (·[2]?) }

/-- The transformer of a regulator and its name: ditto/writers/opendss/write.py:2169-2355 -/
def regTrafo (name : String) (r : DReg) : Py (String × Option NewTrafo) :=
  match r.connected with
  | some c => .ok (c, none)
  | none =>
    match newTrafo name r with
    | .error e => .error e
    | .ok t => .ok (t.name, some t)

/-- ditto/writers/opendss/write.py:2357-2361 -/
def regWinding (r : DReg) : Int :=
  match r.winding with
  | some w => w
  | none => 2

/-- One regulator of `write_regulators`: ditto/writers/opendss/write.py:2164-2450. `pick` is the first item of a set in the order of
python. The text for the losses has a wrong key, which raises. A regulator without name is left out. -/
def writeReg (pick : List ℚ → Option ℚ) (ts : List CompSource) (r : DReg) : Py (Option (RegText × Option NewTrafo)) :=
  match r.name with
  | none => .ok none
  | some name =>
    match regTrafo name r with
    | .error e => .error e
    | .ok (tr, new) =>
      if r.noload.isSome then .error .keyError
      else .ok (some (
        { name := name
          transformer := tr
          winding := regWinding r
          ct := r.ctPrim
          delay := r.delay
          ptratio := r.ptRatio
          band := r.bandwidth.map fun b => b * (12 / 10)
          vregs := r.bandcenter.toList ++ (r.setpoint.map fun s => s / 100 * 120).toList
          ptPhase := r.ptPhase.map toDssPhase
          vlimit := r.voltageLimit
          x := pick (compXs ts name)
          r := pick (compRs ts name) }, new))

/-- The regulators of a feeder: ditto/writers/opendss/write.py:2132-2464. If none of them has a name, their text is looked up but was
never made. -/
def writeRegs (pick : List ℚ → Option ℚ) (ts : List CompSource) (rs : List DReg) : Py (List (RegText × Option NewTrafo)) :=
  match rs.mapM (writeReg pick ts) with
  | .error e => .error e
  | .ok l => if rs ≠ [] ∧ ∀ r ∈ rs, r.name = none then .error .keyError else .ok (l.filterMap id)

/-! ### Reader -/

/-- What OpenDSS reports of a regulator; values that are not there or cannot be read are `none`. `vregInt` is `vreg` if it is given without
decimals. -/
structure RegData where
  name : String
  enabled : Bool := true
  transformer : Option String := none
  winding : Option Int := none
  ct : Option ℚ := none
  noload : Option ℚ := none
  delay : Option ℚ := none
  maxtap : Option Int := none
  vreg : Option ℚ := none
  vregInt : Option Int := none
  ptratio : Option ℚ := none
  band : Option ℚ := none
  vlimit : Option ℚ := none
  ptPhase : Option Int := none
  r : Option ℚ := none
  x : Option ℚ := none
deriving DecidableEq, Repr

/-- `"regulator_" + name.split(".")[1].lower()`: ditto/readers/opendss/read.py:1859. Only what is before another dot is kept. -/
def regName (n : String) : String := "regulator_" ++ pyLower (String.ofList (n.toList.takeWhile (· ≠ '.')))

/-- the transformer of a regulator among those reported: ditto/readers/opendss/read.py:1879-1886 -/
def findTrafo (ts : List TrafoData) (d : RegData) : Option TrafoData :=
  match d.transformer with
  | none => none
  | some n => ts.find? fun t => t.name = pyLower n

/-- a connection; others than wye and delta stay as they are: ditto/readers/opendss/read.py:1923-1937 -/
def readRConn (c : Option String) : Option String :=
  match c with
  | none => none
  | some c => if pyLower c = "wye" then some "Y" else if pyLower c = "delta" then some "D" else some c

/-- The winding number `w`: ditto/readers/opendss/read.py:1921-2032. Simplification: if there are fewer buses than windings this is an
error. -/
def readRWinding (t : TrafoData) (d : RegData) (w : Nat) : Py RWinding :=
  match t.buses[w]?, t.taps[w]? with
  | none, _ => .error .unboundLocalError
  | _, none => .error .indexError
  | some b, some tap => .ok
    { conn := readRConn t.conns[w]?
      nominal := t.kVs[w]?.map fun x => x * 1000
      rated := t.kVAs[w]?.map fun x => x * 1000
      emergency := t.emerg.map fun x => x * 1000
      resistance := t.rs[w]?
      pws := (trafoBusPhases b.2).map fun p => { phase := ofDssPhase p, tap := some tap, compR := d.r, compX := d.x } }

/-- the loops over the windings: ditto/readers/opendss/read.py:1921-2032 -/
def readRWindings (t : TrafoData) (d : RegData) : List Nat → Py (List RWinding)
  | [] => .ok []
  | w :: ws =>
    match readRWinding t d w with
    | .error e => .error e
    | .ok x =>
      match readRWindings t d ws with
      | .error e => .error e
      | .ok xs => .ok (x :: xs)

/-- The local variables `N_windings` and `phases`, which keep their values from the regulator before: ditto/readers/opendss/read.py:1889,
1982-1993. `phases` may still be missing. -/
structure RegVars where
  count : Nat
  phases : Option (List Nat)
deriving DecidableEq, Repr

/-- `phases` after the loop over the windings: ditto/readers/opendss/read.py:1982-1993 -/
def lastPhases (st : Option RegVars) (t : TrafoData) (n : Nat) : Option (List Nat) :=
  if n = 0 then st.bind (·.phases) else t.buses[n - 1]?.map fun b => trafoBusPhases b.2

/-- The transformer part: ditto/readers/opendss/read.py:1879-2061. If the transformer is not found, the number of windings is that of the
regulator before; the voltages are then looked up in the transformer object that the last search has left, or there are no windings. -/
def readRegTrafo (parsed : List DTrafo) (ts : List TrafoData) (st : Option RegVars) (d : RegData) :
    Py (RegVars × Option ℚ × List RWinding) :=
  match findTrafo ts d with
  | some t =>
    match t.windings with
    | none => .error .keyError
    | some n =>
      match readShift n t.conns with
      | .error e => .error e
      | .ok shift =>
        match readRWindings t d (List.range n), voltageTypes n t.kVs with
        | .error e, _ => .error e
        | _, .error e => .error e
        | .ok ws, .ok vts => .ok (⟨n, lastPhases st t n⟩, shift,
            List.zipWith (fun w v => { w with voltageType := v }) ws vts)
  | none =>
    match st with
    | none => .error .unboundLocalError
    | some v =>
      if v.count = 2 ∨ v.count = 3 then .error (if parsed = [] then .indexError else .typeError)
      else .ok (v, none, [])

/-- the transformer with the name: ditto/readers/opendss/read.py:2132-2144 -/
def parsedTrafo (parsed : List DTrafo) (n : Option String) : Option DTrafo :=
  match n with
  | none => none
  | some n => parsed.find? fun t => t.name = some n

/-- `phases[int(data["PTphase"]) - 1]`: ditto/readers/opendss/read.py:2147-2152. Index -1 is the last one; all errors are caught. -/
def readPtPhase (phases : Option (List Nat)) (k : Option Int) : Option String :=
  match phases, k with
  | some ps, some k =>
    if 1 ≤ k then ps[(k - 1).toNat]?.bind ofDssPhase
    else if 0 ≤ k - 1 + ps.length then ps[(k - 1 + ps.length).toNat]?.bind ofDssPhase
    else none
  | _, _ => none

/-- One regulator of `parse_regulators`: ditto/readers/opendss/read.py:1847-2154. `parsed` are the transformers that have been read and
`ts` those that OpenDSS reports. -/
def readReg (parsed : List DTrafo) (ts : List TrafoData) (st : Option RegVars) (d : RegData) : Py (Option (RegVars × DReg)) :=
  if d.enabled then
    match readRegTrafo parsed ts st d with
    | .error e => .error e
    | .ok (v, shift, ws) => .ok (some (v,
        { name := some (regName d.name)
          winding := d.winding
          ctPrim := d.ct
          noload := d.noload
          delay := d.delay
          highstep := d.maxtap
          lowstep := d.maxtap
          ptRatio := d.ptratio
          bandwidth := d.band
          bandcenter := d.vreg
          voltageLimit := d.vlimit
          setpoint := d.vregInt.map fun k => (k : ℚ)
          ptPhase := readPtPhase v.phases d.ptPhase
          phaseShift := shift
          connected := d.transformer.map pyLower
          fromEl := (parsedTrafo parsed (d.transformer.map pyLower)).bind (·.fromEl)
          toEl := (parsedTrafo parsed (d.transformer.map pyLower)).bind (·.toEl)
          reactances := (parsedTrafo parsed (d.transformer.map pyLower)).bind (·.reactances)
          windings := ws }))
  else .ok none

end Ditto.Dss
