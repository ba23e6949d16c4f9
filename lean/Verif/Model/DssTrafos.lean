import Verif.Model.DssLines

/-! Transformers in OpenDSS files: `write_transformers` of ditto/writers/opendss/write.py and `parse_transformers` of
ditto/readers/opendss/read.py. Not modelled: the compensators (they belong to the regulators) and the voltage bases of the master file. -/
namespace Ditto.Dss
open Ditto

/-- the attributes of a `PhaseWinding` -/
structure PWinding where
  phase : Option String := none
  tap : Option ℚ := none
deriving DecidableEq, Repr

/-- the attributes of a `Winding` that are written or read -/
structure TWinding where
  conn : Option String := none
  voltageType : Option Nat := none
  nominal : Option ℚ := none
  rated : Option ℚ := none
  emergency : Option ℚ := none
  resistance : Option ℚ := none
  grounded : Bool := false
  pws : List PWinding := []
deriving DecidableEq, Repr

/-- the attributes of a `PowerTransformer` that are written or read -/
structure DTrafo where
  name : Option String := none
  fromEl : Option String := none
  toEl : Option String := none
  loadloss : Option ℚ := none
  noload : Option ℚ := none
  normhkva : Option ℚ := none
  phaseShift : Option ℚ := none
  reactances : Option (List ℚ) := none
  centerTap : Bool := false
  isSubstation : Bool := false
  windings : List TWinding := []
deriving DecidableEq, Repr

/-- the text of a winding, as the values after each keyword -/
structure WdgText where
  conn : Option String := none
  kV : Option ℚ := none
  kVA : Option ℚ := none
  emerg : Option ℚ := none
  r : Option ℚ := none
  bus : String × List (Option Nat)
  tap : Option ℚ := none
deriving DecidableEq, Repr

/-- the text of a transformer, as the values after each keyword; `name` is missing if there is none -/
structure TrafoText where
  name : Option String := none
  phases : Option Int := none
  windings : Option Nat := none
  loadloss : Option ℚ := none
  noload : Option ℚ := none
  normhkva : Option ℚ := none
  wdgs : List WdgText := []
  xhl : Option ℚ := none
  xlt : Option ℚ := none
  xht : Option ℚ := none
deriving DecidableEq, Repr

/-- the number of phases: ditto/writers/opendss/write.py:463-490; without windings the `IndexError` is caught -/
def trafoPhases (ws : List TWinding) : Option Int :=
  match ws with
  | [] => none
  | w :: _ => if ws.length = 3 ∧ w.conn = some "D" then some ((w.pws.length : Int) - 1) else some w.pws.length

/-- the second connection of a single phase in delta: ditto/writers/opendss/write.py:695-707 -/
def secondConn (w : TWinding) : List (Option Nat) :=
  if w.conn = some "D" then
    match w.pws with
    | [p] => otherPhase p.phase
    | _ => []
  else []

/-- the phases after the bus of a winding of two: ditto/writers/opendss/write.py:680-710. Three phases are not written. -/
def wdgSuffix (w : TWinding) : List (Option Nat) :=
  (if w.pws.length ≠ 3 then
      (w.pws.filterMap (·.phase)).map toDssPhase ++ secondConn w
    else []) ++
  (if w.grounded then [some 0] else [])

/-- the tap of the first phase winding: ditto/writers/opendss/write.py:712-728; without phase windings `IndexError` -/
def tapText (taps : Bool) (w : TWinding) : Py (Option ℚ) :=
  if taps then
    match w.pws with
    | [] => .error .indexError
    | p :: _ => .ok p.tap
  else .ok none

/-- The text of a winding of two: ditto/writers/opendss/write.py:569-729. (`writeTaps` is the option `write_taps`.) -/
def wdgText (taps : Bool) (bus : String) (w : TWinding) : Py WdgText :=
  match tapText taps w with
  | .error e => .error e
  | .ok tap => .ok
    { conn := connText w.conn
      kV := w.nominal.map fun x => x / 1000
      kVA := w.rated.map fun x => x / 1000
      emerg := w.emergency.map fun x => x / 1000
      r := w.resistance
      bus := (cleanName bus, wdgSuffix w)
      tap := tap }

/-- `default_r[cnt - 1]`: ditto/writers/opendss/write.py:756 and 916. The index is -1 for the first winding. -/
def defaultR : Nat → ℚ
  | 0 => 12 / 10
  | 1 => 6 / 10
  | _ => 12 / 10

/-- the variable `phase_winding` after the loop over all the windings: ditto/writers/opendss/write.py:530 -/
def lastPw (ws : List TWinding) : Option PWinding := (ws.flatMap (·.pws)).getLast?

/-- the phases after the bus of a winding of a center tap: ditto/writers/opendss/write.py:788-833. The second connection of a delta with
one phase is made from the last phase winding of the transformer. -/
def tapSuffix (ws : List TWinding) (cnt : Nat) (w : TWinding) : Py (List (Option Nat)) :=
  if cnt = 0 then
    match w.pws with
    | [] => .error .indexError
    | [p] => .ok ((p.phase.bind toDssPhase) :: (if w.conn = some "D" then otherPhase ((lastPw ws).bind (·.phase)) else []))
    | p :: p' :: _ => .ok ((p.phase.bind toDssPhase) :: (if w.conn = some "D" then [p'.phase.bind toDssPhase] else []))
  else if cnt = 1 then .ok [some 1, some 0]
  else .ok [some 0, some 2]

/-- The text of a winding of a center tap: ditto/writers/opendss/write.py:761-916. Its buses are the two ends, the second twice. -/
def tapWdgText (taps : Bool) (ws : List TWinding) (bus1 bus2 : String) (cnt : Nat) (w : TWinding) : Py WdgText :=
  match tapSuffix ws cnt w with
  | .error e => .error e
  | .ok suffix =>
    match tapText taps w with
    | .error e => .error e
    | .ok tap => .ok
      { conn := connText w.conn
        kV := w.nominal.map fun x => x / 1000
        kVA := w.rated.map fun x => x / 1000
        emerg := w.emergency.map fun x => x / 1000
        r := some (match w.resistance with | some r => r | none => defaultR cnt)
        bus := (cleanName (if cnt = 0 then bus1 else bus2), suffix)
        tap := tap }

/-- the text without windings and reactances: ditto/writers/opendss/write.py:456-516 -/
def trafoHead (t : DTrafo) : TrafoText where
  name := t.name
  phases := trafoPhases t.windings
  windings := if t.windings = [] then none else some t.windings.length
  loadloss := t.loadloss
  noload := t.noload
  normhkva := t.normhkva

/-- The text of a transformer: ditto/writers/opendss/write.py:456-942. If an end is missing, the message calls an undefined name. -/
def writeTrafo (taps : Bool) (t : DTrafo) : Py TrafoText :=
  match t.fromEl, t.toEl with
  | some b1, some b2 =>
    match t.windings with
    | [w1, w2] =>
      match wdgText taps b1 w1, wdgText taps b2 w2 with
      | .error e, _ => .error e
      | _, .error e => .error e
      | .ok t1, .ok t2 => .ok { trafoHead t with
          wdgs := [t1, t2]
          xhl := match t.reactances with | some [x] => some x | _ => none }
    | [w1, w2, w3] =>
      if t.centerTap then
        match tapWdgText taps t.windings b1 b2 0 w1, tapWdgText taps t.windings b1 b2 1 w2, tapWdgText taps t.windings b1 b2 2 w3 with
        | .error e, _, _ => .error e
        | _, .error e, _ => .error e
        | _, _, .error e => .error e
        | .ok t1, .ok t2, .ok t3 => .ok
          (match t.reactances with
          | none => { trafoHead t with wdgs := [t1, t2, t3], xhl := some (204 / 100), xht := some (204 / 100), xlt := some (136 / 100) }
          | some [a, b, c] => { trafoHead t with wdgs := [t1, t2, t3], xhl := some a, xlt := some b, xht := some c }
          | some _ => { trafoHead t with wdgs := [t1, t2, t3] })
      else .ok (trafoHead t)
    | _ => .ok (trafoHead t)
  | _, _ => .error .nameError

/-! ### Reader -/

/-- What OpenDSS reports of a transformer. Values that are not there or cannot be read are `none`. A bus has the numbers after its name,
`none` if there is no dot. -/
structure TrafoData where
  name : String
  enabled : Bool := true
  sub : Bool := false
  loadloss : Option ℚ := none
  noload : Option ℚ := none
  normhkva : Option ℚ := none
  buses : List (String × Option (List Nat)) := []
  windings : Option Nat := none
  phases : Option Nat := none
  xsc : Option (List ℚ) := none
  xhl : Option ℚ := none
  xlt : Option ℚ := none
  xht : Option ℚ := none
  conns : List String := []
  kVs : List ℚ := []
  kVAs : List ℚ := []
  rs : List ℚ := []
  taps : List ℚ := []
  emerg : Option ℚ := none
deriving DecidableEq, Repr

/-- The local variables `b1_name`, `b2_name` and `b1_phases`: ditto/readers/opendss/read.py:1593-1638. They keep their values from the
transformer before when there are not two or three buses. -/
structure BusVars where
  b1 : String
  b2 : String
  phases : List Nat
deriving DecidableEq, Repr

/-- `b1_phases`: ditto/readers/opendss/read.py:1598-1604 -/
def trafoBusPhases : Option (List Nat) → List Nat
  | none => [1, 2, 3]
  | some ns => ns

/-- ditto/readers/opendss/read.py:1593-1638 -/
def readBuses (st : Option BusVars) (bs : List (String × Option (List Nat))) : Option BusVars :=
  match bs with
  | [a, b] => some ⟨a.1, b.1, trafoBusPhases a.2⟩
  | [a, b, _] => some ⟨a.1, b.1, trafoBusPhases a.2⟩
  | _ => st

/-- the reactances: ditto/readers/opendss/read.py:1648-1666 -/
def readReactances (d : TrafoData) (n : Nat) : Option (List ℚ) :=
  match d.xsc with
  | some l => some l
  | none =>
    if n = 1 then d.xhl.map fun x => [x]
    else if n = 2 then some (d.xhl.toList ++ d.xlt.toList ++ d.xht.toList)
    else none

/-- the phase shift, from the connections of the first two windings: ditto/readers/opendss/read.py:1685-1711 -/
def readShift (n : Nat) (conns : List String) : Py (Option ℚ) :=
  if 2 ≤ n then
    match conns with
    | a :: b :: _ =>
      if (pyLower a = "wye" ∧ pyLower b = "wye") ∨ (pyLower a = "delta" ∧ pyLower b = "delta") then .ok (some 0)
      else if (pyLower a = "wye" ∧ pyLower b = "delta") ∨ (pyLower a = "delta" ∧ pyLower b = "wye") then .ok (some (-30))
      else .ok none
    | [a] => if pyLower a = "wye" ∨ pyLower a = "delta" then .error .indexError else .ok none
    | [] => .error .indexError
  else .ok none

/-- a connection: ditto/readers/opendss/read.py:1717-1724 -/
def readTConn (c : Option String) : Option String :=
  match c with
  | none => none
  | some c => if pyLower c = "wye" then some "Y" else if pyLower c = "delta" then some "D" else none

/-- The winding number `w`: ditto/readers/opendss/read.py:1715-1804. Only the bus and the variable `b1_phases` are looked up without
catching errors. -/
def readWinding (d : TrafoData) (n : Nat) (phases : Option (List Nat)) (w : Nat) : Py TWinding :=
  match d.buses[w]?, phases with
  | none, _ => .error .indexError
  | _, none => .error .unboundLocalError
  | some b, some phases => .ok
    { conn := readTConn d.conns[w]?
      nominal := d.kVs[w]?.map fun x => x * 1000
      rated := d.kVAs[w]?.map fun x => x * 1000
      emergency := d.emerg.map fun x => x * 1000
      resistance := d.rs[w]?
      grounded := decide (n = 2 ∧ ∃ ns ∈ b.2, 0 ∈ ns)
      pws := phases.map fun p => { phase := ofDssPhase p, tap := d.taps[w]? } }

/-- the loop over the windings: ditto/readers/opendss/read.py:1713 -/
def readWindings (d : TrafoData) (n : Nat) (phases : Option (List Nat)) : List Nat → Py (List TWinding)
  | [] => .ok []
  | w :: ws =>
    match readWinding d n phases w with
    | .error e => .error e
    | .ok x =>
      match readWindings d n phases ws with
      | .error e => .error e
      | .ok xs => .ok (x :: xs)

/-- the types of the voltages: ditto/readers/opendss/read.py:1806-1826 -/
def voltageTypes (n : Nat) (kVs : List ℚ) : Py (List (Option Nat)) :=
  if n = 2 then
    match kVs with
    | a :: b :: _ => .ok (if b ≤ a then [some 0, some 2] else [some 2, some 0])
    | _ => .error .indexError
  else if n = 3 then
    match kVs with
    | a :: b :: rest =>
      let m := rest.foldl max (max a b)
      if a = m then .ok [some 0, some 2, some 2] else if b = m then .ok [some 2, some 0, some 2] else .ok [some 2, some 2, some 0]
    | _ => .error .indexError
  else .ok (List.replicate n none)

/-- the number of windings: ditto/readers/opendss/read.py:1642-1646 -/
def windingCount (d : TrafoData) : Nat :=
  match d.windings with
  | some n => n
  | none => 2

/-- the number of phases: ditto/readers/opendss/read.py:1668-1672 -/
def trafoPhaseCount (d : TrafoData) : Nat :=
  match d.phases with
  | some p => p
  | none => 3

/-- the name, which stays empty if it is already taken: ditto/readers/opendss/read.py:1554-1567 -/
def trafoName (seen : List String) (d : TrafoData) : String := if pyLower d.name ∈ seen then "" else pyLower d.name

/-- One transformer of `parse_transformers`: ditto/readers/opendss/read.py:1547-1831. `seen` are the names of the objects read before: a
name that is already there is not set, since the message has an undefined name and the exception is caught. Simplification: three windings
with only one voltage. -/
def readTrafo (seen : List String) (st : Option BusVars) (d : TrafoData) : Py (Option (Option BusVars × DTrafo)) :=
  if d.enabled then
    let st := readBuses st d.buses
    match readShift (windingCount d) d.conns with
    | .error e => .error e
    | .ok shift =>
      match readWindings d (windingCount d) (st.map (·.phases)) (List.range (windingCount d)), voltageTypes (windingCount d) d.kVs with
      | .error e, _ => .error e
      | _, .error e => .error e
      | .ok ws, .ok vts => .ok (some (st,
          { name := some (trafoName seen d)
            fromEl := st.map (·.b1)
            toEl := st.map (·.b2)
            loadloss := d.loadloss
            noload := d.noload
            normhkva := d.normhkva
            phaseShift := shift
            reactances := readReactances d (windingCount d)
            centerTap := decide (windingCount d = 3 ∧ trafoPhaseCount d = 1)
            isSubstation := d.sub
            windings := List.zipWith (fun w v => { w with voltageType := v }) ws vts }))
  else .ok none

end Ditto.Dss
