import Verif.Model.GldMatrix
import Verif.Model.GlmCaps

/-! Triplex lines of GridLAB-D files: `compute_secondary_matrix` and the branch for `triplex_line` in ditto/readers/gridlabd/read.py. Numbers
are real or complex numbers (exact arithmetic). -/
namespace Ditto.Gld
open Ditto Glm

/-- the attributes of a `Wire` that are used here: ditto/models/wire.py:37-40, 57-59. The thickness of the insulation is 0 by default. -/
structure TWire extends GWire where
  diameter : Option ℝ := none
  insulation : ℝ := 0

/-- `wire_map`: ditto/readers/gridlabd/read.py:320 -/
def secondaryIndex (s : String) : Py Nat :=
  if s = "A" then .ok 0 else if s = "B" then .ok 1 else if s = "N" then .ok 2 else .error .keyError

/-- `d12` and `d1n` from the first wire with a diameter, or nothing if there is none: ditto/readers/gridlabd/read.py:322-330 -/
noncomputable def spans (ws : List TWire) : Option (ℝ × ℝ) :=
  ws.findSome? fun w => w.diameter.map fun d => ((d + 2 * w.insulation) / 12, (d + w.insulation) / 12)

/-- the value on the diagonal: ditto/readers/gridlabd/read.py:335-357 -/
noncomputable def storeSelf (freq resistivity : ℝ) (m : Nat → Nat → ℂ) (w : TWire) : Py (Nat → Nat → ℂ) :=
  match selfZ freq resistivity w.toGWire with
  | .error e => .error e
  | .ok z =>
    match w.phase with
    | none => .ok m
    | some p =>
      match secondaryIndex p with
      | .error e => .error e
      | .ok i => .ok (setCell m i i (z / 1609.34))

/-- `d1n` if one of the wires is the neutral, else `d12`: ditto/readers/gridlabd/read.py:366-387 -/
def spanOf (d : ℝ × ℝ) (p q : String) : ℝ := if p = "N" ∨ q = "N" then d.2 else d.1

/-- another value: ditto/readers/gridlabd/read.py:359-396 -/
noncomputable def storeMutual (freq resistivity : ℝ) (d : Option (ℝ × ℝ)) (m : Nat → Nat → ℂ) (v w : TWire) : Py (Nat → Nat → ℂ) :=
  match v.phase, w.phase, d with
  | some p, some q, some d =>
    match (logInverse (spanOf d p q)).map (lineZ freq resistivity 0) with
    | .error e => .error e
    | .ok z =>
      match secondaryIndex p, secondaryIndex q with
      | .ok i, .ok j => .ok (setCell m i j (z / 1609.34))
      | .error e, _ => .error e
      | .ok _, .error e => .error e
  | _, _, _ => .ok m

/-- one step of the loops: ditto/readers/gridlabd/read.py:334-396 -/
noncomputable def secondaryStep (freq resistivity : ℝ) (d : Option (ℝ × ℝ)) (m : Nat → Nat → ℂ) (p : (TWire × Nat) × TWire × Nat) :
    Py (Nat → Nat → ℂ) :=
  if p.1.2 = p.2.2 then storeSelf freq resistivity m p.1.1 else storeMutual freq resistivity d m p.1.1 p.2.1

/-- the loops over all pairs: ditto/readers/gridlabd/read.py:332-333 -/
def secondaryPairs (ws : List TWire) : List ((TWire × Nat) × TWire × Nat) := ws.zipIdx.flatMap fun v => ws.zipIdx.map fun w => (v, w)

/-- the matrix before the reduction: ditto/readers/gridlabd/read.py:321-396. Only entries with indices less than 3 are used. -/
noncomputable def secondaryPrimitive (freq resistivity : ℝ) (ws : List TWire) : Py (Nat → Nat → ℂ) :=
  (secondaryPairs ws).foldlM (secondaryStep freq resistivity (spans ws)) fun _ _ => 0

/-- an entry of the reduced matrix: ditto/readers/gridlabd/read.py:402-404 -/
noncomputable def secondaryCell (m : Nat → Nat → ℂ) (i j : Nat) : ℂ := m i j - m i 2 * 1 / m 2 2 * m 2 j

/-- `compute_secondary_matrix`: ditto/readers/gridlabd/read.py:316-407 -/
noncomputable def computeSecondary (ws : List TWire) (freq : ℝ := 60) (resistivity : ℝ := 100) (kron : Bool := true) : Py (List (List ℂ)) :=
  match secondaryPrimitive freq resistivity ws with
  | .error e => .error e
  | .ok m =>
    open Classical in
    if kron then (if m 2 2 = 0 then .error .zeroDivisionError else .ok (block 2 (secondaryCell m))) else .ok (block 3 m)

/-- the variables of the loop over the objects that keep their values from the objects before: ditto/readers/gridlabd/read.py:1661-1690.
`second` is `conn2`. `wire` says whether there is an `api_wire`. -/
structure Carry where
  config : Option GldObj := none
  conductors : Option (List TWire) := none
  second : Option Text := none
  wire : Bool := false

/-- a line as it is read -/
structure TLine where
  name : Option Text
  source : Option Text
  target : Option Text
  length : ℝ
  wires : List TWire
  matrix : List (List ℂ)

/-- the wire for one of the conductors, with its name: ditto/readers/gridlabd/read.py:1664-1681 -/
def liveWire (c : GldObj) (k : Text) (phase : String) : List (String × Text) :=
  match getEntry k c.attrs with
  | none => []
  | some t => [(phase, t)]

/-- the wire for the neutral gets the name of the second conductor, `conn2`: ditto/readers/gridlabd/read.py:1683-1690 -/
def neutralWire (c : GldObj) (second : Option Text) : Py (List (String × Text)) :=
  match getEntry "conductor_N".toList c.attrs, second with
  | none, _ => .ok []
  | some _, none => .error .unboundLocalError
  | some _, some t => .ok [("N", t)]

/-- `conn2`: ditto/readers/gridlabd/read.py:1674 -/
def secondName (c : GldObj) (second : Option Text) : Option Text := (getEntry "conductor_2".toList c.attrs).or second

/-- the wires with the names of their conductors: ditto/readers/gridlabd/read.py:1662-1690 -/
def namedConductors (c : GldObj) (second : Option Text) : Py (List (String × Text)) :=
  (neutralWire c (secondName c second)).map fun n => liveWire c "conductor_1".toList "A" ++ liveWire c "conductor_2".toList "B" ++ n

/-- a change of the last wire -/
def onLast (f : TWire → TWire) : List (TWire × Text) → List (TWire × Text)
  | [] => []
  | [w] => [(f w.1, w.2)]
  | w :: ws => w :: onLast f ws

section numbers
variable (flt : Text → Option ℝ)

/-- a value in inches that is set at `api_wire`, the last wire: ditto/readers/gridlabd/read.py:1692-1702. Simplification: if there is no
conductor the wire is one of another line; the change of this wire is not modelled. -/
noncomputable def wireValue (c : GldObj) (bound : Bool) (k : Text) (f : ℝ → TWire → TWire) (ws : List (TWire × Text)) : Py (List (TWire × Text)) :=
  match readOptional flt c k with
  | .error e => .error e
  | .ok none => .ok ws
  | .ok (some x) => if ws = [] ∧ bound = false then .error .unboundLocalError else .ok (onLast (f (x / 39.3701)) ws)

/-- the values of the conductor of a wire: ditto/readers/gridlabd/read.py:1704-1722. The length is never `None`. -/
noncomputable def conductorValues (objects : List (Text × GldObj)) (length : ℝ) (w : TWire × Text) : Py TWire :=
  match getEntry w.2 objects with
  | none => .error .keyError
  | some k =>
    match readOptional flt k "geometric_mean_radius".toList with
    | .error e => .error e
    | .ok g =>
      match readOptional flt k "resistance".toList with
      | .error e => .error e
      | .ok r =>
        .ok { w.1 with
                gmr := match g with
                  | none => w.1.gmr
                  | some g => some (g / 3.28084)
                resistance := match r with
                  | none => w.1.resistance
                  | some r => some (r * length / 1609.34) }

/-- the wires of a configuration: ditto/readers/gridlabd/read.py:1662-1722 -/
noncomputable def triplexWires (objects : List (Text × GldObj)) (carry : Carry) (length : ℝ) (c : GldObj) : Py (List TWire) :=
  match namedConductors c carry.second with
  | .error e => .error e
  | .ok ns =>
    match wireValue flt c carry.wire "insulation_thickness".toList (fun x w => { w with insulation := x })
        (ns.map fun n => ({ phase := some n.1 }, n.2)) with
    | .error e => .error e
    | .ok ws =>
      match wireValue flt c carry.wire "diameter".toList (fun x w => { w with diameter := some x }) ws with
      | .error e => .error e
      | .ok ws => ws.mapM (conductorValues flt objects length)

/-- the variables after the configuration of the line, if it has one: ditto/readers/gridlabd/read.py:1659-1725 -/
noncomputable def triplexCarry (objects : List (Text × GldObj)) (carry : Carry) (length : ℝ) (o : GldObj) : Py Carry :=
  match getEntry "configuration".toList o.attrs with
  | none => .ok carry
  | some n =>
    match getEntry n objects with
    | none => .error .keyError
    | some c =>
      match triplexWires flt objects carry length c with
      | .error e => .error e
      | .ok ws => .ok { config := some c, conductors := some ws, second := secondName c carry.second, wire := carry.wire || !ws.isEmpty }

/-- all impedances are given: ditto/readers/gridlabd/read.py:1728-1735 -/
def givenImpedances (c : GldObj) : Bool :=
  [["z11".toList, "z12".toList], ["z21".toList, "z22".toList]].all fun r => r.all fun k => (getEntry k c.attrs).isSome

/-- the matrix of the line: ditto/readers/gridlabd/read.py:1726-1743. Impedances that are given are texts, which are not accepted as complex
numbers. -/
noncomputable def triplexMatrix (carry : Carry) : Py (List (List ℂ)) :=
  match carry.config, carry.conductors with
  | none, _ => .error .unboundLocalError
  | some c, ws =>
    if givenImpedances c then .error .traitError
    else
      match ws with
      | none => .error .unboundLocalError
      | some ws => computeSecondary ws

/-- the length in meters, 0 if there is none: ditto/readers/gridlabd/read.py:1646-1649, ditto/models/line.py:44-46 -/
noncomputable def triplexLength (o : GldObj) : Py ℝ :=
  match readOptional flt o "length".toList with
  | .error e => .error e
  | .ok none => .ok 0
  | .ok (some x) => .ok (x * 0.3048)

/-- one triplex line: ditto/readers/gridlabd/read.py:1639-1745 -/
noncomputable def readTriplex (objects : List (Text × GldObj)) (carry : Carry) (o : GldObj) : Py (TLine × Carry) :=
  match triplexLength flt o with
  | .error e => .error e
  | .ok length =>
    match triplexCarry flt objects carry length o with
    | .error e => .error e
    | .ok carry' =>
      match triplexMatrix carry', carry'.conductors with
      | .error e, _ => .error e
      | .ok _, none => .error .unboundLocalError
      | .ok m, some ws =>
        .ok ({ name := getEntry "name".toList o.attrs, source := getEntry "from".toList o.attrs, target := getEntry "to".toList o.attrs,
               length := length, wires := ws, matrix := m }, carry')

end numbers

end Ditto.Gld
