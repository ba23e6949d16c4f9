import Verif.Model.GldSpacing
import Mathlib.Analysis.Complex.Basic
import Mathlib.Analysis.SpecialFunctions.Log.Basic

/-! Impedance matrices of lines in GridLAB-D files: `compute_matrix` and its use in ditto/readers/gridlabd/read.py. Numbers are real or
complex numbers (exact arithmetic). -/
namespace Ditto.Gld
open Ditto

/-- the attributes of a `Wire` that are used here -/
structure GWire where
  phase : Option String := none
  resistance : Option ℝ := none
  gmr : Option ℝ := none
  x : Option ℝ := none
  y : Option ℝ := none

/-- `wire_map`: ditto/readers/gridlabd/read.py:410 -/
def wireIndex (s : String) : Py Nat :=
  if s = "A" then .ok 0 else if s = "B" then .ok 1 else if s = "C" then .ok 2 else if s = "N" then .ok 3 else .error .keyError

/-- `math.log(1 / d)` -/
noncomputable def logInverse (d : ℝ) : Py ℝ :=
  open Classical in
  if d = 0 then .error .zeroDivisionError else if d < 0 then .error .valueError else .ok (Real.log (1 / d))

/-- the impedance with resistance `r` for a logarithm `l`: ditto/readers/gridlabd/read.py:423-432. Simplification: the logarithm of
`resistivity / freq` does not fail for the numbers 100 and 60 that are used. -/
noncomputable def lineZ (freq resistivity r l : ℝ) : ℂ :=
  ⟨r + 0.00158836 * freq, 0.00202237 * freq * (l + 7.6786 + 0.5 * Real.log (resistivity / freq))⟩

/-- an entry of the diagonal: ditto/readers/gridlabd/read.py:418-434 -/
noncomputable def selfZ (freq resistivity : ℝ) (w : GWire) : Py ℂ :=
  match w.resistance, w.gmr with
  | some r, some g => (logInverse g).map (lineZ freq resistivity r)
  | _, _ => .ok 0

/-- `distance`: ditto/readers/gridlabd/read.py:454 -/
noncomputable def wireDistance (x₁ y₁ x₂ y₂ : ℝ) : ℝ := Real.sqrt ((x₁ - x₂) ^ 2 + (y₁ - y₂) ^ 2)

/-- another entry: ditto/readers/gridlabd/read.py:443-466 -/
noncomputable def mutualZ (freq resistivity : ℝ) (v w : GWire) : Py ℂ :=
  match v.x, v.y, w.x, w.y with
  | some x₁, some y₁, some x₂, some y₂ => (logInverse (wireDistance x₁ y₁ x₂ y₂)).map (lineZ freq resistivity 0)
  | _, _, _, _ => .ok 0

/-- `matrix[i][j] = z` -/
def setCell (m : Nat → Nat → ℂ) (i j : Nat) (z : ℂ) : Nat → Nat → ℂ := fun a b => if a = i ∧ b = j then z else m a b

/-- ditto/readers/gridlabd/read.py:436-440, 468-476 -/
def storeZ (m : Nat → Nat → ℂ) (p q : Option String) (z : ℂ) : Py (Nat → Nat → ℂ) :=
  match p, q with
  | some p, some q =>
    match wireIndex p, wireIndex q with
    | .ok i, .ok j => .ok (setCell m i j z)
    | .error e, _ => .error e
    | .ok _, .error e => .error e
  | _, _ => .ok m

/-- the value for two wires with their positions in the list: ditto/readers/gridlabd/read.py:417, 442 -/
noncomputable def pairZ (freq resistivity : ℝ) (v w : GWire × Nat) : Py ℂ :=
  if v.2 = w.2 then selfZ freq resistivity v.1 else mutualZ freq resistivity v.1 w.1

/-- one step of the loops: ditto/readers/gridlabd/read.py:416-476 -/
noncomputable def pairStep (freq resistivity : ℝ) (m : Nat → Nat → ℂ) (p : (GWire × Nat) × GWire × Nat) : Py (Nat → Nat → ℂ) :=
  match pairZ freq resistivity p.1 p.2 with
  | .error e => .error e
  | .ok z => storeZ m p.1.1.phase p.2.1.phase z

/-- the loops over all pairs: ditto/readers/gridlabd/read.py:413-416 -/
def wirePairs (ws : List GWire) : List ((GWire × Nat) × GWire × Nat) := ws.zipIdx.flatMap fun v => ws.zipIdx.map fun w => (v, w)

/-- the matrix before the reduction: ditto/readers/gridlabd/read.py:411-476. Only entries with indices less than 4 are used. -/
noncomputable def primitiveZ (freq resistivity : ℝ) (ws : List GWire) : Py (Nat → Nat → ℂ) :=
  (wirePairs ws).foldlM (pairStep freq resistivity) fun _ _ => 0

/-- `has_neutral`: ditto/readers/gridlabd/read.py:412, 414-415 -/
def hasNeutral (ws : List GWire) : Bool := ws.any fun w => w.phase == some "N"

/-- the first `n` rows and columns -/
def block (n : Nat) (m : Nat → Nat → ℂ) : List (List ℂ) := (List.range n).map fun i => (List.range n).map fun j => m i j

/-- an entry of the reduced matrix: ditto/readers/gridlabd/read.py:482-484 -/
noncomputable def kronCell (m : Nat → Nat → ℂ) (i j : Nat) : ℂ := m i j - m i 3 * 1 / m 3 3 * m 3 j

/-- the reduction: ditto/readers/gridlabd/read.py:478-492 -/
noncomputable def reduceZ (kron neutral : Bool) (m : Nat → Nat → ℂ) : Py (List (List ℂ)) :=
  if kron && neutral then (open Classical in if m 3 3 = 0 then .error .zeroDivisionError else .ok (block 3 (kronCell m)))
  else if neutral then .ok (block 4 m)
  else .ok (block 3 m)

/-- `compute_matrix`: ditto/readers/gridlabd/read.py:409-493 -/
noncomputable def computeMatrix (ws : List GWire) (freq : ℝ := 60) (resistivity : ℝ := 100) (kron : Bool := true) : Py (List (List ℂ)) :=
  match primitiveZ freq resistivity ws with
  | .error e => .error e
  | .ok m => reduceZ kron (hasNeutral ws) m

/-- the wires of a line with their positions, if they have any: ditto/readers/gridlabd/read.py:1518-1590. `r` and `gmr` are the
attributes of the conductors, in ohms per mile and feet. -/
def placedWires (r gmr : String → Option ℝ) (phases : List String) : Option (List (ℝ × ℝ)) → List GWire
  | none => phases.map fun p => { phase := some p, resistance := r p, gmr := gmr p }
  | some l => phases.zipWith (fun p q => { phase := some p, resistance := r p, gmr := gmr p, x := some q.1, y := some q.2 }) l

/-- the wires of an overhead line: ditto/readers/gridlabd/read.py:1518-1590. Without a spacing the wires have no positions. -/
noncomputable def overheadWires (spacing : Option Distances) (r gmr : String → Option ℝ) (phases : List String) : Py (List GWire) :=
  match spacing with
  | none => .ok (placedWires r gmr phases none)
  | some g => (computeSpacing g phases).map (placedWires r gmr phases)

/-- `impedance_matrix` of an overhead line: ditto/readers/gridlabd/read.py:1594-1616. `direct` are the attributes `z11` to `z33` of the
configuration; the values are texts, which are not accepted as complex numbers. -/
noncomputable def overheadMatrix (direct : List (Option String)) (spacing : Option Distances) (r gmr : String → Option ℝ)
    (phases : List String) : Py (List (List ℂ)) :=
  match overheadWires spacing r gmr phases with
  | .error e => .error e
  | .ok ws =>
    if direct.all Option.isSome then .error .traitError
    else (computeMatrix ws).map fun m => m.map fun row => row.map fun z => z / 1609.34

end Ditto.Gld
