import Verif.Model.Matrix
import Mathlib.Analysis.SpecialFunctions.Log.Basic
import Mathlib.Analysis.SpecialFunctions.Pow.Real
import Mathlib.Analysis.SpecialFunctions.Complex.Log

/-! Impedances of lines from the geometry of their wires: `AbstractReader` of ditto/readers/abstract_reader.py. Numbers are real or
complex numbers (exact arithmetic). -/
namespace Ditto.Carson
open Ditto Ditto.Mat

/-- `AbstractReader.distance`: ditto/readers/abstract_reader.py:344-365 -/
noncomputable def distance (p q : List ℝ) : Py ℝ :=
  if q.length ≠ p.length then .error .valueError
  else .ok (Real.sqrt ((List.zipWith (fun a b => (a - b) ^ 2) p q).sum))

/-- `carson_equation_self`: ditto/readers/abstract_reader.py:488-496. Simplification: for a negative radius python has the value nan, here
it is the value for its absolute value. -/
noncomputable def carsonSelf (r g : Option ℝ) : Py ℂ :=
  match r, g with
  | none, _ => .error .valueError
  | some _, none => .error .valueError
  | some r, some g =>
    open Classical in
    if g = 0 then .error .valueError
    else .ok ⟨r + 0.0953, 0.12134 * (Real.log (1 / g) + 7.93402)⟩

/-- `carson_equation`: ditto/readers/abstract_reader.py:498-502. Dividing by `None` raises `TypeError`. Simplification as above. -/
noncomputable def carsonMutual (d : Option ℝ) : Py ℂ :=
  match d with
  | none => .error .typeError
  | some d =>
    open Classical in
    if d = 0 then .error .valueError
    else .ok ⟨0.0953, 0.12134 * (Real.log (1 / d) + 7.93402)⟩

/-- an entry of the matrix: ditto/readers/abstract_reader.py:512-519 -/
noncomputable def primCell (dist : Nat → Nat → Option ℝ) (gs rs : List (Option ℝ)) (i j : Nat) : Py ℂ :=
  if i = j then
    match rs[i]?, gs[i]? with
    | some r, some g => carsonSelf r g
    | _, _ => .error .indexError
  else carsonMutual (dist i j)

/-- a row of the matrix: ditto/readers/abstract_reader.py:510-519 -/
noncomputable def primRow (dist : Nat → Nat → Option ℝ) (gs rs : List (Option ℝ)) (n i : Nat) : Py (List ℂ) :=
  (List.range n).mapM (primCell dist gs rs i)

/-- `get_primitive_impedance_matrix`: ditto/readers/abstract_reader.py:504-520. `dist` is an array with `n` rows and columns. -/
noncomputable def primMatrix (dist : Nat → Nat → Option ℝ) (n : Nat) (gs rs : List (Option ℝ)) : Py (List (List ℂ)) :=
  (List.range n).mapM (primRow dist gs rs n)

/-- `exp(2πi/3)`: ditto/readers/abstract_reader.py:397 -/
noncomputable def rot : ℂ := Complex.exp ⟨0, 2 / 3 * Real.pi⟩

/-- `get_sequence_impedances`: ditto/readers/abstract_reader.py:522-532 -/
noncomputable def seqImpedances (dist : Nat → Nat → Option ℝ) (n : Nat) (gs rs : List (Option ℝ)) : Py (ℂ × ℂ × ℂ) :=
  match primMatrix dist n gs rs with
  | .error e => .error e
  | .ok prim =>
    match kronReduction (entry prim) n none with
    | .error e => .error e
    | .ok ⟨_, m⟩ =>
      let seq := sequenceMatrix rot (List.ofFn fun i => List.ofFn fun j => m i j)
      match seqComponent 0 seq, seqComponent 1 seq, seqComponent 2 seq with
      | .error e, _, _ => .error e
      | _, .error e, _ => .error e
      | _, _, .error e => .error e
      | .ok a, .ok b, .ok c => .ok (a, b, c)

/-- the attributes of a `Wire` that are used here, in meters and ohms per meter -/
structure CWire where
  gmr : Option ℝ := none
  resistance : Option ℝ := none
  neutralGmr : Option ℝ := none
  strands : Option Nat := none
  neutralDiameter : Option ℝ := none
  outsideDiameter : Option ℝ := none
  neutralResistance : Option ℝ := none

/-- `convert_from_meters(x, "ft")`: ditto/readers/abstract_reader.py:265-269 -/
noncomputable def toFt (x : ℝ) : ℝ := 3.28084 * x

/-- `convert_from_meters(x, "ft", inverse=True)` -/
noncomputable def perFt (x : ℝ) : ℝ := x / 3.28084

/-- `convert_from_meters(x, "mi", inverse=True)` -/
noncomputable def perMi (x : ℝ) : ℝ := x / 0.000621371

/-- `convert_to_meters(z, "mi", inverse=True)` -/
noncomputable def fromPerMi (z : ℂ) : ℂ := z / 1609.34

/-- the distances if none are given: ditto/readers/abstract_reader.py:550-561 -/
noncomputable def defaultDistances (n : Nat) (overhead : Bool) : List (List (Option ℝ)) :=
  (List.range n).map fun i : Nat => (List.range n).map fun j : Nat => some (|(i : ℝ) - (j : ℝ)| * (if overhead then 0.6 else 0.3))

/-- `distance_matrix[i][j]`, which may raise `IndexError` -/
def cellOf (dm : List (List (Option ℝ))) (i j : Nat) : Py (Option ℝ) :=
  match dm[i]? with
  | none => .error .indexError
  | some row =>
    match row[j]? with
    | none => .error .indexError
    | some d => .ok d

/-- the distances in feet: ditto/readers/abstract_reader.py:563-571 -/
noncomputable def distancesFt (dm : List (List (Option ℝ))) (n : Nat) : Py (List (List (Option ℝ))) :=
  if n ≠ dm.length then .error .valueError
  else (List.range n).mapM fun i => (List.range n).mapM fun j => (cellOf dm i j).map (Option.map toFt)

/-- an entry of a list of rows; only used with indices in range -/
def at2 (dm : List (List (Option ℝ))) (i j : Nat) : Option ℝ := dm[i]?.bind fun row => row[j]?.bind id

/-- the radius and resistance of an overhead wire: ditto/readers/abstract_reader.py:577-592. The warnings for missing values use unknown
names. -/
noncomputable def overheadWire (w : CWire) : Py (ℝ × ℝ) :=
  match w.gmr, w.resistance with
  | some g, some r => .ok (toFt g, perFt r)
  | _, _ => .error .nameError

/-- the part for overhead lines: ditto/readers/abstract_reader.py:574-605. The method `kron_reduce` does not exist. An empty array has one
dimension, whose shape cannot be unpacked. -/
noncomputable def overheadImpedances (ws : List CWire) (dist : List (List (Option ℝ))) (kron : Bool) : Py (List (List ℂ)) :=
  match ws.mapM overheadWire with
  | .error e => .error e
  | .ok l =>
    if l = [] then .error .valueError
    else
      match primMatrix (at2 dist) ws.length (l.map fun x => some x.1) (l.map fun x => some x.2) with
      | .error e => .error e
      | .ok prim => if kron then .error .attributeError else .ok (prim.map fun row => row.map fromPerMi)

/-- a cable with the values that are taken if some are missing: ditto/readers/abstract_reader.py:614-689 -/
structure Cable where
  gmr : ℝ
  resistance : ℝ
  neutralGmr : ℝ
  strands : Nat
  neutralDiameter : ℝ
  outsideDiameter : ℝ
  neutralResistance : ℝ

/-- `x if x is not None else d` -/
def orElse {α : Type} (d : α) : Option α → α
  | some x => x
  | none => d

/-- ditto/readers/abstract_reader.py:614-689 -/
noncomputable def cableOf (w : CWire) : Cable where
  gmr := orElse (13.26 / 2 / 1000 * 0.7788) w.gmr
  resistance := orElse 0.000269 w.resistance
  neutralGmr := orElse (0.5 / 1000 * 0.7788) w.neutralGmr
  strands := orElse 32 w.strands
  neutralDiameter := orElse (1 / 1000) w.neutralDiameter
  outsideDiameter := orElse (25.93 / 1000) w.outsideDiameter
  neutralResistance := orElse 0.000269 w.neutralResistance

/-- what is computed for a cable: its own radius and resistance, those of its neutral, and the radius of the circle of the strands -/
structure CableFt where
  g : ℝ
  r : ℝ
  gn : ℝ
  rn : ℝ
  radius : ℝ

/-- ditto/readers/abstract_reader.py:691-716. Simplification: if the radius is negative python may have a complex number. -/
noncomputable def cableFt (c : Cable) : Py CableFt :=
  if c.strands = 0 then .error .zeroDivisionError
  else .ok
    { g := toFt c.gmr
      r := perFt c.resistance
      gn := (toFt c.neutralGmr * c.strands * toFt ((c.outsideDiameter - c.neutralDiameter) / 2) ^ (c.strands - 1)) ^ (1 / (c.strands : ℝ))
      rn := perMi c.neutralResistance / c.strands
      radius := toFt ((c.outsideDiameter - c.neutralDiameter) / 2) }

/-- the distances between the cables and their neutrals: ditto/readers/abstract_reader.py:718-735. Only used with indices in range. -/
def cableDistance (n : Nat) (dist : Nat → Nat → Option ℝ) (radius : List ℝ) (i j : Nat) : Option ℝ :=
  if i < n then
    if j < n then dist i j else if i = j - n then radius[i]? else dist i (j - n)
  else
    if j < n then (if i - n = j then radius[j]? else dist (i - n) j) else dist (i - n) (j - n)

/-- the part for cables: ditto/readers/abstract_reader.py:606-760 -/
noncomputable def cableImpedances (ws : List CWire) (dist : List (List (Option ℝ))) : Py (List (List ℂ)) :=
  match ws.mapM fun w => cableFt (cableOf w) with
  | .error e => .error e
  | .ok l =>
    if l = [] then .error .valueError
    else
      match primMatrix (cableDistance ws.length (at2 dist) (l.map (·.radius))) (2 * ws.length)
          ((l.map fun x => some x.g) ++ l.map fun x => some x.gn) ((l.map fun x => some x.r) ++ l.map fun x => some x.rn) with
      | .error e => .error e
      | .ok prim =>
        match kronReduction (entry prim) (2 * ws.length) (some ((List.range ws.length).map (· + ws.length))) with
        | .error e => .error e
        | .ok ⟨_, m⟩ => .ok (List.ofFn fun i => List.ofFn fun j => fromPerMi (m i j))

/-- `kron_reduce` after the first lines: ditto/readers/abstract_reader.py:542-546 -/
def kronFlag (n : Nat) (kron : Option Bool) : Bool := if n = 4 then true else kron = some true

/-- the distances that are given, or the default ones: ditto/readers/abstract_reader.py:550-561 -/
noncomputable def givenDistances (n : Nat) (overhead : Bool) : Option (List (List (Option ℝ))) → List (List (Option ℝ))
  | some d => d
  | none => defaultDistances n overhead

/-- `get_phase_impedances`: ditto/readers/abstract_reader.py:534-762 -/
noncomputable def phaseImpedances (ws : List CWire) (dm : Option (List (List (Option ℝ)))) (overhead : Bool) (kron : Option Bool) :
    Py (List (List ℂ)) :=
  match distancesFt (givenDistances ws.length overhead dm) ws.length with
  | .error e => .error e
  | .ok dist => if overhead then overheadImpedances ws dist (kronFlag ws.length kron) else cableImpedances ws dist

end Ditto.Carson
