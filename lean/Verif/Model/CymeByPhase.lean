import Verif.Model.CymeLines
import Verif.Model.Carson
import Mathlib.Data.Real.Sqrt

/-! Lines of CYME files whose conductors are given by phases: the branch `unbalanced_spacing_conf` of `parse_lines` in
ditto/readers/cyme/read.py. Numbers are real numbers (exact arithmetic). -/
namespace Ditto.Cyme
open Ditto Glm

/-- a position, of which either coordinate may be missing -/
abbrev Place := Option ℝ × Option ℝ

/-- the names of the columns: ditto/readers/cyme/read.py:3528, 3534 -/
def placeColumn (i : Nat) (k : Char) : Text := "posofcond".toList ++ (Nat.repr (i + 1)).toList ++ ['_', k]

/-- the positions of the phases, by their numbers in the section: ditto/readers/cyme/read.py:3524-3538 -/
def phasePlaces (num : Text → Option ℝ) (spacing : Values) (n : Nat) : List Place :=
  (List.range n).map fun i => (valueAt num spacing (placeColumn i 'x'), valueAt num spacing (placeColumn i 'y'))

/-- Two assignments inside of one `try`: ditto/readers/cyme/read.py:3546-3550, 3560-3568. -/
def assignBoth (num : Text → Option ℝ) (x y : Text) : Place :=
  match num x with
  | none => (none, none)
  | some a => (some a, num y)

/-- the position of the neutral: ditto/readers/cyme/read.py:3540-3550 -/
def neutralPlace (num : Text → Option ℝ) (spacing : Values) : Place :=
  match getEntry "posofneutralcond_x".toList spacing, getEntry "posofneutralcond_y".toList spacing with
  | some x, some y => assignBoth num x y
  | _, _ => (none, none)

/-- the position of the second neutral: ditto/readers/cyme/read.py:3552-3568 -/
def secondPlace (num : Text → Option ℝ) (spacing : Values) : Place :=
  match getEntry "posofneutralcond_n2_x".toList spacing, getEntry "posofneutralcond_n2_y".toList spacing with
  | some x, some y => if x = [] ∨ y = [] then (none, none) else assignBoth num x y
  | _, _ => (none, none)

/-- the positions that are there: ditto/readers/cyme/read.py:3522-3574 -/
noncomputable def validPlaces (num : Text → Option ℝ) (spacing : Values) (n : Nat) : List Place :=
  open Classical in
  (phasePlaces num spacing n ++ [neutralPlace num spacing, secondPlace num spacing]).filter fun p => p ≠ (none, none)

/-- `distance` of two positions: ditto/readers/abstract_reader.py:344-365. Without a number the difference raises `TypeError`. -/
noncomputable def placeDistance (p q : Place) : Py ℝ :=
  match p, q with
  | (some a, some b), (some c, some d) => Carson.distance [a, b] [c, d]
  | _, _ => .error .typeError

/-- the distances in feet: ditto/readers/cyme/read.py:3575-3582 -/
noncomputable def placeDistances (ps : List Place) : Py (List (List ℝ)) :=
  ps.mapM fun p => ps.mapM fun q => (placeDistance p q).map fun d => 3.28084 * d

/-- `float(self.conductors[name][k])` with its factor -/
noncomputable def conductorValue (num : Text → Option ℝ) (c : Values) (k : Text) (f : ℝ) : Py ℝ := (floatAt num c k).map fun x => f * x

/-- the radius in feet and the resistance in ohms per mile: ditto/readers/cyme/read.py:3596-3612, 3631-3643, 3664-3676 -/
noncomputable def conductorValues (num : Text → Option ℝ) (c : Values) : Py (ℝ × ℝ) :=
  match conductorValue num c "gmr".toList 0.0328084 with
  | .error e => .error e
  | .ok g =>
    match conductorValue num c "r25".toList (1 / 0.621371) with
    | .error e => .error e
    | .ok r => .ok (g, r)

/-- The values for a conductor of that name, or those of "DEFAULT": ditto/readers/cyme/read.py:3591-3626, 3630-3657, 3663-3690. -/
noncomputable def namedValues (num : Text → Option ℝ) (t : LineTables) (name : Option Text) : Py (ℝ × ℝ) :=
  match name.bind fun k => getEntry k t.conductors with
  | some c => conductorValues num c
  | none =>
    match getEntry "DEFAULT".toList t.conductors with
    | some c => conductorValues num c
    | none => .error .keyError

/-- The values for the neutral, `none` without one: ditto/readers/cyme/read.py:3629-3693. -/
noncomputable def neutralValues (num : Text → Option ℝ) (t : LineTables) (settings : Values) : Py (Option (ℝ × ℝ)) :=
  match getEntry "condid_n".toList settings with
  | some k => (namedValues num t (some k)).map some
  | none =>
    match nameAt settings "condid_n1".toList with
    | some k => (namedValues num t (some k)).map some
    | none => .ok none

/-- all radii and resistances: ditto/readers/cyme/read.py:3584-3697 -/
noncomputable def allValues (num : Text → Option ℝ) (t : LineTables) (settings : Values) (phases : Text) : Py (List (Option (ℝ × ℝ))) :=
  match phases.mapM fun p => namedValues num t (getEntry (phaseKey "condid_".toList p) settings) with
  | .error e => .error e
  | .ok vs =>
    match neutralValues num t settings with
    | .error e => .error e
    | .ok n => .ok (vs.map some ++ [n])

/-- the rows or columns that are kept: ditto/readers/cyme/read.py:3698-3703 -/
def keptOf {α β : Type} (values : List (Option β)) (l : List α) : List α :=
  (l.zipIdx.filter fun p => match values[p.2]? with | some none => false | _ => true).map (·.1)

/-- The distances that are kept: ditto/readers/cyme/read.py:3704-3713. An array without rows has only one dimension, so that indexing it raises
`IndexError`. -/
noncomputable def keptDistances (values : List (Option (ℝ × ℝ))) (d : List (List ℝ)) : List (List ℝ) :=
  if d = [] then [[1]] else (keptOf values d).map (keptOf values)

/-- the matrix in ohms per meter: ditto/readers/cyme/read.py:3715-3728. There is never a Kron reduction. -/
noncomputable def perMeter (values : List (Option (ℝ × ℝ))) (d : List (List ℝ)) : Py (List (List (ℝ × ℝ))) :=
  match Carson.primMatrix (fun i j => d[i]?.bind fun r => r[j]?) d.length (values.map fun v => v.map (·.1)) (values.map fun v => v.map (·.2)) with
  | .error e => .error e
  | .ok m => .ok (m.map fun row => row.map fun z => (1 / 1609.34 * z.re, 1 / 1609.34 * z.im))

/-- The matrix of a line with conductors by phases, nothing without a spacing: ditto/readers/cyme/read.py:3514-3728. -/
noncomputable def byPhaseMatrix (num : Text → Option ℝ) (t : LineTables) (settings : Values) (phases : Text) :
    Py (Option (List (List (ℝ × ℝ)))) :=
  match (getEntry "spacingid".toList settings).bind fun k => getEntry k t.spacings with
  | none => .ok none
  | some spacing =>
    match placeDistances (validPlaces num spacing phases.length) with
    | .error e => .error e
    | .ok d =>
      match allValues num t settings phases with
      | .error e => .error e
      | .ok values => (perMeter values (keptDistances values d)).map some

end Ditto.Cyme
