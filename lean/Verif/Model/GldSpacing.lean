import Verif.Model.Py
import Mathlib.Analysis.SpecialFunctions.Trigonometric.Inverse

/-! Positions of the wires of overhead lines in GridLAB-D files: `compute_spacing` of ditto/readers/gridlabd/read.py. Numbers are real
numbers (exact arithmetic). -/
namespace Ditto.Gld
open Ditto

/-- the attributes `distance_XY` of a `line_spacing`, in feet, by the two letters. A missing attribute raises `AttributeError`, which is
caught: ditto/readers/gridlabd/read.py:73-84 -/
abbrev Distances := String → String → Option ℝ

/-- `lookup`: ditto/readers/gridlabd/read.py:63. Simplification: only used with indices less than 5. -/
def letter : Nat → String
  | 0 => "A"
  | 1 => "B"
  | 2 => "C"
  | 3 => "N"
  | _ => "E"

/-- `rev_lookup`: ditto/readers/gridlabd/read.py:64 -/
def letterIndex (s : String) : Py Nat :=
  if s = "A" then .ok 0 else if s = "B" then .ok 1 else if s = "C" then .ok 2 else if s = "N" then .ok 3
  else if s = "E" then .ok 4 else .error .keyError

/-- the attribute for two indices; the attributes have their letters in the order of `lookup` -/
def distAttr (g : Distances) (i j : Nat) : Option ℝ := if i < j then g (letter i) (letter j) else g (letter j) (letter i)

/-- `distances[i][j]` after the first loop: ditto/readers/gridlabd/read.py:66-78. An entry of the diagonal is 0 if some distance from
this letter is given. -/
noncomputable def table (g : Distances) (i j : Nat) : ℝ :=
  if i = j then (if (List.range 5).any fun k => k != i && (distAttr g i k).isSome then 0 else -1)
  else
    match distAttr g i j with
    | some d => d
    | none => -1

/-- the pairs that may be the longest distance, in the order of the loop: ditto/readers/gridlabd/read.py:70-71, 79 -/
def pairs : List (Nat × Nat) := [(0, 1), (0, 2), (0, 3), (1, 2), (1, 3), (2, 3)]

/-- `max_dist`, `max_from` and `max_to`: ditto/readers/gridlabd/read.py:79-82. `none` are the first values -100, -1, -1. -/
noncomputable def maxStep (g : Distances) (st : Option (ℝ × Nat × Nat)) (p : Nat × Nat) : Option (ℝ × Nat × Nat) :=
  match distAttr g p.1 p.2, st with
  | none, st => st
  | some d, none => open Classical in if d > -100 then some (d, p.1, p.2) else none
  | some d, some (m, f, t) => open Classical in if d > m then some (d, p.1, p.2) else some (m, f, t)

/-- ditto/readers/gridlabd/read.py:67-84 -/
noncomputable def longest (g : Distances) : Option (ℝ × Nat × Nat) := pairs.foldl (maxStep g) none

/-- the entries that are known: ditto/readers/gridlabd/read.py:85-89 -/
noncomputable def entries (g : Distances) : Nat :=
  ((List.range 5).flatMap fun i => (List.range 5).filter fun j => open Classical in decide (table g i j ≠ -1)).length

/-- `has_earth`: ditto/readers/gridlabd/read.py:91. `distances[:][-1]` is the last row. -/
noncomputable def hasEarth (g : Distances) : Bool := (List.range 5).any fun j => open Classical in decide (table g 4 j > -1)

/-- `n_entries` in the end: ditto/readers/gridlabd/read.py:90, 94-95. It is not negative: with a distance to the earth there are at least
two entries on the diagonal. -/
noncomputable def wireCount (g : Distances) : Nat := Nat.sqrt (entries g) - (if hasEarth g then 1 else 0)

/-- from feet to meters -/
noncomputable def meters (p : ℝ × ℝ) : ℝ × ℝ := (p.1 / 3.28084, p.2 / 3.28084)

/-- one wire: ditto/readers/gridlabd/read.py:100-107 -/
noncomputable def placeOne (g : Distances) (height : ℝ) (w : String) : Py (ℝ × ℝ) :=
  if hasEarth g then (letterIndex w).map fun i => meters (0, table g i 4) else .ok (meters (0, height))

/-- `theta`: ditto/readers/gridlabd/read.py:133-134 -/
noncomputable def tilt (g : Distances) (m : ℝ) (f t : Nat) : Py ℝ :=
  open Classical in
  if m = 0 then .error .zeroDivisionError
  else if |(table g f 4 - table g t 4) / m| ≤ 1 then .ok (Real.arccos ((table g f 4 - table g t 4) / m))
  else .error .valueError

/-- the rotation: ditto/readers/gridlabd/read.py:135-141 -/
noncomputable def rotate (θ : ℝ) (p : ℝ × ℝ) : ℝ × ℝ := (Real.cos θ * p.1 - Real.sin θ * p.2, Real.sin θ * p.1 + Real.cos θ * p.2)

/-- `final[1] = final[1] + h` -/
noncomputable def raised (h : ℝ) (p : ℝ × ℝ) : ℝ × ℝ := (p.1, p.2 + h)

/-- a wire of two, before the rotation: ditto/readers/gridlabd/read.py:122-127. `tmp_map` has no entry for other wires. -/
noncomputable def start (m : ℝ) (f t i : Nat) : Py (ℝ × ℝ) :=
  if i = t then .ok (0, 0 - m) else if i = f then .ok (0, 0) else .error .keyError

/-- a wire of two: ditto/readers/gridlabd/read.py:129-147 -/
noncomputable def placeTwo (g : Distances) (height m : ℝ) (f t i : Nat) : Py (ℝ × ℝ) :=
  match start m f t i with
  | .error e => .error e
  | .ok p =>
    if hasEarth g then (tilt g m f t).map fun θ => meters (raised (table g f 4) (rotate θ p))
    else .ok (meters (raised height p))

/-- the positions of two wires with distance 0: ditto/readers/gridlabd/read.py:113-119 -/
noncomputable def stacked (height : ℝ) (ws : List String) : List (ℝ × ℝ) := ws.mapIdx fun k _ => (0, height + 2 * k)

/-- two wires: ditto/readers/gridlabd/read.py:109-147. If there is no longest distance, `tmp_map` is empty. -/
noncomputable def placeTwos (g : Distances) (height : ℝ) (ws : List String) : Py (List (ℝ × ℝ)) :=
  match longest g with
  | none => if ws = [] then .ok [] else .error .keyError
  | some (m, f, t) =>
    open Classical in
    if m = 0 then .ok (stacked height ws)
    else
      match ws.mapM letterIndex with
      | .error e => .error e
      | .ok is => is.mapM (placeTwo g height m f t)

/-- the position by Heron's formula: ditto/readers/gridlabd/read.py:162-177 -/
noncomputable def heron (a b m : ℝ) : Py (ℝ × ℝ) :=
  let s := (a + b + m) / 2
  let area := s * (s - a) * (s - b) * (s - m)
  let x := 2 * Real.sqrt area / m
  open Classical in
  if area < 0 then .error .valueError
  else if m = 0 then .error .zeroDivisionError
  else if a ^ 2 - x ^ 2 < 0 then .error .valueError
  else .ok (x, -1 * Real.sqrt (a ^ 2 - x ^ 2))

/-- `tmp_map[w.phase]` for three wires: ditto/readers/gridlabd/read.py:154-182 -/
noncomputable def candidates (g : Distances) (m : ℝ) (f t i : Nat) : Py (List (ℝ × ℝ)) :=
  if i = f then .ok [(0, 0)]
  else if i = t then .ok [(0, 0 - m)]
  else (heron (table g i f) (table g i t) m).map fun p => [(p.1, p.2), (-1 * p.1, p.2)]

/-- one candidate, rotated and raised: ditto/readers/gridlabd/read.py:188-213 -/
noncomputable def turned (g : Distances) (height m : ℝ) (f t : Nat) (p : ℝ × ℝ) : Py (ℝ × ℝ) :=
  if hasEarth g then (tilt g m f t).map fun θ => raised (table g f 4) (rotate θ p)
  else .ok (raised height (rotate (Real.pi / 2) p))

/-- the loop over the candidates: ditto/readers/gridlabd/read.py:184-215. It stops with the first that has the right height, or without
distances to the earth, else the last one remains. `final` is an empty list if there are none. -/
noncomputable def choose (g : Distances) (height m : ℝ) (f t i : Nat) : List (ℝ × ℝ) → Py (ℝ × ℝ)
  | [] => .error .indexError
  | [p] => (turned g height m f t p).map meters
  | p :: q :: l =>
    match turned g height m f t p with
    | .error e => .error e
    | .ok r =>
      open Classical in
      if hasEarth g = false ∨ r.2 = table g i 4 then .ok (meters r) else choose g height m f t i (q :: l)

/-- the default positions: ditto/readers/gridlabd/read.py:216-226. `cnt` counts the wires that are not neutrals. -/
noncomputable def defaults (height : ℝ) : Nat → List String → List (ℝ × ℝ)
  | _, [] => []
  | cnt, w :: ws =>
    if pyLower w = "n" then (0, height + 2) :: defaults height cnt ws
    else ((cnt : ℝ) * 2, height) :: defaults height (cnt + 1) ws

/-- three wires, before the default positions: ditto/readers/gridlabd/read.py:149-215. Simplification: without a longest distance the code
uses the entries -100 and the index -1, which needs a distance of -100 or less; here it is an error. -/
noncomputable def placeThrees (g : Distances) (height : ℝ) (ws : List String) : Py (List (ℝ × ℝ)) :=
  match longest g with
  | none => .error .keyError
  | some (m, f, t) =>
    match ws.mapM letterIndex with
    | .error e => .error e
    | .ok is =>
      match is.mapM (candidates g m f t) with
      | .error e => .error e
      | .ok cs => (is.zip cs).mapM fun x => choose g height m f t x.1 x.2

/-- `seen_one`, `first_x`, `first_y`, `first_index` and `tmp_map`: ditto/readers/gridlabd/read.py:231-235. The last entry is the first. -/
structure FourState where
  first : Option ((ℝ × ℝ) × Nat) := none
  map : List (Nat × ℝ × ℝ) := []

/-- the second of the other wires is on the other side if the distance is wrong: ditto/readers/gridlabd/read.py:259-264 -/
noncomputable def sided (g : Distances) (first : (ℝ × ℝ) × Nat) (i : Nat) (p : ℝ × ℝ) : ℝ × ℝ :=
  open Classical in
  if (p.1 - first.1.1) ^ 2 + (p.2 - first.1.2) ^ 2 ≠ table g i first.2 ^ 2 then (p.1 * -1, p.2) else p

/-- a wire that is neither end of the longest distance: ditto/readers/gridlabd/read.py:244-270 -/
noncomputable def fourOther (g : Distances) (st : FourState) (i : Nat) (p : ℝ × ℝ) : FourState :=
  match st.first with
  | some first => { st with map := (i, sided g first i p) :: st.map }
  | none => { first := some (p, i), map := (i, p) :: st.map }

/-- one wire of four: ditto/readers/gridlabd/read.py:237-270 -/
noncomputable def fourStep (g : Distances) (m : ℝ) (f t : Nat) (st : FourState) (i : Nat) : Py FourState :=
  if i = f then .ok { st with map := (i, (0, 0)) :: st.map }
  else if i = t then .ok { st with map := (i, (0, 0 - m)) :: st.map }
  else (heron (table g i f) (table g i t) m).map (fourOther g st i)

/-- the second loop for four wires: ditto/readers/gridlabd/read.py:272-303 -/
noncomputable def fourPlace (g : Distances) (height m : ℝ) (f t : Nat) (map : List (Nat × ℝ × ℝ)) (i : Nat) : Py (ℝ × ℝ) :=
  match map.lookup i with
  | none => .error .keyError
  | some p => choose g height m f t i [p]

/-- four wires, before the default positions: ditto/readers/gridlabd/read.py:228-303. Simplification as for three wires. -/
noncomputable def placeFours (g : Distances) (height : ℝ) (ws : List String) : Py (List (ℝ × ℝ)) :=
  match longest g with
  | none => .error .keyError
  | some (m, f, t) =>
    match ws.mapM letterIndex with
    | .error e => .error e
    | .ok is =>
      match is.foldlM (fourStep g m f t) {} with
      | .error e => .error e
      | .ok st => is.mapM (fourPlace g height m f t st.map)

/-- errors are caught, then the default positions are taken: ditto/readers/gridlabd/read.py:216-226, 304-314 -/
noncomputable def orDefaults (height : ℝ) (ws : List String) : Py (List (ℝ × ℝ)) → List (ℝ × ℝ)
  | .error _ => defaults height 0 ws
  | .ok l => l

/-- `compute_spacing` for wires with the given phases: ditto/readers/gridlabd/read.py:62-314. The result are the positions, in meters, or
`none` if they are not changed. -/
noncomputable def computeSpacing (g : Distances) (ws : List String) (height : ℝ := 30) : Py (Option (List (ℝ × ℝ))) :=
  match wireCount g with
  | 1 => (ws.mapM (placeOne g height)).map some
  | 2 => (placeTwos g height ws).map some
  | 3 => .ok (some (orDefaults height ws (placeThrees g height ws)))
  | 4 => .ok (some (orDefaults height ws (placeFours g height ws)))
  | _ => .ok none

end Ditto.Gld
