import Verif.Model.GldTriplex

/-! Underground lines of GridLAB-D files: the branch for `underground_line` in ditto/readers/gridlabd/read.py. Numbers are real or complex
numbers (exact arithmetic). -/
namespace Ditto.Gld
open Ditto Glm

/-- the attributes of a `Wire` that are used here: ditto/models/wire.py:84-92 -/
structure UWire extends GWire where
  neutralGmr : Option ℝ := none
  neutralResistance : Option ℝ := none

/-! ### Positions -/

/-- the names of the attributes for two of the phases, in the order of the loops: ditto/readers/gridlabd/read.py:1849, 1855-1857 -/
def phasePairs : List (String × String) := [("A", "B"), ("A", "C"), ("A", "N"), ("B", "C"), ("B", "N"), ("C", "N")]

/-- all distances of the spacing: ditto/readers/gridlabd/read.py:1849-1865 -/
def readDistances (flt : Text → Option ℝ) (sp : GldObj) : Py (List ((String × String) × Option ℝ)) :=
  phasePairs.mapM fun p => (readOptional flt sp ("distance_" ++ p.1 ++ p.2).toList).map fun v => (p, v)

/-- the distances by their letters -/
def distancesOf (l : List ((String × String) × Option ℝ)) : Distances := fun a b => (l.lookup (a, b)).join

/-- all pairs of the four indices, row by row: ditto/readers/gridlabd/read.py:1869-1870, 1966-1967 -/
def cellPairs : List (Nat × Nat) := (List.range 4).flatMap fun i => (List.range 4).map fun j => (i, j)

/-- `n_entries`: ditto/readers/gridlabd/read.py:1866, 1869-1872, 1876. There are no distances to the earth. -/
noncomputable def cableCount (g : Distances) : Nat := Nat.sqrt (entries g)

/-- the last entry that is known and not 0, else the first entry: ditto/readers/gridlabd/read.py:1867-1875, 1878 -/
noncomputable def lastDistance (g : Distances) : ℝ :=
  open Classical in cellPairs.foldl (fun d p => if table g p.1 p.2 ≠ -1 ∧ table g p.1 p.2 ≠ 0 then table g p.1 p.2 else d) (table g 0 0)

/-- the default positions: ditto/readers/gridlabd/read.py:1892-1896, 1951-1955, 2026-2030 -/
noncomputable def spread (ws : List String) : List (ℝ × ℝ) := ws.mapIdx fun k _ => (0.5 * k, -6)

/-- two cables: ditto/readers/gridlabd/read.py:1877-1896 -/
noncomputable def cableTwos (g : Distances) (ws : List String) : List (ℝ × ℝ) :=
  open Classical in
  if lastDistance g ≠ 0 then ws.mapIdx fun k _ => if k = 0 then (0, -6) else (lastDistance g, -6) else spread ws

/-- a pair that is longer than those before: ditto/readers/gridlabd/read.py:1911-1914, 1968-1971 -/
noncomputable def topStep (g : Distances) (st : ℝ × Nat × Nat) (p : Nat × Nat) : ℝ × Nat × Nat :=
  open Classical in if table g p.1 p.2 > st.1 then (table g p.1 p.2, p.1, p.2) else st

/-- `max`, `first` and `last`: ditto/readers/gridlabd/read.py:1901-1914. An entry of -1 is never more than `max`. Simplification: without
distances of more than -1, `first` and `last` are -1 in python, which stands for the last index here. -/
noncomputable def longestOfThree (g : Distances) : ℝ × Nat × Nat := pairs.foldl (topStep g) (-1, 3, 3)

/-- the distances of these pairs that are known -/
noncomputable def knownOf (g : Distances) (l : List (Nat × Nat)) : List ℝ :=
  open Classical in (l.map fun p => table g p.1 p.2).filter fun d => d ≠ -1

/-- `middle`: ditto/readers/gridlabd/read.py:1902, 1916-1922. The first value is -1, which is the last of the four indices. -/
noncomputable def middleIndex (g : Distances) (first last : Nat) : Nat :=
  open Classical in (List.range 4).foldl (fun k i => if i ≠ first ∧ i ≠ last ∧ table g i first ≠ -1 then i else k) 3

/-- `heron_area` before the root: ditto/readers/gridlabd/read.py:1905-1910, 1923-1930. The loops have `range(n_entries)`, the first three indices. -/
noncomputable def areaOfThree (g : Distances) : ℝ :=
  (knownOf g [(0, 1), (0, 2), (1, 2)]).foldl (fun a d => a * ((knownOf g pairs).sum / 2 - d)) ((knownOf g pairs).sum / 2)

/-- `height`: ditto/readers/gridlabd/read.py:1932-1933, 1991-1992 -/
noncomputable def cableHeight (area m : ℝ) : Py ℝ :=
  open Classical in if area < 0 then .error .valueError else if m = 0 then .error .zeroDivisionError else .ok (Real.sqrt area * 2 / m)

/-- `math.sqrt(d ** 2 - height ** 2)` with the height over the other two: ditto/readers/gridlabd/read.py:1942-1945, 1994-1998, 2006-2010 -/
noncomputable def cableTop (d h : ℝ) : Py (ℝ × ℝ) :=
  open Classical in if d ^ 2 - h ^ 2 < 0 then .error .valueError else .ok (Real.sqrt (d ^ 2 - h ^ 2), -6 + h)

/-- one of three cables: ditto/readers/gridlabd/read.py:1934-1945 -/
noncomputable def cableThree (g : Distances) (m : ℝ) (first last : Nat) (h : ℝ) (w : String) : Py (ℝ × ℝ) :=
  if w = letter first then .ok (0, -6)
  else if w = letter last then .ok (m, -6)
  else cableTop (table g (middleIndex g first last) first) h

/-- three cables, before the default positions: ditto/readers/gridlabd/read.py:1898-1945 -/
noncomputable def cableThrees (g : Distances) (ws : List String) : Py (List (ℝ × ℝ)) :=
  match longestOfThree g with
  | (m, first, last) =>
    match cableHeight (areaOfThree g) m with
    | .error e => .error e
    | .ok h => ws.mapM (cableThree g m first last h)

/-- `max_dist`, `max_from` and `max_to`: ditto/readers/gridlabd/read.py:1962-1971. The diagonal has zeros if all entries are known. -/
noncomputable def longestOfFour (g : Distances) : ℝ × Nat × Nat := cellPairs.foldl (topStep g) (-100, 3, 3)

/-- `height` of one of the other cables: ditto/readers/gridlabd/read.py:1980-1992 -/
noncomputable def heightOfFour (g : Distances) (m : ℝ) (f t i : Nat) : Py ℝ :=
  let s := (m + table g i t + table g i f) / 2
  cableHeight (s * (s - m) * (s - table g i t) * (s - table g i f)) m

/-- the second of the other cables is on the other side if the distance is wrong: ditto/readers/gridlabd/read.py:2011-2014 -/
noncomputable def cableSide (g : Distances) (first : (ℝ × ℝ) × Nat) (i : Nat) (h : ℝ) (p : ℝ × ℝ) : ℝ × ℝ :=
  open Classical in
  if (p.1 - first.1.1) ^ 2 + (p.2 - first.1.2) ^ 2 ≠ table g i first.2 ^ 2 then (p.1, -6 - h) else p

/-- a cable that is neither end of the longest distance: ditto/readers/gridlabd/read.py:1993-2014 -/
noncomputable def cableOther (g : Distances) (first : Option ((ℝ × ℝ) × Nat)) (i : Nat) (h : ℝ) (p : ℝ × ℝ) :
    Option ((ℝ × ℝ) × Nat) × (ℝ × ℝ) :=
  match first with
  | none => (some (p, i), p)
  | some q => (some q, cableSide g q i h p)

/-- one of four cables: ditto/readers/gridlabd/read.py:1978-2020 -/
noncomputable def cableFour (g : Distances) (m : ℝ) (f t : Nat) (first : Option ((ℝ × ℝ) × Nat)) (i : Nat) :
    Py (Option ((ℝ × ℝ) × Nat) × (ℝ × ℝ)) :=
  if i ≠ t ∧ i ≠ f then
    match heightOfFour g m f t i with
    | .error e => .error e
    | .ok h =>
      match cableTop (table g i f) h with
      | .error e => .error e
      | .ok p => .ok (cableOther g first i h p)
  else if i = f then .ok (first, (0, -6))
  else .ok (first, (m, -6))

/-- the loop over four cables: ditto/readers/gridlabd/read.py:1973-2020 -/
noncomputable def fourLoop (g : Distances) (m : ℝ) (f t : Nat) : Option ((ℝ × ℝ) × Nat) → List String → Py (List (ℝ × ℝ))
  | _, [] => .ok []
  | first, w :: ws =>
    match letterIndex w with
    | .error e => .error e
    | .ok i =>
      match cableFour g m f t first i with
      | .error e => .error e
      | .ok (first', p) =>
        match fourLoop g m f t first' ws with
        | .error e => .error e
        | .ok l => .ok (p :: l)

/-- four cables, before the default positions: ditto/readers/gridlabd/read.py:1959-2020 -/
noncomputable def cableFours (g : Distances) (ws : List String) : Py (List (ℝ × ℝ)) :=
  match longestOfFour g with
  | (m, f, t) => fourLoop g m f t none ws

/-- errors are caught, then the default positions are taken: ditto/readers/gridlabd/read.py:1947-1955, 2022-2030 -/
noncomputable def orSpread (ws : List String) : Py (List (ℝ × ℝ)) → List (ℝ × ℝ)
  | .error _ => spread ws
  | .ok l => l

/-- the positions of the cables with these phases, or `none` if they are not changed: ditto/readers/gridlabd/read.py:1849-2030 -/
noncomputable def cablePositions (g : Distances) (ws : List String) : Option (List (ℝ × ℝ)) :=
  match cableCount g with
  | 2 => some (cableTwos g ws)
  | 3 => some (orSpread ws (cableThrees g ws))
  | 4 => some (orSpread ws (cableFours g ws))
  | _ => none

/-! ### Lines -/

/-- the wires with the names of their conductors: ditto/readers/gridlabd/read.py:1774-1806 -/
def cableNames (c : GldObj) : List (String × Text) :=
  liveWire c "conductor_A".toList "A" ++ liveWire c "conductor_B".toList "B" ++ liveWire c "conductor_C".toList "C" ++
    liveWire c "conductor_N".toList "N"

section numbers
variable (flt : Text → Option ℝ)

/-- the values of the conductor of a wire: ditto/readers/gridlabd/read.py:1810-1839 -/
def cableValues (objects : List (Text × GldObj)) (n : String × Text) : Py UWire :=
  match getEntry n.2 objects with
  | none => .error .keyError
  | some k =>
    match readOptional flt k "conductor_gmr".toList with
    | .error e => .error e
    | .ok g =>
      match readOptional flt k "conductor_resistance".toList with
      | .error e => .error e
      | .ok r =>
        match readOptional flt k "neutral_gmr".toList with
        | .error e => .error e
        | .ok ng =>
          match readOptional flt k "neutral_resistance".toList with
          | .error e => .error e
          | .ok nr => .ok { phase := some n.1, resistance := r, gmr := g, neutralGmr := ng, neutralResistance := nr }

/-- the positions are stored as they are, in feet -/
def withPositions (ws : List UWire) : Option (List (ℝ × ℝ)) → List UWire
  | none => ws
  | some l => ws.zipWith (fun w p => { w with x := some p.1, y := some p.2 }) l

/-- the positions from the spacing of the configuration: ditto/readers/gridlabd/read.py:1841-2030 -/
noncomputable def spacedWires (objects : List (Text × GldObj)) (c : GldObj) (ws : List UWire) : Py (List UWire) :=
  match getEntry "spacing".toList c.attrs with
  | none => .ok ws
  | some n =>
    match getEntry n objects with
    | none => .error .keyError
    | some sp =>
      match readDistances flt sp with
      | .error e => .error e
      | .ok l => .ok (withPositions ws (cablePositions (distancesOf l) ((cableNames c).map (·.1))))

/-- the wires of a configuration: ditto/readers/gridlabd/read.py:1774-2030 -/
noncomputable def cableWires (objects : List (Text × GldObj)) (c : GldObj) : Py (List UWire) :=
  match (cableNames c).mapM (cableValues flt objects) with
  | .error e => .error e
  | .ok ws => spacedWires flt objects c ws

/-- the configuration and the wires, or those that are left from the line before if there is no configuration: ditto/readers/gridlabd/read.py:1771-1773, 2032-2033 -/
noncomputable def cableConfig (objects : List (Text × GldObj)) (before : Option (GldObj × List UWire)) (o : GldObj) : Py (GldObj × List UWire) :=
  match getEntry "configuration".toList o.attrs with
  | none =>
    match before with
    | none => .error .unboundLocalError
    | some b => .ok b
  | some n =>
    match getEntry n objects with
    | none => .error .keyError
    | some c =>
      match cableWires flt objects c with
      | .error e => .error e
      | .ok ws => .ok (c, ws)

/-- all impedances are given: ditto/readers/gridlabd/read.py:2036-2049. The names are those of nine attributes. -/
def givenNine (c : GldObj) : Bool :=
  ["z11", "z12", "z13", "z21", "z22", "z23", "z31", "z32", "z33"].all fun k => (getEntry k.toList c.attrs).isSome

/-- the matrix of the line: ditto/readers/gridlabd/read.py:2035-2057. Impedances that are given are texts, which are not accepted as complex
numbers. -/
noncomputable def cableMatrix (c : GldObj) (ws : List UWire) : Py (List (List ℂ)) :=
  if givenNine c then .error .traitError
  else (computeMatrix (ws.map (·.toGWire))).map fun m => m.map fun row => row.map fun z => z / 1609.34

/-- the units of a wire in the end: ditto/readers/gridlabd/read.py:2060-2086 -/
noncomputable def cableUnits (w : UWire) : UWire :=
  { w with
    gmr := w.gmr.map (· / 3.28084), neutralGmr := w.neutralGmr.map (· / 3.28084), resistance := w.resistance.map (· / 1609.34)
    neutralResistance := w.neutralResistance.map (· / 1609.34) }

/-- a line as it is read -/
structure ULine where
  name : Option Text
  source : Option Text
  target : Option Text
  length : ℝ
  wires : List UWire
  matrix : List (List ℂ)

/-- one underground line, with the configuration and the wires that are kept: ditto/readers/gridlabd/read.py:1747-2086. Simplification: if the
wires are those of the line before, that line has the same wires, so its values change too; this is not modelled. -/
noncomputable def readUnderground (objects : List (Text × GldObj)) (before : Option (GldObj × List UWire)) (o : GldObj) :
    Py (ULine × GldObj × List UWire) :=
  match triplexLength flt o with
  | .error e => .error e
  | .ok length =>
    match cableConfig flt objects before o with
    | .error e => .error e
    | .ok (c, ws) =>
      match cableMatrix c ws with
      | .error e => .error e
      | .ok m =>
        .ok ({ name := getEntry "name".toList o.attrs, source := getEntry "from".toList o.attrs, target := getEntry "to".toList o.attrs,
               length := length, wires := ws.map cableUnits, matrix := m }, c, ws.map cableUnits)

end numbers

end Ditto.Gld
