import Verif.Model.CymeRegWrite
import Mathlib.Algebra.Field.Defs
import Mathlib.Order.Defs.LinearOrder

/-! Capacitors in the CYME writer: ditto/writers/cyme/write.py. -/
namespace Ditto.Cyme
open Ditto Glm

/-- A `Capacitor` that has a name and a connecting element: ditto/models/capacitor.py:21-124. Each of its phases has a letter, and its vars if they are
known. Without name or element, the writer takes the section of an earlier object. Numbers are exact, and `10 ** -3` is a division by 1000. -/
structure CapIn (K : Type) where
  name : Text
  element : Text
  connection : Option Text
  phases : List (Char × Option K)
  voltage : Option K
  mode : Option Text
  low : Option K
  high : Option K
deriving DecidableEq

section numbers
variable {K : Type} [Field K] [LinearOrder K]

/-- `switched_vars[c]`, where the last one counts: ditto/writers/cyme/write.py:2422-2428 -/
def switchedVarOf (c : Char) (phases : List (Char × Option K)) : Option K :=
  phases.foldl (fun v p => if p.1.toUpper = c ∧ p.2.isSome then p.2 else v) none

/-- the power of a phase in kvar: ditto/writers/cyme/write.py:2429-2449. `pr` prints numbers. -/
def kvarField (pr : K → Text) : Option K → Text
  | none => []
  | some x => pr (x / 1000)

/-- `total_var`: ditto/writers/cyme/write.py:2404, 2417-2421 -/
def totalVar (phases : List (Char × Option K)) : K := (phases.filterMap (·.2)).foldl (· + ·) 0

/-- `one_var`: ditto/writers/cyme/write.py:2405, 2429-2449 -/
def oneVar (phases : List (Char × Option K)) : K :=
  match switchedVarOf 'C' phases with
  | some x => x
  | none =>
    match switchedVarOf 'B' phases with
    | some x => x
    | none =>
      match switchedVarOf 'A' phases with
      | some x => x
      | none => 0

/-- The voltage in kV: ditto/writers/cyme/write.py:2459-2473. `s3` is the square root of 3. -/
def kvText (pr : K → Text) (s3 : K) (phases : Nat) (v : K) : Text :=
  if phases = 1 then pr (v / 1000) else pr (v / 1000 / s3)

/-- The field for the voltage, which is left out if there is none: ditto/writers/cyme/write.py:2457-2477. -/
def kvFields (pr : K → Text) (s3 : K) (c : CapIn K) : List Text :=
  match c.voltage with
  | none => []
  | some v => [kvText pr s3 c.phases.length v]

/-- the control mode: ditto/writers/cyme/write.py:2479-2493 -/
def modeField : Option Text → Text
  | none => []
  | some m =>
    if m.map Char.toLower = "currentFlow".toList then "2".toList
    else if m.map Char.toLower = "voltage".toList then "1".toList
    else if m.map Char.toLower = "activepower".toList then "4".toList
    else if m.map Char.toLower = "reactivepower".toList then "7".toList
    else if m.map Char.toLower = "timescheduled".toList then "6".toList
    else "0".toList

/-- three equal values: ditto/writers/cyme/write.py:2495-2507 -/
def threeFields (pr : K → Text) : Option K → List Text
  | none => [[], [], []]
  | some x => [pr x, pr x, pr x]

/-- the equipment of the capacitor: ditto/writers/cyme/write.py:2450-2477 -/
def capObject (pr : K → Text) (s3 : K) (c : CapIn K) : Text :=
  (if 0 < totalVar c.phases then pr (oneVar c.phases / 1000) else []) ++ ',' :: (kvFields pr s3 c).flatMap fun t => t ++ [',']

/-- the name of the equipment with a number -/
def capName (k : Nat) : Text := "capacitor_".toList ++ k.repr.toList

/-- the section of the capacitor: ditto/writers/cyme/write.py:2334-2340 -/
def capSection (hash : Text → Text) (c : CapIn K) : Text := sectionId hash c.element c.name

/-- the row of a capacitor: ditto/writers/cyme/write.py:2347, 2389-2526. `ids` are the numbers of its equipment. -/
def capRow (pr : K → Text) (s3 : K) (sec : Text) (c : CapIn K) (ids : List Nat) : Text :=
  sec ++ withCommas ([rowValue c.connection, kvarField pr (switchedVarOf 'A' c.phases), kvarField pr (switchedVarOf 'B' c.phases),
    kvarField pr (switchedVarOf 'C' c.phases)] ++ kvFields pr s3 c ++ [modeField c.mode] ++ threeFields pr c.low ++ threeFields pr c.high ++
    ids.flatMap (fun k => [sec, capName k]) ++ ["S".toList, "0".toList])

/-- the row of the section that is made for the capacitor: ditto/writers/cyme/write.py:2341-2346, 2413-2415 -/
def capSectionRow (hash : Text → Text) (c : CapIn K) : Text :=
  capSection hash c ++ withCommas [c.element, "0".toList, c.name, "0".toList, c.phases.map (·.1)]

/-- the rows of all capacitors, and their equipment. Its numbers are found as for regulators: ditto/writers/cyme/write.py:2509-2521 -/
def capRows (pr : K → Text) (s3 : K) (hash : Text → Text) : List Text → List (CapIn K) → List Text × List Text
  | codes, [] => ([], codes)
  | codes, c :: cs =>
    (capRow pr s3 (capSection hash c) c (regCode codes (capObject pr s3 c)).1 :: (capRows pr s3 hash (regCode codes (capObject pr s3 c)).2 cs).1,
      (capRows pr s3 hash (regCode codes (capObject pr s3 c)).2 cs).2)

/-- the rows of the equipment: ditto/writers/cyme/write.py:4802-4812 -/
def capEquipmentRows (codes : List Text) : List Text :=
  (codes.zipIdx 1).map fun p => capName p.2 ++ ',' :: stripCommas p.1 ++ ",0,0,0".toList

/-- The rows of the capacitors among the sections, among the settings and in the equipment file: ditto/writers/cyme/write.py:2317-2529, 4447-4455,
4802-4812. Not represented: the nodes that are written for them. -/
def writeCapacitors (pr : K → Text) (s3 : K) (hash : Text → Text) (caps : List (CapIn K)) : List Text × List Text × List Text :=
  (caps.map (capSectionRow hash), (capRows pr s3 hash [] caps).1, capEquipmentRows (capRows pr s3 hash [] caps).2)

end numbers

end Ditto.Cyme
