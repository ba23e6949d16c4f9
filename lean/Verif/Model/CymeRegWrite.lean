import Verif.Model.GlmParse
import Verif.Model.OpenClose
import Mathlib.Data.List.Sort

/-! Regulators in the CYME writer: ditto/writers/cyme/write.py. -/
namespace Ditto.Cyme
open Ditto Glm

/-- A regulator that is not a load tap changer, with its values as they are printed. `kva` and `kvln` are "0" if there are no two windings with
voltages; then there are no phases either. Each phase has its compensator resistance and reactance. `changes` says that the two windings have
different voltages. -/
structure RegIn where
  start : Text
  stop : Text
  changes : Bool
  place : Option (Text × Text)
  phases : List (Char × Text × Text)
  band : Option Text
  ct : Option Text
  pt : Option Text
  /-- `setpoint * 120 / 100.0` -/
  setpoint : Option Text
  kva : Text
  kvln : Text
deriving DecidableEq

/-- the identifier of a section: ditto/writers/cyme/write.py:2587-2593, 2674-2680. `hash` is the hexadecimal SHA-1 digest. -/
def sectionId (hash : Text → Text) (a b : Text) : Text :=
  if 64 < (a ++ '_' :: b).length then hash (a ++ '_' :: b) else a ++ '_' :: b

/-- The section of the regulator: ditto/writers/cyme/write.py:2587-2593, 2655-2680. If the voltages differ, a transformer takes the section
before it. -/
def regSection (hash : Text → Text) (r : RegIn) : Text :=
  if r.changes then sectionId hash (r.stop ++ "_reg".toList) r.stop else sectionId hash r.start r.stop

/-- `_Rset[c]` or `_Xset[c]`: ditto/writers/cyme/write.py:3027-3028, 3043-3053 -/
def regSetting (f : Char × Text × Text → Text) (c : Char) (phases : List (Char × Text × Text)) : Text :=
  phases.foldl (fun v p => if p.1 = c then f p else v) "0".toList

/-- a value in a row: ditto/writers/cyme/write.py:3060-3088 -/
def rowValue : Option Text → Text
  | none => []
  | some t => t

/-- a value that is formatted: `None` if it is missing -/
def formatted : Option Text → Text
  | none => "None".toList
  | some t => t

/-- coordinates: ditto/writers/cyme/write.py:3006-3014 -/
def placeFields : Option (Text × Text) → List Text
  | none => [[], []]
  | some (x, y) => [x, y]

/-- `",a,b,c"` -/
def withCommas (fields : List Text) : Text := fields.flatMap fun f => ',' :: f

/-- the equipment of the regulator: ditto/writers/cyme/write.py:3106-3117 -/
def regObject (r : RegIn) : Text :=
  r.kva ++ withCommas [formatted r.band, formatted r.ct, formatted r.pt, "0".toList, r.kvln, "10".toList, "10".toList, "32".toList, "0".toList]

/-- the keys of the dictionary with this value: ditto/writers/cyme/write.py:3119-3125. The keys are 1, 2, ... -/
def matchingIds (codes : List Text) (line : Text) : List Nat :=
  ((codes.zipIdx 1).filter fun p => p.1 = line).map (·.2)

/-- the name of the equipment with a number -/
def regName (k : Nat) : Text := "regulator_".toList ++ k.repr.toList

/-- the row of a regulator: ditto/writers/cyme/write.py:3000-3145. `ids` are the numbers of its equipment. -/
def regRow (sec : Text) (r : RegIn) (ids : List Nat) : Text :=
  sec ++ withCommas (placeFields r.place ++ [r.phases.map (·.1), rowValue r.band, rowValue r.ct, rowValue r.pt, rowValue r.setpoint,
    rowValue r.setpoint, rowValue r.setpoint] ++ ids.flatMap (fun k => [regName k, sec]) ++ ["M".toList, "10".toList, "10".toList, "T".toList,
    regSetting (·.2.1) 'A' r.phases, regSetting (·.2.1) 'B' r.phases, regSetting (·.2.1) 'C' r.phases, regSetting (·.2.2) 'A' r.phases,
    regSetting (·.2.2) 'B' r.phases, regSetting (·.2.2) 'C' r.phases, "0".toList, "0".toList, "0".toList, "0".toList])

/-- the numbers of the equipment, and the equipment afterwards: ditto/writers/cyme/write.py:3119-3131 -/
def regCode (codes : List Text) (line : Text) : List Nat × List Text :=
  match matchingIds codes line with
  | [] => ([codes.length + 1], codes ++ [line])
  | k :: ks => (k :: ks, codes)

/-- the rows of all regulators, and their equipment -/
def regRows (hash : Text → Text) : List Text → List RegIn → List Text × List Text
  | codes, [] => ([], codes)
  | codes, r :: rs =>
    (regRow (regSection hash r) r (regCode codes (regObject r)).1 :: (regRows hash (regCode codes (regObject r)).2 rs).1,
      (regRows hash (regCode codes (regObject r)).2 rs).2)

/-- ditto/writers/cyme/write.py:200 -/
def phaseWords : List Text :=
  ["A".toList, "B".toList, "C".toList, "AB".toList, "AC".toList, "BA".toList, "BC".toList, "CB".toList, "CA".toList]

/-- `"".join(sorted(t))` -/
def sortText (t : Text) : Text := t.insertionSort fun a b => a.toNat ≤ b.toNat

/-- one field of two rows: ditto/writers/cyme/write.py:201-209 -/
def mergeField (x y : Text) : Text :=
  if x = y then x
  else if x ∈ phaseWords ∧ y ∈ phaseWords then sortText (x ++ y)
  else if x = "0".toList ∧ y ≠ "0".toList then y
  else if y = "0".toList ∧ x ≠ "0".toList then x
  else []

/-- `merge`: ditto/writers/cyme/write.py:193-212 -/
def mergeRows (a b : Text) : Py Text :=
  if (Net.splitCh ',' a).length ≠ (Net.splitCh ',' b).length then .error .valueError
  else .ok ((List.zipWith mergeField (Net.splitCh ',' a) (Net.splitCh ',' b)).flatMap fun f => f ++ [',']).dropLast

/-- one row of `merge_regulators`: ditto/writers/cyme/write.py:183-189 -/
def mergeStep (d : List (Text × Text)) (row : Text) : Py (List (Text × Text)) :=
  match Net.splitCh ',' row with
  | [] => .error .indexError
  | sec :: _ =>
    match getEntry sec d with
    | none => .ok (setEntry sec row d)
    | some old =>
      match mergeRows old row with
      | .error e => .error e
      | .ok new => .ok (setEntry sec new d)

/-- `merge_regulators`: ditto/writers/cyme/write.py:177-191 -/
def mergeRegulators : List (Text × Text) → List Text → Py (List (Text × Text))
  | d, [] => .ok d
  | d, row :: rows =>
    match mergeStep d row with
    | .error e => .error e
    | .ok d' => mergeRegulators d' rows

/-- `data.strip(",")` -/
def stripCommas (t : Text) : Text := ((t.dropWhile fun c => c = ',').reverse.dropWhile fun c => c = ',').reverse

/-- the rows of the equipment: ditto/writers/cyme/write.py:4847-4850 -/
def equipmentRows (codes : List Text) : List Text := (codes.zipIdx 1).map fun p => regName p.2 ++ ',' :: stripCommas p.1

/-- The rows of the regulators in the network file and in the equipment file: ditto/writers/cyme/write.py:2556-3145, 4479-4490, 4841-4850. Not
represented: the sections and transformers that are written for them. -/
def writeRegulators (hash : Text → Text) (regs : List RegIn) : Py (List Text × List Text) :=
  match mergeRegulators [] (regRows hash [] regs).1 with
  | .error e => .error e
  | .ok d => .ok (d.map (·.2), equipmentRows (regRows hash [] regs).2)

end Ditto.Cyme
