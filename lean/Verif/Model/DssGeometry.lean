import Verif.Model.DssLines

/-! Lines in OpenDSS files that are described by a geometry: the part of `parse_lines` of ditto/readers/opendss/read.py that reads wires. -/
namespace Ditto.Dss
open Ditto

/-- a property of a geometry that has one value for each conductor, or one for all -/
inductive Vals (α : Type)
  | many (l : List α)
  | one (a : α)
deriving DecidableEq, Repr

/-- the names of the wires: a list of one text with blanks between the names, a list of names, or a text -/
inductive WireNames
  | joined (l : List String)
  | many (l : List String)
  | one (s : String)
deriving DecidableEq, Repr

/-- what OpenDSS reports of a geometry; numbers that cannot be read are `none` -/
structure GeoInfo where
  nconds : Nat
  wires : WireNames
  units : Vals String
  x : Vals (Option ℚ)
  h : Vals (Option ℚ)
deriving DecidableEq, Repr

/-- what OpenDSS reports of wire data and of the data of cables with concentric neutral (`k` … only there) -/
structure WireInfo where
  radunits : String
  gmrunits : String
  runits : String
  diam : Option ℚ := none
  gmr : Option ℚ := none
  normamps : Option ℚ := none
  emergamps : Option ℚ := none
  rac : Option ℚ := none
  gmrStrand : Option ℚ := none
  rStrand : Option ℚ := none
  diaStrand : Option ℚ := none
  diaCable : Option ℚ := none
  insLayer : Option ℚ := none
  k : Nat := 0
deriving DecidableEq, Repr

/-- the variable `data` of `parse_lines`: the line, or after the loop over the cables the last one of them. `enabled` is only there for the
line. -/
structure CurData where
  enabled : Option Bool
  normamps : Option ℚ
  emergamps : Option ℚ
deriving DecidableEq, Repr

/-- a `Wire` that is read -/
structure GWire where
  phase : Option String := none
  nameclass : String := ""
  isOpen : Option Bool := none
  x : Option ℚ := none
  y : Option ℚ := none
  diameter : Option ℚ := none
  gmr : Option ℚ := none
  ampacity : Option ℚ := none
  emergency : Option ℚ := none
  resistance : Option ℚ := none
  cnGmr : Option ℚ := none
  cnResistance : Option ℚ := none
  cnDiameter : Option ℚ := none
  cnOutside : Option ℚ := none
  insulation : Option ℚ := none
  cnNstrand : Option Nat := none
deriving DecidableEq, Repr

/-- the value for the conductor `p`; errors are caught: ditto/readers/opendss/read.py:1192-1205, 1214-1227 -/
def Vals.at? {α : Type} (p : Nat) : Vals (Option α) → Option α
  | .many l => (l[p]?).join
  | .one a => a

/-- the unit for the conductor `p`; errors are not caught: ditto/readers/opendss/read.py:1170-1176 -/
def unitAt (p : Nat) : Vals String → Py String
  | .many l => match l[p]? with | some u => .ok u | none => .error .indexError
  | .one u => .ok u

/-- `nameclass`: ditto/readers/opendss/read.py:1162-1168. The first entry of the list (or the first character of the text) is split at
blanks; errors are caught and leave "". -/
def nameAt (p : Nat) : WireNames → String
  | .joined l => match l[p]? with | some s => s | none => ""
  | .many l => match p, l with | 0, s :: _ => s | _, _ => ""
  | .one s => match p, s.toList with | 0, c :: _ => String.ofList [c] | _, _ => ""

/-- the key of the wire data: ditto/readers/opendss/read.py:1235-1266 -/
def codeAt (p : Nat) : WireNames → Py (Option String)
  | .joined l => match l[p]? with | some s => .ok (some (pyLower s)) | none => .error .indexError
  | .many l => .ok ((l[p]?).map pyLower)
  | .one s => .ok (some s)

/-- an ampacity of 0 or -1 is not known: ditto/readers/opendss/read.py:1370-1371 -/
def cleanAmps : Option ℚ → Option ℚ
  | some v => if v = -1 ∨ v = 0 then none else some v
  | none => none

def orElse : Option ℚ → Option ℚ → Option ℚ
  | some v, _ => some v
  | none, w => w

/-- ditto/readers/opendss/read.py:1147-1151, 1364-1371 and 1431-1438 (emergency: 1153-1157, 1373-1385 and 1440-1450) -/
def ampsOf (data wire : Option ℚ) : Option ℚ := cleanAmps (orElse (cleanAmps (orElse wire data)) data)

/-- the resistance: ditto/readers/opendss/read.py:1387-1430. A unit that is not known gives `None * length`, which is not caught. -/
def resistanceOf (length : Option ℚ) (w : WireInfo) : Py (Option ℚ) :=
  match length, w.rac with
  | some len, some r =>
    match Units.toMeters (some r) (.str w.runits) (.bool true) with
    | some v => .ok (some (v * len))
    | none => .error .typeError
  | _, _ => .ok none

/-- the values of one cable; the units of the resistance are not inverted: ditto/readers/opendss/read.py:1455-1523. Errors in a conversion are
not modelled. -/
def cableStep (w : GWire) (c : WireInfo) : GWire :=
  { w with
    cnGmr := Units.toMeters c.gmrStrand (.str c.gmrunits)
    cnResistance := Units.toMeters c.rStrand (.str c.runits)
    cnDiameter := Units.toMeters c.diaStrand (.str c.radunits)
    cnOutside := Units.toMeters c.diaCable (.str c.radunits)
    insulation := Units.toMeters c.insLayer (.str c.radunits)
    cnNstrand := some c.k }

/-- `data` after the loop over the cables: ditto/readers/opendss/read.py:1459 -/
def lastData (data : CurData) (cables : List (String × WireInfo)) : CurData :=
  match cables.getLast? with
  | some c => ⟨none, c.2.normamps, c.2.emergamps⟩
  | none => data

/-- One wire: ditto/readers/opendss/read.py:1104-1525. `ns`: the numbers of the phases of the first bus. Wire data that does not exist is not
modelled (OpenDSS refuses it): `.error .nameError`. -/
def readGeoWire (wires cables : List (String × WireInfo)) (g : GeoInfo) (switch : Bool) (ns : List Nat) (length : Option ℚ) (data : CurData) (p : Nat) :
    Py (GWire × CurData) :=
  match (if switch then (match data.enabled with | some b => .ok (some (!b)) | none => .error .keyError) else .ok none : Py (Option Bool)) with
  | .error e => .error e
  | .ok isOpen =>
    match unitAt p g.units with
    | .error e => .error e
    | .ok u =>
      match codeAt p g.wires with
      | .error e => .error e
      | .ok none => .error .nameError
      | .ok (some code) =>
        match (match cables.lookup code with | some w => some w | none => wires.lookup code) with
        | none => .error .nameError
        | some w =>
          match resistanceOf length w with
          | .error e => .error e
          | .ok r =>
            let gw : GWire :=
              { phase := match ns[p]? with | some n => ofDssPhase n | none => some "N"
                nameclass := nameAt p g.wires
                isOpen := isOpen
                x := Units.toMeters (g.x.at? p) (.str u)
                y := Units.toMeters (g.h.at? p) (.str u)
                diameter := Units.toMeters w.diam (.str w.radunits)
                gmr := Units.toMeters w.gmr (.str w.gmrunits)
                ampacity := ampsOf data.normamps w.normamps
                emergency := ampsOf data.emergamps w.emergamps
                resistance := r }
            if (cables.lookup code).isSome then .ok ((cables.map (·.2)).foldl cableStep gw, lastData data cables)
            else .ok (gw, data)

/-- the wires of a line: ditto/readers/opendss/read.py:1094-1525 -/
def readGeoWires (wires cables : List (String × WireInfo)) (g : GeoInfo) (switch : Bool) (ns : List Nat) (length : Option ℚ) : CurData → List Nat → Py (List GWire)
  | _, [] => .ok []
  | data, p :: ps =>
    match readGeoWire wires cables g switch ns length data p with
    | .error e => .error e
    | .ok r =>
      match readGeoWires wires cables g switch ns length r.2 ps with
      | .error e => .error e
      | .ok rest => .ok (r.1 :: rest)

def readGeometry (wires cables : List (String × WireInfo)) (g : GeoInfo) (switch : Bool) (ns : List Nat) (length : Option ℚ) (data : CurData) : Py (List GWire) :=
  readGeoWires wires cables g switch ns length data (List.range g.nconds)

end Ditto.Dss
