import Verif.Model.CymeRegWrite
import Mathlib.Analysis.Real.Sqrt

/-! Transformers with two windings, and center tap transformers, in the CYME writer: ditto/writers/cyme/write.py. Numbers are real. -/
namespace Ditto.Cyme
open Ditto Glm

/-- a winding: ditto/models/winding.py, ditto/models/phase_winding.py -/
structure WindingIn where
  power : Option ℝ
  voltage : Option ℝ
  resistance : Option ℝ
  connection : Option Text
  /-- phases and positions of the tap -/
  phases : List (Option Char × Option ℝ)

/-- A `PowerTransformer`: ditto/models/powertransformer.py. The coordinates are printed; lists are not `None`. -/
structure TrafoIn where
  start : Option Text
  stop : Option Text
  place : Option (Text × Text)
  reactances : List ℝ
  windings : List WindingIn
  centerTap : Bool
  noload : Option ℝ

/-- The variables that keep their values from one transformer to the next: `XHL`, `RH`, `RL`, `XR`, `Z1`, `voltageUnit`, `KVLLprim` and `KVLLsec`.
`XR0` and `Z0` are always those of the positive sequence. The last three are printed. -/
structure TrafoVars where
  xhl : Option ℝ := none
  rh : Option ℝ := none
  rl : Option ℝ := none
  xr : Option ℝ := none
  z1 : Option ℝ := none
  unit : Option Text := none
  prim : Option Text := none
  sec : Option Text := none

/-- the section of the transformer: ditto/writers/cyme/write.py:3179-3212 -/
def trafoSection (hash : Text → Text) (t : TrafoIn) : Option Text :=
  match t.start, t.stop with
  | some a, some b => some (sectionId hash a b)
  | _, _ => none

/-- `TYPE`: ditto/writers/cyme/write.py:3323-3365 -/
def trafoType (t : TrafoIn) (w : WindingIn) : Nat :=
  if t.centerTap = true ∧ w.phases.length = 1 then 4
  else if w.phases.length = 1 then 1
  else if w.phases.length = 3 then 2
  else 3

/-- `transformer_connection_configuration_mapping`: ditto/writers/cyme/write.py:103-175. The maps have no entries for the last two cases. -/
def windingPairCode (settings : Bool) (a b : Option Text) : Py Text :=
  if a = some "Y".toList ∧ b = some "Y".toList then .ok "0".toList
  else if a = some "D".toList ∧ b = some "Y".toList then .ok "1".toList
  else if a = some "Y".toList ∧ b = some "D".toList then .ok (if settings then "6".toList else "2".toList)
  else if a = some "D".toList ∧ b = some "D".toList then .ok (if settings then "2".toList else "4".toList)
  else if a = some "Y".toList ∧ b = some "Z".toList then .error .keyError
  else if a = some "D".toList ∧ b = some "Z".toList then .error .keyError
  else .error .valueError

/-- a code, or nothing after an exception: ditto/writers/cyme/write.py:3388-3412 -/
def codeOrNot : Py Text → Text
  | .error _ => []
  | .ok c => c

/-- the code of the connections of the windings: ditto/writers/cyme/write.py:3394-3412 -/
def windingsCode (settings : Bool) : List WindingIn → Text
  | a :: b :: _ => codeOrNot (windingPairCode settings a.connection b.connection)
  | _ => []

/-- the connection in the row of the settings: ditto/writers/cyme/write.py:3388-3412 -/
def settingCode (t : TrafoIn) (w : WindingIn) : Text := if trafoType t w = 4 then "15".toList else windingsCode true t.windings

/-- `CONN`: ditto/writers/cyme/write.py:3388-3412 -/
def equipmentCode (t : TrafoIn) (w : WindingIn) : Text := if trafoType t w = 4 then "0".toList else windingsCode false t.windings

/-- `phase_shift`: ditto/writers/cyme/write.py:3414-3418 -/
def shiftOf (code : Text) : Text := if code = "1".toList ∨ code = "2".toList then "1".toList else "0".toList

/-- `get_center_tap_impedances`, which gives `XR` and `Z1`: ditto/writers/cyme/write.py:214-223 -/
noncomputable def centerImpedance (r0 xhl xht xlt : ℝ) : Py (ℝ × ℝ) :=
  if r0 * 2 = 0 then .error .zeroDivisionError
  else .ok (10 / 8 * ((xhl + xht - xlt) / 2) / (r0 * 2), √((r0 * 2) ^ 2 + (10 / 8 * ((xhl + xht - xlt) / 2)) ^ 2))

/-- the three resistances of a center tap transformer: ditto/writers/cyme/write.py:3435-3463 -/
noncomputable def centerWindings (xhl xht xlt : ℝ) (v : TrafoVars) : List WindingIn → Py TrafoVars
  | a :: b :: c :: more =>
    match a.resistance, b.resistance, c.resistance with
    | some r0, some _, some _ =>
      match more with
      | _ :: _ => .error .valueError
      | [] =>
        match a.power with
        | none => .error .typeError
        | some _ =>
          match centerImpedance r0 xhl xht xlt with
          | .error e => .error e
          | .ok (xr, z) => .ok { v with xr := some xr, z1 := some z }
    | _, _, _ => .ok v
  | _ => .error .indexError

/-- the impedance of a center tap transformer: ditto/writers/cyme/write.py:3428-3464 -/
noncomputable def centerVars (v : TrafoVars) (t : TrafoIn) : Py TrafoVars :=
  match t.reactances with
  | [xhl, xht, xlt] => centerWindings xhl xht xlt { v with xhl := some xhl } t.windings
  | _ => .ok v

/-- `XHL`: ditto/writers/cyme/write.py:3467-3483 -/
noncomputable def reactanceOf (v : Option ℝ) (power : Option ℝ) : List ℝ → Option ℝ
  | [x] =>
    match power with
    | some p => some (x / 100 * p / 1000)
    | none => some 0
  | _ => v

/-- `RH` and `RL`: ditto/writers/cyme/write.py:3485-3514 -/
noncomputable def resistancesOf (v : Option ℝ × Option ℝ) (a b : WindingIn) : Option ℝ × Option ℝ :=
  match a.resistance, b.resistance with
  | some r, some s =>
    match a.power, b.power with
    | some p, some q => (some (r / 100 * p / 1000), some (s / 100 * q / 1000))
    | _, _ => (some 0, some 0)
  | _, _ => v

/-- `XR`: ditto/writers/cyme/write.py:3519-3525 -/
noncomputable def ratioOf : Option ℝ → Option ℝ → Option ℝ → ℝ
  | some x, some r, some s => if r + s = 0 then 0 else x / (r + s)
  | _, _, _ => 0

/-- `_ZHL_`: ditto/writers/cyme/write.py:3528-3532 -/
noncomputable def sizeOf' : Option ℝ → Option ℝ → Option ℝ → ℝ
  | some x, some r, some s => √((r + s) ^ 2 + x ^ 2)
  | _, _, _ => 0

/-- `Z1`: ditto/writers/cyme/write.py:3536-3547 -/
noncomputable def percentOf (z : ℝ) : Option ℝ → ℝ
  | none => 0
  | some p => if p / 1000 = 0 then 0 else z * 100 / (p / 1000)

/-- the impedance of a transformer that is no center tap one: ditto/writers/cyme/write.py:3466-3548 -/
noncomputable def twoVars (v : TrafoVars) (t : TrafoIn) : Py TrafoVars :=
  match t.windings with
  | a :: b :: _ =>
    let xhl := reactanceOf v.xhl a.power t.reactances
    let rs := resistancesOf (v.rh, v.rl) a b
    .ok { v with xhl := xhl, rh := rs.1, rl := rs.2, xr := some (ratioOf xhl rs.1 rs.2), z1 := some (percentOf (sizeOf' xhl rs.1 rs.2) a.power) }
  | _ => .error .indexError

/-- `KVLLsec` of a center tap transformer: ditto/writers/cyme/write.py:3596-3609 -/
noncomputable def centerSecondary (pr : ℝ → Text) (b : WindingIn) (more : List WindingIn) : Text :=
  match more with
  | [] => "DEFAULT".toList
  | c :: _ =>
    match b.voltage, c.voltage with
    | some x, some y => pr (x / 1000 + y / 1000)
    | _, _ => "DEFAULT".toList

/-- `KVLLprim`: ditto/writers/cyme/write.py:3583-3593, 3626-3634. `rnd` rounds to two digits. -/
noncomputable def primaryVoltage (pr : ℝ → Text) (rnd : ℝ → ℝ) (t : TrafoIn) (n : Nat) (x : ℝ) : Text :=
  if n = 3 ∧ t.centerTap = true then pr (rnd (x / 1000 / √3)) else pr (x / 1000)

/-- `KVLLsec`, if there is a second winding: ditto/writers/cyme/write.py:3594-3614, 3635-3639 -/
noncomputable def secondaryVoltage (pr : ℝ → Text) (type : Nat) (v : Option Text) : List WindingIn → Py (Option Text)
  | [] => .ok v
  | b :: more =>
    if type = 4 then .ok (some (centerSecondary pr b more))
    else
      match b.voltage with
      | none => .error .typeError
      | some x => .ok (some (pr (x / 1000)))

/-- the voltages of the windings: ditto/writers/cyme/write.py:3560-3639. With more than three phases nothing is set. -/
noncomputable def voltageVars (pr : ℝ → Text) (rnd : ℝ → ℝ) (v : TrafoVars) (t : TrafoIn) (a : WindingIn) (rest : List WindingIn) : Py TrafoVars :=
  if a.phases.length ≤ 3 then
    match a.voltage with
    | none => .error .typeError
    | some x =>
      match secondaryVoltage pr (trafoType t a) v.sec rest with
      | .error e => .error e
      | .ok sec => .ok { v with
          unit := some (if a.phases.length = 3 then "0".toList else "1".toList)
          prim := some (primaryVoltage pr rnd t a.phases.length x)
          sec := sec }
  else .ok v

/-- `KVA`: ditto/writers/cyme/write.py:3551-3558 -/
noncomputable def kvaText (pr : ℝ → Text) : Option ℝ → Text
  | none => "DEFAULT".toList
  | some p => pr (p / 1000)

/-- `NOLOADLOSS`: ditto/writers/cyme/write.py:3642-3651 -/
noncomputable def lossText (pr : ℝ → Text) (power : Option ℝ) : Option ℝ → Py Text
  | none => .ok []
  | some l =>
    match power with
    | none => .error .typeError
    | some p => .ok (pr (l / 100 * (p / 1000)))

/-- the line of the equipment: ditto/writers/cyme/write.py:3653-3668 -/
def trafoObject (pr : ℝ → Text) (t : TrafoIn) (a : WindingIn) (kva loss : Text) (v : TrafoVars) : Py Text :=
  match v.unit, v.prim, v.sec, v.z1, v.xr with
  | some unit, some prim, some sec, some z, some xr =>
    .ok ((trafoType t a).repr.toList ++ withCommas [kva, unit, prim, sec, pr z, pr z, pr xr, pr xr, equipmentCode t a, "1".toList, loss,
      shiftOf (equipmentCode t a), "0".toList])
  | _, _, _, _, _ => .error .unboundLocalError

/-- the impedance: ditto/writers/cyme/write.py:3428-3548 -/
noncomputable def impedanceVars (v : TrafoVars) (t : TrafoIn) (a : WindingIn) : Py TrafoVars :=
  if trafoType t a = 4 then centerVars v t else twoVars v t

/-- `TAP`: ditto/writers/cyme/write.py:3693-3702 -/
noncomputable def tapText (pr : ℝ → Text) : List WindingIn → Text
  | _ :: b :: _ =>
    match b.phases with
    | (_, some x) :: _ => if x = 0 then [] else pr (1 / x)
    | _ => []
  | _ => []

/-- What is written for a transformer, except for the numbers of its equipment: its section, the cells before and after the equipment, and the
equipment. -/
structure TrafoItem where
  sec : Text
  before : List Text
  after : List Text
  object : Text
deriving DecidableEq

/-- the cells before and after the equipment: ditto/writers/cyme/write.py:3367-3424, 3689-3712 -/
noncomputable def trafoItem (pr : ℝ → Text) (t : TrafoIn) (a : WindingIn) (sec object : Text) : TrafoItem where
  sec := sec
  before := placeFields t.place ++ [settingCode t a, a.phases.filterMap (·.1)]
  after := [shiftOf (equipmentCode t a), "M".toList, "100".toList, "100".toList, "None".toList, "0".toList, tapText pr t.windings, [], [], [], [], [],
    []]
  object := object

/-- a transformer with two windings, or a center tap one: ditto/writers/cyme/write.py:3252-3712. Without a section there is no name to write. -/
noncomputable def writeTrafo (pr : ℝ → Text) (rnd : ℝ → ℝ) (hash : Text → Text) (v : TrafoVars) (t : TrafoIn) : Py (TrafoItem × TrafoVars) :=
  match t.windings with
  | [] => .error .indexError
  | a :: rest =>
    match impedanceVars v t a with
    | .error e => .error e
    | .ok v1 =>
      match voltageVars pr rnd v1 t a rest with
      | .error e => .error e
      | .ok v2 =>
        match lossText pr a.power t.noload with
        | .error e => .error e
        | .ok loss =>
          match trafoObject pr t a (kvaText pr a.power) loss v2 with
          | .error e => .error e
          | .ok object =>
            match trafoSection hash t with
            | none => .error .typeError
            | some sec => .ok (trafoItem pr t a sec object, v2)

/-- all transformers -/
noncomputable def trafoItems (pr : ℝ → Text) (rnd : ℝ → ℝ) (hash : Text → Text) : TrafoVars → List TrafoIn → Py (List TrafoItem)
  | _, [] => .ok []
  | v, t :: ts =>
    match writeTrafo pr rnd hash v t with
    | .error e => .error e
    | .ok (item, v') =>
      match trafoItems pr rnd hash v' ts with
      | .error e => .error e
      | .ok items => .ok (item :: items)

/-- the name of the equipment with a number -/
def trafoName (k : Nat) : Text := "transformer_".toList ++ k.repr.toList

/-- the row of a transformer: ditto/writers/cyme/write.py:3367-3717. `ids` are the numbers of its equipment. -/
def writtenTrafoRow (item : TrafoItem) (ids : List Nat) : Text :=
  item.sec ++ withCommas (item.before ++ ids.flatMap (fun k => [trafoName k, item.sec]) ++ item.after)

/-- the rows of all transformers, and their equipment. Its numbers are found as for regulators: ditto/writers/cyme/write.py:3670-3687 -/
def trafoRows : List Text → List TrafoItem → List Text × List Text
  | codes, [] => ([], codes)
  | codes, i :: is =>
    (writtenTrafoRow i (regCode codes i.object).1 :: (trafoRows (regCode codes i.object).2 is).1, (trafoRows (regCode codes i.object).2 is).2)

/-- the rows of the equipment: ditto/writers/cyme/write.py:4822-4825 -/
def trafoEquipmentRows (codes : List Text) : List Text := (codes.zipIdx 1).map fun p => trafoName p.2 ++ ',' :: stripCommas p.1

/-- The rows of transformers among the settings and in the equipment file: ditto/writers/cyme/write.py:3147-3717, 4461-4467, 4816-4825. All of them
have two windings or are center tap ones. Not represented: their sections, load tap changers, and the transformers that are written for regulators. -/
noncomputable def writeTrafos (pr : ℝ → Text) (rnd : ℝ → ℝ) (hash : Text → Text) (ts : List TrafoIn) : Py (List Text × List Text) :=
  match trafoItems pr rnd hash {} ts with
  | .error e => .error e
  | .ok items => .ok ((trafoRows [] items).1, trafoEquipmentRows (trafoRows [] items).2)

end Ditto.Cyme
