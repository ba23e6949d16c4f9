import Verif.Model.CymeCaps
import Mathlib.Analysis.Real.Sqrt
import Mathlib.Analysis.SpecialFunctions.Trigonometric.Basic
import Mathlib.LinearAlgebra.Matrix.NonsingularInverse
import Mathlib.LinearAlgebra.Matrix.Hadamard

/-! The transformers of CYME files: `parse_transformers` in ditto/readers/cyme/read.py. Numbers are real. -/
namespace Ditto.Cyme
open Ditto Glm

/-! ### the tables of the network file -/

/-- ditto/readers/cyme/read.py:4171-4178, 4312-4327 -/
def autoSettingQuery : Query where
  headers := ["[AUTO TRANSFORMER SETTING]".toList]
  attrs := ["sectionid".toList, "eqid".toList, "coordx".toList, "coordy".toList, "connection_configuration".toList, "tap".toList]
  mapping := [("sectionid".toList, 0), ("eqid".toList, 2), ("coordx".toList, 7), ("coordy".toList, 8), ("connection_configuration".toList, 9),
    ("tap".toList, 25)]
  info := [("type".toList, "auto_transformer".toList)]

/-- ditto/readers/cyme/read.py:4189-4194, 4335-4343 -/
def groundSettingQuery : Query where
  headers := ["[GROUNDINGTRANSFORMER SETTINGS]".toList]
  attrs := ["sectionid".toList, "equipmentid".toList, "connectionconfiguration".toList, "phase".toList]
  mapping := [("sectionid".toList, 0), ("equipmentid".toList, 6), ("connectionconfiguration".toList, 10), ("phase".toList, 13)]
  info := [("type".toList, "grounding_transformer".toList)]

/-- the attributes of the settings of transformers with three windings: ditto/readers/cyme/read.py:4355-4366, 4382-4393 -/
def threeAttrs : List Text :=
  ["sectionid".toList, "eqid".toList, "coordx".toList, "coordy".toList, "primaryfixedtapsetting".toList, "secondaryfixedtapsetting".toList,
    "tertiaryfixedtapsetting".toList, "primarybasevoltage".toList, "secondarybasevoltage".toList, "tertiarybasevoltage".toList]

/-- ditto/readers/cyme/read.py:4201-4212, 4223-4234 -/
def threeMapping : List (Text × Nat) :=
  [("sectionid".toList, 0), ("eqid".toList, 2), ("coordx".toList, 7), ("coordy".toList, 8), ("primaryfixedtapsetting".toList, 10),
    ("secondaryfixedtapsetting".toList, 11), ("tertiaryfixedtapsetting".toList, 12), ("primarybasevoltage".toList, 13),
    ("secondarybasevoltage".toList, 14), ("tertiarybasevoltage".toList, 15)]

/-- ditto/readers/cyme/read.py:4351-4370 -/
def threeAutoSettingQuery : Query where
  headers := ["[THREE WINDING AUTO TRANSFORMER SETTING]".toList]
  attrs := threeAttrs
  mapping := threeMapping
  info := [("type".toList, "three_winding_auto_transformer".toList)]

/-- ditto/readers/cyme/read.py:4378-4397 -/
def threeSettingQuery : Query where
  headers := ["[THREE WINDING TRANSFORMER SETTING]".toList]
  attrs := threeAttrs
  mapping := threeMapping
  info := [("type".toList, "three_winding_transformer".toList)]

/-- ditto/readers/cyme/read.py:4245-4261, 4405-4429 -/
def twoSettingQuery : Query where
  headers := ["[TRANSFORMER SETTING]".toList]
  attrs := threeAttrs ++ ["setpoint".toList, "maxbuck".toList, "maxboost".toList, "ct".toList, "pt".toList]
  mapping := [("sectionid".toList, 0), ("eqid".toList, 2), ("coordx".toList, 7), ("coordy".toList, 8), ("conn".toList, 9), ("primtap".toList, 10),
    ("secondarytap".toList, 11), ("primarybasevoltage".toList, 17), ("secondarybasevoltage".toList, 18), ("setpoint".toList, 21),
    ("maxbuck".toList, 29), ("maxboost".toList, 30), ("ct".toList, 31), ("pt".toList, 32), ("phaseon".toList, 37)]
  info := [("type".toList, "transformer".toList)]

/-- ditto/readers/cyme/read.py:4280-4285, 4437-4445 -/
def shifterSettingQuery : Query where
  headers := ["[PHASE SHIFTER TRANSFORMER SETTING]".toList]
  attrs := ["sectionid".toList, "eqid".toList, "coordx".toList, "coordy".toList]
  mapping := [("sectionid".toList, 0), ("eqid".toList, 2), ("coordx".toList, 10), ("coordy".toList, 11)]
  info := [("type".toList, "phase_shifter_transformer".toList)]

/-- the tables of the network file, in the order of the calls: ditto/readers/cyme/read.py:4304-4445 -/
def trafoSettingQueries : List Query :=
  [autoSettingQuery, groundSettingQuery, threeAutoSettingQuery, threeSettingQuery, twoSettingQuery, shifterSettingQuery]

/-! ### the tables of the equipment file -/

/-- ditto/readers/cyme/read.py:4179-4188, 4465-4481. The values are never used. -/
def autoQuery : Query where
  headers := ["[AUTO TRANSFORMER]".toList]
  attrs := ["id".toList, "kva".toList, "connection_configuration".toList, "noloadlosses".toList, "isltc".toList, "taps".toList,
    "lowerbandwidth".toList, "upperbandwidth".toList]
  mapping := [("id".toList, 0), ("kva".toList, 3), ("connection_configuration".toList, 18), ("noloadlosses".toList, 32), ("isltc".toList, 21),
    ("taps".toList, 22), ("lowerbandwidth".toList, 23), ("upperbandwidth".toList, 24)]

/-- ditto/readers/cyme/read.py:4195-4200, 4489-4496 -/
def groundQuery : Query where
  headers := ["[GROUNDING TRANSFORMER]".toList]
  attrs := ["id".toList, "ratedcapacity".toList, "ratedvoltage".toList, "connection_configuration".toList]
  mapping := [("id".toList, 0), ("connectionconfiguration".toList, 7), ("ratedvoltage".toList, 5), ("ratedcapacity".toList, 6)]

/-- ditto/readers/cyme/read.py:4509-4518, 4534-4543 -/
def capacityAttrs : List Text :=
  ["id".toList, "primaryratedcapacity".toList, "primaryvoltage".toList, "secondaryratedcapacity".toList, "secondaryvoltage".toList,
    "tertiaryratedcapacity".toList, "tertiaryvoltage".toList, "noloadlosses".toList]

/-- ditto/readers/cyme/read.py:4213-4222, 4505-4521. The values are never used. -/
def threeAutoQuery : Query where
  headers := ["[THREE WINDING AUTO TRANSFORMER]".toList]
  attrs := capacityAttrs
  mapping := [("id".toList, 0), ("primaryratedcapacity".toList, 1), ("primaryvoltage".toList, 6), ("secondaryratedcapacity".toList, 22),
    ("secondaryvoltage".toList, 27), ("tertiaryratedcapacity".toList, 30), ("tertiaryvoltage".toList, 35), ("noloadlosses".toList, 50)]

/-- ditto/readers/cyme/read.py:4235-4244, 4530-4546. The values are never used. -/
def threeQuery : Query where
  headers := ["[THREE WINDING TRANSFORMER]".toList]
  attrs := capacityAttrs
  mapping := [("id".toList, 0), ("primaryratedcapacity".toList, 1), ("primaryvoltage".toList, 6), ("secondaryratedcapacity".toList, 24),
    ("secondaryvoltage".toList, 29), ("tertiaryratedcapacity".toList, 33), ("tertiaryvoltage".toList, 38), ("noloadlosses".toList, 53)]

/-- ditto/readers/cyme/read.py:4262-4279, 4554-4578 -/
def twoQuery : Query where
  headers := ["[TRANSFORMER]".toList]
  attrs := ["id".toList, "type".toList, "kva".toList, "kvllprim".toList, "kvllsec".toList, "z1".toList, "z0".toList, "xr".toList, "xr0".toList,
    "conn".toList, "noloadlosses".toList, "phaseshift".toList, "isltc".toList, "taps".toList, "lowerbandwidth".toList, "upperbandwidth".toList]
  mapping := [("id".toList, 0), ("type".toList, 1), ("kva".toList, 3), ("kvllprim".toList, 5), ("kvllsec".toList, 6), ("z1".toList, 7), ("z0".toList, 8),
    ("xr".toList, 12), ("xr0".toList, 13), ("conn".toList, 18), ("noloadlosses".toList, 34), ("isltc".toList, 23), ("taps".toList, 24),
    ("lowerbandwidth".toList, 25), ("upperbandwidth".toList, 26), ("phaseshift".toList, 41)]

/-- the tables of the equipment file, in the order of the calls: ditto/readers/cyme/read.py:4457-4578 -/
def trafoQueries : List Query := [autoQuery, groundQuery, threeAutoQuery, threeQuery, twoQuery]

/-! ### transformers -/

/-- a winding with its phase windings: ditto/models/winding.py:21-59, ditto/models/phase_winding.py -/
structure TrafoWinding where
  power : Option ℝ
  voltage : Option ℝ
  connection : Option Text
  resistance : Option ℝ
  /-- phases and positions of the tap -/
  phases : List (Char × Option ℤ)

/-- a `PowerTransformer`: ditto/models/powertransformer.py. The indices of its nodes are not represented: none is ever set, because the object has
no items (ditto/readers/cyme/read.py:4619-4633). -/
structure ReadTrafo where
  name : Text
  feeder : Text
  start : Option Text
  stop : Option Text
  positions : List (ℝ × ℝ)
  reactances : List ℝ
  windings : List TrafoWinding

/-- the `Regulator` of a load tap changer: ditto/readers/cyme/read.py:4778-4816. Its attribute `ltc` is always 1. `center` is `center_bandwidth`, which
is no trait of the regulators (ditto/models/regulator.py). -/
structure ReadLtc where
  name : Text
  feeder : Text
  /-- `connected_transformer` -/
  transformer : Text
  high : ℤ
  low : ℤ
  pt : ℤ
  ct : ℤ
  setpoint : ℝ
  center : ℝ
  band : ℝ

/-- a name with the section in it: ditto/readers/cyme/read.py:4590-4594, 4786-4789. Without a section it is the default, which is empty. -/
def sectionName (start : Text) (settings : Values) : Text :=
  match getEntry "sectionid".toList settings with
  | none => []
  | some t => start ++ t

/-- `transformer_connection_configuration_mapping` for a text: ditto/readers/cyme/read.py:669, 685-711, 720. Later statements win, but no two of them are for the
same text. -/
def windingConnections (value : Text) : Option (Text × Text) :=
  if value = "0".toList ∨ lower value = "y_y".toList then some ("Y".toList, "Y".toList)
  else if value = "1".toList ∨ lower value = "d_y".toList then some ("D".toList, "Y".toList)
  else if value = "2".toList ∨ lower value = "y_d".toList then some ("Y".toList, "D".toList)
  else if value = "3".toList ∨ lower value = "yng_yng".toList then some ("Y".toList, "Y".toList)
  else if value = "4".toList ∨ lower value = "d_d".toList then some ("D".toList, "D".toList)
  else if value = "5".toList ∨ lower value = "do_do".toList then some ("D".toList, "D".toList)
  else if value = "6".toList ∨ lower value = "yo_do".toList then some ("Y".toList, "D".toList)
  else if value = "7".toList ∨ lower value = "d_yng".toList then some ("D".toList, "Y".toList)
  else if value = "8".toList ∨ lower value = "yng_d".toList then some ("Y".toList, "D".toList)
  else if value = "9".toList ∨ lower value = "y_yng".toList then some ("Y".toList, "Y".toList)
  else if value = "10".toList ∨ lower value = "yng_y".toList then some ("Y".toList, "Y".toList)
  else if value = "11".toList ∨ lower value = "yg_zg".toList then some ("Y".toList, "Z".toList)
  else if value = "12".toList ∨ lower value = "d_zg".toList then some ("D".toList, "Z".toList)
  else none

/-- the connections of the two windings: ditto/readers/cyme/read.py:4860-4866 -/
def connectionsOf (data : Values) : Option (Text × Text) :=
  match getEntry "conn".toList data with
  | none => none
  | some t => windingConnections t

/-- resistance and reactance from an impedance and the ratio of the two: ditto/readers/cyme/read.py:4750-4763 -/
noncomputable def splitImpedance (z xr : ℝ) : ℂ := if xr = 0 then 0 else ⟨z / √(1 + xr * xr), z / √(1 + 1 / (xr * xr))⟩

/-- `a`: ditto/readers/cyme/read.py:4767 -/
noncomputable def turn : ℂ := Complex.exp (2 * Real.pi * Complex.I / 3)

/-- `T`: ditto/readers/cyme/read.py:4768 -/
noncomputable def fortescue : Matrix (Fin 3) (Fin 3) ℂ := !![1, 1, 1; 1, turn * turn, turn; 1, turn, turn * turn]

/-- `matrix`: ditto/readers/cyme/read.py:4764-4766 -/
def sequences (z0 z1 : ℂ) : Matrix (Fin 3) (Fin 3) ℂ := !![z0, 0, 0; 0, z1, 0; 0, 0, z1]

/-- `Zabc`: ditto/readers/cyme/read.py:4769-4770. The products of arrays are products of their elements. -/
noncomputable def phaseImpedances (z0 z1 : ℂ) : Matrix (Fin 3) (Fin 3) ℂ := (fortescue.hadamard (sequences z0 z1)).hadamard fortescue⁻¹

/-- `Z_perc`: ditto/readers/cyme/read.py:4771 -/
noncomputable def percentImpedance (z1 z0 xr xr0 : ℝ) : ℂ := phaseImpedances (splitImpedance z0 xr0) (splitImpedance z1 xr) 0 0

/-- several numbers, in this order: the first that is missing or no number stops it (ditto/readers/cyme/read.py:4746-4749, 4797-4804) -/
def floatsAt (num : Text → Option ℝ) : List (Values × Text) → Py (List ℝ)
  | [] => .ok []
  | (d, k) :: rest =>
    match floatAt num d k with
    | .error e => .error e
    | .ok x =>
      match floatsAt num rest with
      | .error e => .error e
      | .ok xs => .ok (x :: xs)

/-- `int(x)` for a number: ditto/readers/cyme/read.py:4800-4804 -/
noncomputable def truncate (x : ℝ) : ℤ := if 0 ≤ x then ⌊x⌋ else ⌈x⌉

/-- the load tap changer of a transformer: ditto/readers/cyme/read.py:4775-4816. Any text in the column makes one. -/
noncomputable def ltcOf (num : Text → Option ℝ) (feeder : Text) (settings data : Values) : Py (Option ReadLtc) :=
  match getEntry "isltc".toList data with
  | none => .ok none
  | some [] => .ok none
  | some (_ :: _) =>
    match floatsAt num [(data, "taps".toList), (data, "lowerbandwidth".toList), (data, "upperbandwidth".toList), (settings, "maxbuck".toList),
        (settings, "maxboost".toList), (settings, "setpoint".toList), (settings, "ct".toList), (settings, "pt".toList)] with
    | .error e => .error e
    | .ok [_, lower, upper, buck, boost, setpoint, ct, pt] => .ok (some {
        name := sectionName "Reg_".toList settings
        feeder := feeder
        transformer := sectionName "Trans_".toList settings
        high := truncate buck
        low := truncate boost
        pt := truncate pt
        ct := truncate ct
        setpoint := setpoint
        center := upper - lower
        band := upper + lower })
    | .ok _ => .error .valueError

/-- the equipment of a transformer with two windings: ditto/readers/cyme/read.py:4737-4740 -/
def twoData (twos : List (Text × Values)) (settings : Values) : Py Values :=
  match getEntry "eqid".toList settings with
  | none => .error .keyError
  | some k =>
    match getEntry k twos with
    | some d => .ok d
    | none =>
      match getEntry "DEFAULT".toList twos with
      | some d => .ok d
      | none => .error .keyError

/-- a winding of a transformer with two windings: ditto/readers/cyme/read.py:4772, 4826-4895 -/
noncomputable def twoWinding (num : Text → Option ℝ) (data : Values) (phases k : Text) (connection : Option Text) (z : ℂ) : TrafoWinding where
  power := thousandAt num data "kva".toList
  voltage := thousandAt num data k
  connection := connection
  resistance := some (z.re / 2)
  phases := phases.map fun p => (p, none)

/-- the reactance, the windings and the load tap changer of a transformer with two windings: ditto/readers/cyme/read.py:4734-4895 -/
noncomputable def twoWindings (num : Text → Option ℝ) (twos : List (Text × Values)) (feeder phases : Text) (settings : Values) :
    Py (List ℝ × List TrafoWinding × Option ReadLtc) :=
  match twoData twos settings with
  | .error e => .error e
  | .ok data =>
    match floatsAt num [(data, "z1".toList), (data, "z0".toList), (data, "xr".toList), (data, "xr0".toList)] with
    | .error e => .error e
    | .ok [z1, z0, xr, xr0] =>
      match ltcOf num feeder settings data with
      | .error e => .error e
      | .ok ltc => .ok ([(percentImpedance z1 z0 xr xr0).im],
          [twoWinding num data phases "kvllprim".toList ((connectionsOf data).map (·.1)) (percentImpedance z1 z0 xr xr0),
            twoWinding num data phases "kvllsec".toList ((connectionsOf data).map (·.2)) (percentImpedance z1 z0 xr xr0)], ltc)
    | .ok _ => .error .valueError

/-- `int(d[k])`, or nothing after an exception: ditto/readers/cyme/read.py:4711-4726 -/
def tapAt (int : Text → Option ℤ) (d : Values) (k : Text) : Option ℤ :=
  match getEntry k d with
  | none => none
  | some t => int t

/-- a winding of a transformer with three windings: ditto/readers/cyme/read.py:4651-4732. The power is looked up in the settings. -/
noncomputable def threeWinding (num : Text → Option ℝ) (int : Text → Option ℤ) (settings : Values) (phases which : Text) : TrafoWinding where
  power := thousandAt num settings (which ++ "ratedcapacity".toList)
  voltage := thousandAt num settings (which ++ "basevoltage".toList)
  connection := none
  resistance := none
  phases := phases.map fun p => (p, tapAt int settings (which ++ "fixedtapsetting".toList))

/-- the equipment of a grounding transformer: ditto/readers/cyme/read.py:4900-4905 -/
def groundData (grounds : List (Text × Values)) (settings : Values) : Py Values :=
  match getEntry "equipmentid".toList settings with
  | none => .error .keyError
  | some k =>
    match getEntry k grounds with
    | some d => .ok d
    | none => .ok []

/-- the connection of a grounding transformer: ditto/readers/cyme/read.py:4942-4948 -/
def groundConnection (data : Values) : Option Text :=
  match getEntry "conn".toList data with
  | none => none
  | some t => connectionOf t

/-- a winding of a grounding transformer: ditto/readers/cyme/read.py:4908-4971 -/
noncomputable def groundWinding (num : Text → Option ℝ) (data : Values) (phases : Text) : TrafoWinding where
  power := thousandAt num data "ratedcapacity".toList
  voltage := thousandAt num data "ratedvoltage".toList
  connection := groundConnection data
  resistance := none
  phases := phases.map fun p => (p, none)

/-- reactance, windings and load tap changer, by the type of the transformer: ditto/readers/cyme/read.py:4645-4971 -/
noncomputable def windingsOf (num : Text → Option ℝ) (int : Text → Option ℤ) (twos grounds : List (Text × Values)) (feeder phases : Text)
    (settings : Values) (type : Text) : Py (List ℝ × List TrafoWinding × Option ReadLtc) :=
  if type = "three_winding_transformer".toList ∨ type = "three_winding_auto_transformer".toList then
    .ok ([], [threeWinding num int settings phases "primary".toList, threeWinding num int settings phases "secondary".toList,
      threeWinding num int settings phases "tertiary".toList], none)
  else if type = "transformer".toList then twoWindings num twos feeder phases settings
  else if type = "grounding_transformer".toList then
    match groundData grounds settings with
    | .error e => .error e
    | .ok data => .ok ([], [groundWinding num data phases, groundWinding num data phases], none)
  else .ok ([], [], none)

/-- the position: ditto/readers/cyme/read.py:4635-4643 -/
def trafoPosition (num : Text → Option ℝ) (settings : Values) : List (ℝ × ℝ) :=
  match floatAt num settings "coordx".toList, floatAt num settings "coordy".toList with
  | .ok x, .ok y => [(x, y)]
  | _, _ => []

/-- The transformer of a row, and its load tap changer: ditto/readers/cyme/read.py:4582-4974. -/
noncomputable def trafoOf (num : Text → Option ℝ) (int : Text → Option ℤ) (secs : List (Text × Values)) (feeders : List (Text × Text))
    (twos grounds : List (Text × Values)) (key : Text) (settings : Values) : Py (ReadTrafo × Option ReadLtc) :=
  match getEntry (rowSection key) feeders with
  | none => .error .keyError
  | some feeder =>
    match phasedSection secs (rowSection key) with
    | .error e => .error e
    | .ok ends =>
      match getEntry "phase".toList ends, getEntry "type".toList settings with
      | some phases, some type =>
        match windingsOf num int twos grounds feeder phases settings type with
        | .error e => .error e
        | .ok (reactances, windings, ltc) => .ok ({
            name := sectionName "Trans_".toList settings
            feeder := feeder
            start := getEntry "fromnodeid".toList ends
            stop := getEntry "tonodeid".toList ends
            positions := trafoPosition num settings
            reactances := reactances
            windings := windings }, ltc)
      | _, _ => .error .keyError

/-- ditto/readers/cyme/read.py:4580-4977 -/
noncomputable def allTrafos (num : Text → Option ℝ) (int : Text → Option ℤ) (secs : List (Text × Values)) (feeders : List (Text × Text))
    (twos grounds : List (Text × Values)) : List (Text × Values) → Py (List (ReadTrafo × Option ReadLtc))
  | [] => .ok []
  | p :: settings =>
    match trafoOf num int secs feeders twos grounds p.1 p.2 with
    | .error e => .error e
    | .ok t =>
      match allTrafos num int secs feeders twos grounds settings with
      | .error e => .error e
      | .ok ts => .ok (t :: ts)

/-- `parse_transformers`: ditto/readers/cyme/read.py:4166-4979. The load tap changers, which are other objects of the model, stand beside their
transformers. Not represented: `section_duplicates`. -/
noncomputable def parseTrafos (num : Text → Option ℝ) (int : Text → Option ℤ) (secs : List (Text × Values)) (feeders : List (Text × Text))
    (network equipment : List Text) : Py (List (ReadTrafo × Option ReadLtc)) :=
  match readShared trafoSettingQueries network with
  | .error e => .error e
  | .ok settings =>
    match readMany trafoQueries equipment with
    | .error e => .error e
    | .ok ds =>
      match ds with
      | [_, grounds, _, _, twos] => allTrafos num int secs feeders twos grounds settings
      | _ => .error .valueError

end Ditto.Cyme
