import Verif.Model.CymeLines
import Mathlib.Algebra.Order.Field.Basic

/-! Photovoltaic systems and storages of CYME files: `parse_dg` of ditto/readers/cyme/read.py. Numbers are of an ordered field (exact arithmetic,
no `nan`; the infinite number that stands for a missing power is a missing value here). -/
namespace Ditto.Cyme
open Ditto Glm

/-- a table whose rows get the entry `type` -/
def typedOf (headers attrs : List String) (mapping : List (String × Nat)) (type : String) : Query :=
  { equipmentOf headers attrs mapping with info := [("type".toList, type.toList)] }

/-- ditto/readers/cyme/read.py:277, 5920-5930, 6025-6043 -/
def converterQuery : Query :=
  typedOf ["[CONVERTER]"] ["devicenumber", "devicetype", "converterrating", "activepowerrating", "reactivepowerrating", "minimumpowerfactor",
      "powerfalllimit", "powerriselimit", "risefallunit"]
    [("devicenumber", 0), ("devicetype", 1), ("converterrating", 2), ("activepowerrating", 3), ("reactivepowerrating", 4), ("minimumpowerfactor", 5),
      ("powerfalllimit", 23), ("powerriselimit", 24), ("risefallunit", 25)] "converter"

/-- ditto/readers/cyme/read.py:278, 5932-5943, 6051-6068 -/
def controlQuery : Query :=
  typedOf ["[CONVERTER CONTROL SETTING]"] ["devicenumber", "devicetype", "controltype", "fixedvarinjection", "injectionreference",
      "convertercontrolid", "powerreference", "powerfactor"]
    [("devicenumber", 0), ("devicetype", 1), ("controlindex", 2), ("timetriggerindex", 3), ("controltype", 4), ("fixedvarinjection", 5),
      ("injectionreference", 6), ("convertercontrolid", 7), ("powerreference", 8), ("powerfactor", 9)] "converter_settings"

/-- ditto/readers/cyme/read.py:279-282, 5945-5952, 6076-6084 -/
def photovoltaicQuery : Query :=
  typedOf ["[PHOTOVOLTAIC SETTINGS]", "[ELECTRONIC CONVERTER GENERATOR SETTING]"] ["sectionid", "devicenumber", "eqphase", "ambienttemperature"]
    [("sectionid", 0), ("location", 1), ("devicenumber", 2), ("equipmentid", 6), ("eqphase", 7), ("ambienttemperature", 11)] "photovoltaic_settings"

/-- ditto/readers/cyme/read.py:285, 5982-5990, 6092-6108 -/
def storageSettingQuery : Query :=
  typedOf ["[BESS SETTINGS]"] ["sectionid", "devicenumber", "equipmentid", "phase", "maximumsoc", "minimumsoc", "initialsoc"]
    [("sectionid", 0), ("devicenumber", 2), ("equipmentid", 6), ("phase", 7), ("maximumsoc", 10), ("minimumsoc", 11), ("initialsoc", 16)]
    "bess_settings"

/-- ditto/readers/cyme/read.py:283, 5992-5997, 6116-6129 -/
def dynamicsQuery : Query :=
  typedOf ["[LONG TERM DYNAMICS CURVE EXT]"] ["devicenumber", "devicetype", "adjustmentsettings", "powercurvemodel"]
    [("devicenumber", 0), ("devicetype", 1), ("adjustmentsettings", 2), ("powercurvemodel", 3)] "long_term_dynamics"

/-- ditto/readers/cyme/read.py:284, 5999-6005, 6137-6151 -/
def generationQuery : Query :=
  typedOf ["[DGGENERATIONMODEL]"] ["devicenumber", "devicetype", "activegeneration", "powerfactor", "loadmodelname"]
    [("devicenumber", 0), ("devicetype", 1), ("loadmodelname", 2), ("activegeneration", 3), ("powerfactor", 4)] "dg_generation_model"

/-- ditto/readers/cyme/read.py:286, 5973-5980, 6171-6185 -/
def storageQuery : Query :=
  equipmentOf ["[BESS]"] ["id", "ratedstorageenergy", "maxchargingpower", "maxdischargingpower", "chargeefficiency", "dischargeefficiency"]
    [("id", 0), ("ratedstorageenergy", 1), ("maxchargingpower", 2), ("maxdischargingpower", 3), ("chargeefficiency", 4), ("dischargeefficiency", 5)]

/-- A `Photovoltaic`: ditto/models/photovoltaic.py:21-126. `device` is its key in `api_photovoltaics`. Not represented are attributes that the reader
sets though the class does not have them: `min_powerfactor` (the class has `min_power_factor`) and `watt_powerfactor_curve` (the class has
`wattpowerfactor_curve`). -/
structure DgPv (N : Type) where
  name : Text
  device : Text
  feeder : Text
  node : Option Text := none
  temperature : Option N := none
  phases : Text := []
  active : Option N := none
  powerFactor : N
  rated : Option N := none
  reactive : Option N := none
  fall : Option N := none
  rise : Option N := none
  control : Option Text := none
  injection : N
  voltvarCurve : Text := "DEFAULT VOLT-VAR".toList
  voltwattCurve : Text := "DEFAULT VOLT-WATT".toList
deriving DecidableEq

/-- A `Storage` with its phases and their powers: ditto/models/storage.py:18-115. Not represented are attributes that the reader sets though the
class does not have them: `chargeefficiency` and `dischargeefficiency` (the class has `charging_efficiency` and `discharging_efficiency`). -/
structure DgStorage (N : Type) where
  name : Text
  device : Text
  feeder : Text
  node : Option Text := none
  phases : List (Char × Option N) := []
  energy : Option N := none
  reserve : Option N := none
  stored : Option N := none
  rated : Option N := none
  reactive : Option N := none
  minPowerFactor : Option N := none
deriving DecidableEq

/-- `try: x = f(float(d[k])) except: pass` -/
def keepOr {N A : Type} (num : Text → Option N) (d : Values) (k : String) (f : N → A) (old : A) : A := orElse old ((floatAt num d k.toList).map f)

/-- `self.section_phase_mapping[section]["fromnodeid"]`, or nothing after an exception: ditto/readers/cyme/read.py:6220-6225, 6309-6314 -/
def firstNode (secs : List (Text × Values)) (key : Text) : Option Text :=
  match getEntry (lower key) secs with
  | none => none
  | some s => getEntry "fromnodeid".toList s

/-- A photovoltaic system: ditto/readers/cyme/read.py:6187-6225. -/
def buildPv {N : Type} [Field N] (num : Text → Option N) (secs : List (Text × Values)) (feeders : List (Text × Text)) (e : Text × Values) : Py (DgPv N) :=
  match getEntry "devicenumber".toList e.2 with
  | none => .error .valueError
  | some d =>
    match getEntry (lower e.1) feeders with
    | none => .error .valueError
    | some feeder =>
      .ok { name := "PV_".toList ++ lower d, device := lower d, feeder, node := firstNode secs e.1
            temperature := keepOr num e.2 "ambienttemperature" some none
            phases := match getEntry "eqphase".toList e.2 with | none => [] | some p => p
            powerFactor := 1, injection := 100 }

/-- the phases of a storage: ditto/readers/cyme/read.py:6245-6254. `phase_mapping` (387-404) compares the text with numbers, which fails, and so
takes its letters. -/
def storagePhases (settings : Values) : Text :=
  match getEntry "phase".toList settings with
  | some p => p
  | none => ['A', 'B', 'C']

/-- one of the powers: ditto/readers/cyme/read.py:6283-6288. Nothing stands for the infinite number. -/
def powerLimit {N : Type} (num : Text → Option N) (d : Values) (k : String) : Py (Option N) :=
  match getEntry k.toList d with
  | none => .ok none
  | some _ => (floatAt num d k.toList).map some

/-- the smaller one, nothing if both are infinite -/
def smaller {N : Type} [LinearOrder N] : Option N → Option N → Option N
  | some a, some b => some (min a b)
  | some a, none => some a
  | none, b => b

/-- the power of each of `n` phases: ditto/readers/cyme/read.py:6282-6295 -/
def averagePower {N : Type} [Field N] [LinearOrder N] (num : Text → Option N) (d : Values) (n : Nat) : Option N :=
  match powerLimit num d "maxchargingpower" with
  | .error _ => none
  | .ok a =>
    match powerLimit num d "maxdischargingpower" with
    | .error _ => none
    | .ok b => (smaller a b).map fun p => p * 1000 / (n : N)

/-- The data of the equipment: ditto/readers/cyme/read.py:6258-6264. -/
def storageData (bess : List (Text × Values)) (settings : Values) : Option Values :=
  match getEntry "equipmentid".toList settings with
  | none => none
  | some k => getEntry k bess

/-- the energy, and the power of each of `n` phases: ditto/readers/cyme/read.py:6263-6295 -/
def storageNumbers {N : Type} [Field N] [LinearOrder N] (num : Text → Option N) (data : Option Values) (n : Nat) : Option N × Option N :=
  match data with
  | none => (none, none)
  | some d => (keepOr num d "ratedstorageenergy" some none, averagePower num d n)

/-- the energy that is stored: ditto/readers/cyme/read.py:6302-6307. Without a rated energy the product raises `TypeError`. -/
def storedEnergy {N : Type} [Field N] (num : Text → Option N) (settings : Values) (energy : Option N) : Option N :=
  match energy with
  | none => none
  | some r => keepOr num settings "initialsoc" (fun x => some (x * r / 100)) none

/-- A storage: ditto/readers/cyme/read.py:6231-6314. The reserve is `maximumsoc` (6298). -/
def buildStorage {N : Type} [Field N] [LinearOrder N] (num : Text → Option N) (secs : List (Text × Values)) (feeders : List (Text × Text))
    (bess : List (Text × Values)) (e : Text × Values) : Py (DgStorage N) :=
  match getEntry "devicenumber".toList e.2 with
  | none => .error .valueError
  | some d =>
    match getEntry (lower e.1) feeders with
    | none => .error .valueError
    | some feeder =>
      let numbers := storageNumbers num (storageData bess e.2) (storagePhases e.2).length
      .ok { name := "BESS_".toList ++ lower d, device := lower d, feeder, node := firstNode secs e.1
            phases := (storagePhases e.2).map fun p => (p, numbers.2), energy := numbers.1
            reserve := keepOr num e.2 "maximumsoc" some none, stored := storedEnergy num e.2 numbers.1 }

/-- Change the object that a dictionary has for a name: the last of those with this name. Nothing if there is none. -/
def updateLast {A : Type} (key : A → Text) (name : Text) (f : A → A) : List A → Option (List A)
  | [] => none
  | a :: as =>
    match updateLast key name f as with
    | some r => some (a :: r)
    | none => if key a = name then some (f a :: as) else none

/-- `settings["loadmodelname"].lower() == "default"`: ditto/readers/cyme/read.py:6327-6330 -/
def isDefault (r : Values) : Bool :=
  match getEntry "loadmodelname".toList r with
  | none => false
  | some t => lower t = "default".toList

/-- a row of the generation models: ditto/readers/cyme/read.py:6326-6342 -/
def generationStep {N : Type} [Field N] (num : Text → Option N) (r : Values) (pv : DgPv N) : DgPv N :=
  if isDefault r then
    { pv with
      active := keepOr num r "activegeneration" (fun x => some (x * 1000)) pv.active
      powerFactor := keepOr num r "powerfactor" (fun x => x / 100) pv.powerFactor }
  else pv

/-- a converter of a photovoltaic system: ditto/readers/cyme/read.py:6350-6376 -/
def converterPv {N : Type} [Field N] (num : Text → Option N) (r : Values) (pv : DgPv N) : DgPv N :=
  { pv with
    rated := keepOr num r "activepowerrating" (fun x => some (x * 1000)) pv.rated
    reactive := keepOr num r "reactivepowerrating" (fun x => some (x * 1000)) pv.reactive
    fall := keepOr num r "powerfalllimit" some pv.fall
    rise := keepOr num r "powerriselimit" some pv.rise }

/-- a converter of a storage: ditto/readers/cyme/read.py:6379-6395 -/
def converterStorage {N : Type} [Field N] (num : Text → Option N) (r : Values) (s : DgStorage N) : DgStorage N :=
  { s with
    rated := keepOr num r "activepowerrating" (fun x => some (x * 1000)) s.rated
    reactive := keepOr num r "reactivepowerrating" (fun x => some (x * 1000)) s.reactive
    minPowerFactor := keepOr num r "minimumpowerfactor" (fun x => some (x / 100)) s.minPowerFactor }

/-- the types of control by their codes: ditto/readers/cyme/read.py:6405-6418 -/
def controlCodes : List (Text × Text) :=
  [("1".toList, "voltvar_vars_over_watts".toList), ("0".toList, "voltvar_watts_over_vars".toList), ("2".toList, "voltvar_fixedvars".toList),
    ("3".toList, "voltvar_novars".toList), ("5".toList, "voltwatt".toList), ("6".toList, "watt_powerfactor".toList), ("10".toList, "powerfactor".toList)]

/-- the type of control: ditto/readers/cyme/read.py:6403-6420 -/
def controlAfter (r : Values) (old : Option Text) : Option Text :=
  match getEntry "controltype".toList r with
  | none => old
  | some c =>
    match getEntry c controlCodes with
    | none => old
    | some t => some t

/-- `api_photovoltaic.voltvar_curve = curve` in a `try`: a number is assigned to a trait `Unicode`, which raises a `TraitError`:
ditto/readers/cyme/read.py:6428-6440, ditto/models/photovoltaic.py:89-100. -/
def assignCurve {N : Type} (num : Text → Option N) (r : Values) (applies : Bool) (old : Text) : Text :=
  match floatAt num r "convertercontrolid".toList with
  | .error _ => old
  | .ok _ => if applies then orElse old (.error .traitError) else old

/-- a row of the settings of the converters: ditto/readers/cyme/read.py:6402-6446 -/
def controlStep {N : Type} [Field N] (num : Text → Option N) (r : Values) (pv : DgPv N) : DgPv N :=
  let control := controlAfter r pv.control
  { pv with
    control
    injection := keepOr num r "fixedvarinjection" id pv.injection
    voltvarCurve := assignCurve num r (control = some "voltvar_watts_over_vars".toList ∨ control = some "voltvar_vars_over_watts".toList) pv.voltvarCurve
    voltwattCurve := assignCurve num r (control = some "voltwatt".toList) pv.voltwattCurve
    powerFactor := keepOr num r "powerfactor" (fun x => x / 100) pv.powerFactor }

/-- all generation models: ditto/readers/cyme/read.py:6320-6342 -/
def allGenerations {N : Type} [Field N] (num : Text → Option N) : List (Text × Values) → List (DgPv N) → Py (List (DgPv N))
  | [], pvs => .ok pvs
  | r :: rows, pvs =>
    match updateLast DgPv.device (rowSection r.1) (generationStep num r.2) pvs with
    | none => .error .keyError
    | some pvs' => allGenerations num rows pvs'

/-- all converters: ditto/readers/cyme/read.py:6344-6395 -/
def allConverters {N : Type} [Field N] (num : Text → Option N) : List (Text × Values) → List (DgPv N) × List (DgStorage N) →
    List (DgPv N) × List (DgStorage N)
  | [], s => s
  | r :: rows, s =>
    match updateLast DgPv.device (rowSection r.1) (converterPv num r.2) s.1 with
    | some pvs => allConverters num rows (pvs, s.2)
    | none =>
      match updateLast DgStorage.device (rowSection r.1) (converterStorage num r.2) s.2 with
      | some sts => allConverters num rows (s.1, sts)
      | none => allConverters num rows s

/-- all settings of converters: ditto/readers/cyme/read.py:6397-6446 -/
def allControls {N : Type} [Field N] (num : Text → Option N) : List (Text × Values) → List (DgPv N) → List (DgPv N)
  | [], pvs => pvs
  | r :: rows, pvs =>
    match updateLast DgPv.device (rowSection r.1) (controlStep num r.2) pvs with
    | some pvs' => allControls num rows pvs'
    | none => allControls num rows pvs

/-- the dictionaries: ditto/readers/cyme/read.py:5912-5918 -/
structure DgTables where
  converters : List (Text × Values) := []
  controls : List (Text × Values) := []
  photovoltaics : List (Text × Values) := []
  storages : List (Text × Values) := []
  generations : List (Text × Values) := []
  bess : List (Text × Values) := []

/-- What is made of the dictionaries: ditto/readers/cyme/read.py:6187-6446. Not represented: `section_duplicates`. -/
def allDg {N : Type} [Field N] [LinearOrder N] (num : Text → Option N) (secs : List (Text × Values)) (feeders : List (Text × Text)) (t : DgTables) :
    Py (List (DgPv N) × List (DgStorage N)) :=
  match t.photovoltaics.mapM (buildPv num secs feeders) with
  | .error e => .error e
  | .ok pvs =>
    match t.storages.mapM (buildStorage num secs feeders t.bess) with
    | .error e => .error e
    | .ok sts =>
      match allGenerations num t.generations pvs with
      | .error e => .error e
      | .ok pvs' =>
        let r := allConverters num t.converters (pvs', sts)
        .ok (allControls num t.controls r.1, r.2)

/-- `parse_dg`: ditto/readers/cyme/read.py:5908-6446 -/
def parseDg {N : Type} [Field N] [LinearOrder N] (num : Text → Option N) (secs : List (Text × Values)) (feeders : List (Text × Text))
    (network equipment : List Text) : Py (List (DgPv N) × List (DgStorage N)) :=
  match readMany [converterQuery, controlQuery, photovoltaicQuery, storageSettingQuery, dynamicsQuery, generationQuery] network with
  | .error e => .error e
  | .ok ds =>
    match readMany [storageQuery] equipment with
    | .error e => .error e
    | .ok es =>
      match ds, es with
      | [converters, controls, photovoltaics, storages, _, generations], [bess] =>
        allDg num secs feeders { converters, controls, photovoltaics, storages, generations, bess }
      | _, _ => .error .valueError

end Ditto.Cyme
