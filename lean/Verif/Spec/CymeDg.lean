import Verif.Spec.CymeLines
import Verif.Model.CymeDg

/-! What photovoltaic systems and storages of CYME files are, for C119. -/
namespace Ditto.Cyme.Spec
open Ditto Glm

/-- the rows of a table for a device, in their order; a key is the name of a device, in any case, with stars at its end -/
inductive RowsFor (dev : Text) : List (Text × Values) → List Values → Prop
  | nil : RowsFor dev [] []
  | here {k : Text} {v : Values} {t : List (Text × Values)} {rows : List Values} : SectionOf k dev → RowsFor dev t rows →
      RowsFor dev ((k, v) :: t) (v :: rows)
  | other {k s : Text} {v : Values} {t : List (Text × Values)} {rows : List Values} : SectionOf k s → s ≠ dev → RowsFor dev t rows →
      RowsFor dev ((k, v) :: t) rows

/-- the value is the last one that is there, or the one at the beginning if there is none -/
inductive LastOf {A : Type} (init : Option A) : List (Option A) → Option A → Prop
  | last {before after : List (Option A)} {a : A} : (∀ x ∈ after, x = none) → LastOf init (before ++ some a :: after) (some a)
  | init {l : List (Option A)} : (∀ x ∈ l, x = none) → LastOf init l init

/-- a row of the generation models for the default load model -/
def DefaultModel (r : Values) : Prop := ∃ t, getEntry "loadmodelname".toList r = some t ∧ t.map Char.toLower = "default".toList

/-- the number of a row of the default load model -/
inductive ModelNumber {N : Type} (num : Text → Option N) (k : String) (f : N → N) (r : Values) : Option N → Prop
  | default : DefaultModel r → ModelNumber num k f r ((numberIn num r k.toList).map f)
  | other : ¬DefaultModel r → ModelNumber num k f r none

/-- types of control by their codes -/
def controlNames : List (String × String) :=
  [("0", "voltvar_watts_over_vars"), ("1", "voltvar_vars_over_watts"), ("2", "voltvar_fixedvars"), ("3", "voltvar_novars"), ("5", "voltwatt"),
    ("6", "watt_powerfactor"), ("10", "powerfactor")]

/-- the type of control that a row has -/
inductive ControlIn (r : Values) : Option Text → Prop
  | known {c t : String} : getEntry "controltype".toList r = some c.toList → (c, t) ∈ controlNames → ControlIn r (some t.toList)
  | none : (∀ c ∈ controlNames, getEntry "controltype".toList r ≠ some c.1.toList) → ControlIn r none

/-- kilowatts are given, watts are kept -/
def kilo {N : Type} [Field N] (x : N) : N := x * 1000

/-- per cent are given -/
def percent {N : Type} [Field N] (x : N) : N := x / 100

/-- a photovoltaic system with the rows of its section and of its device -/
structure PvOk {N : Type} [Field N] (num : Text → Option N) (secs : List (Text × Values)) (feeders : List (Text × Text)) (t : DgTables)
    (e : Text × Values) (pv : DgPv N) : Prop where
  device : ∃ d, getEntry "devicenumber".toList e.2 = some d ∧ pv.device = d.map Char.toLower
  name : pv.name = "PV_".toList ++ pv.device
  feeder : getEntry (e.1.map Char.toLower) feeders = some pv.feeder
  node : pv.node = (getEntry (e.1.map Char.toLower) secs).bind (getEntry "fromnodeid".toList)
  temperature : pv.temperature = numberIn num e.2 "ambienttemperature".toList
  phases : ∀ p, getEntry "eqphase".toList e.2 = some p → pv.phases = p
  numbers : ∃ gs cs ks : List Values, RowsFor pv.device t.generations gs ∧ RowsFor pv.device t.converters cs ∧ RowsFor pv.device t.controls ks ∧
    (∃ ns, List.Forall₂ (ModelNumber num "activegeneration" kilo) gs ns ∧ LastOf none ns pv.active) ∧
    (∃ ns, List.Forall₂ (ModelNumber num "powerfactor" percent) gs ns ∧
      LastOf (some 1) (ns ++ ks.map fun r => (numberIn num r "powerfactor".toList).map percent) (some pv.powerFactor)) ∧
    LastOf none (cs.map fun r => (numberIn num r "activepowerrating".toList).map kilo) pv.rated ∧
    LastOf none (cs.map fun r => (numberIn num r "reactivepowerrating".toList).map kilo) pv.reactive ∧
    LastOf none (cs.map fun r => numberIn num r "powerfalllimit".toList) pv.fall ∧
    LastOf none (cs.map fun r => numberIn num r "powerriselimit".toList) pv.rise ∧
    LastOf (some 100) (ks.map fun r => numberIn num r "fixedvarinjection".toList) (some pv.injection) ∧
    ∃ xs, List.Forall₂ ControlIn ks xs ∧ LastOf none xs pv.control

/-- the power of a storage: the smaller one of the powers for charging and discharging; one column may be missing -/
inductive PowerIn {N : Type} [LinearOrder N] (num : Text → Option N) (data : Values) : N → Prop
  | both {a b : N} : numberIn num data "maxchargingpower".toList = some a → numberIn num data "maxdischargingpower".toList = some b →
      PowerIn num data (min a b)
  | charging {a : N} : numberIn num data "maxchargingpower".toList = some a → getEntry "maxdischargingpower".toList data = none → PowerIn num data a
  | discharging {b : N} : getEntry "maxchargingpower".toList data = none → numberIn num data "maxdischargingpower".toList = some b →
      PowerIn num data b

/-- a storage with the rows of its section, of its equipment and of its device -/
structure StorageOk {N : Type} [Field N] [LinearOrder N] (num : Text → Option N) (secs : List (Text × Values)) (feeders : List (Text × Text))
    (t : DgTables) (e : Text × Values) (s : DgStorage N) : Prop where
  device : ∃ d, getEntry "devicenumber".toList e.2 = some d ∧ s.device = d.map Char.toLower
  name : s.name = "BESS_".toList ++ s.device
  feeder : getEntry (e.1.map Char.toLower) feeders = some s.feeder
  node : s.node = (getEntry (e.1.map Char.toLower) secs).bind (getEntry "fromnodeid".toList)
  phases : ∀ p, getEntry "phase".toList e.2 = some p ∨ (getEntry "phase".toList e.2 = none ∧ p = "ABC".toList) → s.phases.map (·.1) = p
  energy : ∀ k data, getEntry "equipmentid".toList e.2 = some k → getEntry k t.bess = some data →
    s.energy = numberIn num data "ratedstorageenergy".toList ∧
      ∀ p, PowerIn num data p → ∀ x ∈ s.phases, x.2 = some (p * 1000 / (s.phases.length : N))
  stored : ∀ x r, numberIn num e.2 "initialsoc".toList = some x → s.energy = some r → s.stored = some (x * r / 100)
  numbers : ∃ cs : List Values, RowsFor s.device t.converters cs ∧
    LastOf none (cs.map fun r => (numberIn num r "activepowerrating".toList).map kilo) s.rated ∧
    LastOf none (cs.map fun r => (numberIn num r "reactivepowerrating".toList).map kilo) s.reactive ∧
    LastOf none (cs.map fun r => (numberIn num r "minimumpowerfactor".toList).map percent) s.minPowerFactor

/-- the device of an entry, in lower case -/
def DeviceIs (e : Text × Values) (dev : Text) : Prop := ∃ d, getEntry "devicenumber".toList e.2 = some d ∧ dev = d.map Char.toLower

/-- all sections have a network, all entries a device, and the devices are different -/
structure DgEntries (feeders : List (Text × Text)) (entries : List (Text × Values)) (devices : List Text) : Prop where
  named : List.Forall₂ DeviceIs entries devices
  different : devices.Nodup
  network : ∀ e ∈ entries, ∃ f, getEntry (e.1.map Char.toLower) feeders = some f

/-- the keys of a table are names of devices with stars -/
def DeviceKeys (t : List (Text × Values)) : Prop := ∀ e ∈ t, ∃ s, SectionOf e.1 s

end Ditto.Cyme.Spec
