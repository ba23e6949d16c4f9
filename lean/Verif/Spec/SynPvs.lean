import Verif.Model.SynPvs
import Verif.Spec.SynLoads

/-! What a Synergi database says about photovoltaics. Only the types of tables and results are taken from the model. -/
namespace Ditto.Syn.Spec
open Ditto Glm Syn

/-- the type of a generator or customer is one of the two types of photovoltaics -/
def Solar (t : Text) : Prop := Same t "photovoltaic".toList ∨ Same t "photovoltaic 3p".toList

instance (t : Text) : Decidable (Solar t) := inferInstanceAs (Decidable (_ ∨ _))

section
variable {K : Type}

/-- the photovoltaics of a database: large customers, generators, generators with a device, and distributed generators -/
inductive Panel (K : Type) where
  | customer (c : PvCustRow K)
  | generator (g : GenRow K)
  | device (g : GenRow K) (d : GenDevRow K)
  | distributed (g : DGenRow K)

/-- the device with this name, if it is a photovoltaic -/
def solarDevice (devs : List (GenDevRow K)) (name : Text) : Option (GenDevRow K) :=
  match devs.find? fun d => Same d.name name with
  | none => none
  | some d => if Same d.kind "pv".toList then some d else none

/-- the photovoltaic of a generator, if it is one -/
def generatorPanel (devs : List (GenDevRow K)) (g : GenRow K) : Option (Panel K) :=
  if Solar g.genType then some (.generator g) else (solarDevice devs g.genType).map (.device g)

/-- the photovoltaics of the database -/
def panels (db : PvDb K) : List (Panel K) :=
  ((db.cust.filter fun c => Solar c.genType).map .customer) ++ db.gens.filterMap (generatorPanel db.devs) ++
    (db.dgens.filter fun g => (solarDevice db.devs g.genType).isSome).map .distributed

/-- the section of a photovoltaic -/
def Panel.sec : Panel K → Text
  | .customer c => c.sec
  | .generator g => g.sec
  | .device g _ => g.sec
  | .distributed g => g.sec

/-- the name of a photovoltaic; distributed generators have none, and get the one of their section -/
def Panel.label : Panel K → Text
  | .customer c => c.device
  | .generator g => g.id
  | .device g _ => g.id
  | .distributed g => g.sec

section
variable [Field K] [DecidableEq K]

/-- the active and reactive power of a phase in kW and kvar -/
def power (kw kvar : K × K × K) : Char → K × K
  | 'A' => (kw.1, kvar.1)
  | 'B' => (kw.2.1, kvar.2.1)
  | 'C' => (kw.2.2, kvar.2.2)
  | _ => (0, 0)

/-- the phases are the ones with active or reactive power, each one once -/
def PhasesAre (kw kvar : K × K × K) (ps : List Char) : Prop := ps.Nodup ∧ ∀ c, c ∈ ps ↔ power kw kvar c ≠ (0, 0)

/-- the phases of the section text, in upper case -/
def letters (t : Text) : List Char := t.map Char.toUpper

/-- no phase has reactive power only -/
def ActiveOnly (kw kvar : K × K × K) : Prop := (kw.1 = 0 → kvar.1 = 0) ∧ (kw.2.1 = 0 → kvar.2.1 = 0) ∧ (kw.2.2 = 0 → kvar.2.2 = 0)

/-- phases, powers and power factor of a photovoltaic of ditto; powers in W and var -/
def Rated : Panel K → SynPv K → Prop
  | .customer c, v => (ActiveOnly c.kw c.kvar → PhasesAre c.kw c.kvar v.phases) ∧ v.ratedPower = 1000 * three c.kw ∧
      v.reactiveRating = some (1000 * three c.kvar)
  | .generator g, v => PhasesAre g.kw g.kvar v.phases ∧ v.ratedPower = 1000 * three g.kw ∧ v.reactiveRating = some (1000 * three g.kvar)
  | .device g d, v => ((∀ c ∈ g.phases, c.isWhitespace = false) → v.phases = letters g.phases) ∧ v.ratedPower = 1000 * d.kw ∧
      v.powerFactor = some (g.pf / 100)
  | .distributed g, v => PhasesAre g.kw g.kvar v.phases ∧ v.ratedPower = 1000 * three g.kw ∧ v.activeRating = some (1000 * three g.kw) ∧
      v.reactiveRating = some (1000 * three g.kvar) ∧ v.control = some "powerfactor".toList ∧ v.powerFactor = some (g.pf / 100)

/-- the nominal voltage in V: the one of the lines at the node, if they have the same voltage and phases, or the one of the device, or the setting -/
def VoltageIs (rnd : K → K) (num : Text → Option K) (db : PvDb K) (s : SecRow) : Panel K → SynPv K → Prop
  | .device g d, v => (∀ c ∈ g.phases, c.isWhitespace = false) →
      v.voltage = if g.phases.length = 1 then rnd (1000 * d.kv / (1732 / 1000)) else 1000 * d.kv
  | .distributed g, v => v.voltage = 1000 * g.volt
  | _, v => ∀ x ph, (∀ t, IsLine db.skipped db.secs t → Touches t (shown s.toNode) → Kv num t x ∧ phasesOf t = ph) →
      v.voltage = loadVoltage rnd v.phases.length x ph

/-- the name: generators whose type says that they are photovoltaics only if it has no blanks -/
def NameIs : Panel K → SynPv K → Prop
  | .generator g, v => ' ' ∉ g.id → v.name = shown g.id
  | p, v => v.name = shown p.label

/-- the substation of the feeder; distributed generators have none -/
def SubstationIs (db : PvDb K) (s : SecRow) : Panel K → SynPv K → Prop
  | .distributed _, v => v.substation = none
  | _, v => ((∀ p ∈ db.feederTable, ∀ q ∈ db.feederTable, shown p.1 = shown q.1 → shown p.2 = shown q.2) →
      ∀ p ∈ db.feederTable, shown p.1 = shown s.feeder → v.substation = some (shown p.2)) ∧
      ((∀ p ∈ db.feederTable, shown p.1 ≠ shown s.feeder) → v.substation = none)

/-- `v` is the photovoltaic `p`, at the end of the section `s` -/
structure PvAt (rnd : K → K) (num : Text → Option K) (db : PvDb K) (p : Panel K) (s : SecRow) (v : SynPv K) : Prop where
  connecting : v.connecting = some (shown s.toNode)
  feeder : v.feeder = some (shown s.feeder)
  substation : SubstationIs db s p v
  voltage : VoltageIs rnd num db s p v

end
end
end Ditto.Syn.Spec
