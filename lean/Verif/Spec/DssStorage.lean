import Verif.Model.DssStorage

namespace Ditto.Spec
open Ditto Ditto.Dss

/-- the text of a bus with its numbers -/
def busText (b : String × List (Option Nat)) : String :=
  b.2.foldl (fun s n => s ++ "." ++ (match n with | some n => toString n | none => "None")) b.1

/-- the rates, efficiencies and impedances of a storage -/
def rateFields {K : Type} : List (StorageRates K → Option K) :=
  [(·.discharge), (·.charge), (·.effCharge), (·.effDischarge), (·.resistance), (·.reactance)]

/-- What OpenDSS reports of a storage that was written: the values as they were written, and the name with the class before it. -/
structure ReportsStorage {K : Type} (t : StorageText K) (d : StorageData K) : Prop where
  key : ∀ n, t.name = some n → d.key = "storage." ++ n
  enabled : d.enabled = true
  phases : ∀ n, t.phases = some n → d.phases = n
  bus : ∀ b, t.bus = some b → d.bus = some (busText b)
  kV : ∀ v, t.kV = some v → d.kv = some v
  kW : ∀ v, t.kW = some v → d.kW = some v
  kWRated : ∀ v, t.kWRated = some v → d.kWRated = some v
  kWhRated : ∀ v, t.kWhRated = some v → d.kWhRated = some v
  kWhStored : ∀ v, t.kWhStored = some v → d.kWhStored = some v
  state : d.state = some t.state
  reserve : ∀ v, t.reserve = some v → d.reserve = some v
  rates : ∀ f ∈ rateFields, f t.rates ≠ none → f d.rates = f t.rates
  model : t.rates.model ≠ none → d.rates.model = t.rates.model

end Ditto.Spec
