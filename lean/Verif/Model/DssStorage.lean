import Verif.Model.DssVoltages

/-! Storages and generators in OpenDSS files: `write_storages` of ditto/writers/opendss/write.py, `parse_storage` and `parse_generators` of
ditto/readers/opendss/read.py. -/
namespace Ditto.Dss
open Ditto

/-- ditto/models/phase_storage.py -/
structure PStorage (K : Type) where
  phase : Option String := none
  p : Option K := none
  q : Option K := none
deriving DecidableEq, Repr

/-- the attributes of a storage that are numbers and go through both programs unchanged -/
structure StorageRates (K : Type) where
  discharge : Option K := none
  charge : Option K := none
  effCharge : Option K := none
  effDischarge : Option K := none
  resistance : Option K := none
  reactance : Option K := none
  model : Option ℤ := none
deriving DecidableEq, Repr

/-- the attributes of a `Storage` that are not written -/
structure StorageRest (K : Type) where
  reactiveRating : Option K := none
  minPf : Option K := none
  yearly : Option String := none
  daily : Option String := none
  duty : Option String := none
  dischargeTrigger : Option K := none
  chargeTrigger : Option K := none
deriving DecidableEq, Repr

/-- ditto/models/storage.py. `phases`: `none` is `None`, a new storage has the empty list. -/
structure DStorage (K : Type) where
  name : Option String := some ""
  bus : Option String := none
  volt : Option K := none
  ratedPower : Option K := none
  activeRating : Option K := none
  pf : Option K := none
  ratedKWh : Option K := none
  storedKWh : Option K := none
  reserve : Option K := none
  state : Option String := none
  rates : StorageRates K := {}
  phases : Option (List (PStorage K)) := some []
  rest : StorageRest K := {}
deriving DecidableEq, Repr

/-- what is written for a storage; `none`: nothing. `bus`: name and numbers, a number `none` is the text "None". -/
structure StorageText (K : Type) where
  name : Option String := none
  phases : Option Nat := none
  kW : Option K := none
  pf : Option K := none
  bus : Option (String × List (Option Nat)) := none
  kV : Option K := none
  kVA : Option K := none
  kWRated : Option K := none
  kWhRated : Option K := none
  kWhStored : Option K := none
  state : String
  reserve : Option K := none
  rates : StorageRates K := {}
deriving DecidableEq, Repr

section
variable {K : Type} [Field K] [LinearOrder K]

/-- `sum` of numbers that are all known: the test before it and the sum: ditto/writers/opendss/write.py:1056-1057, 1061-1062 -/
def sumAll : List (Option K) → Option K
  | [] => some 0
  | none :: _ => none
  | some x :: xs => (sumAll xs).map (x + ·)

/-- ditto/writers/opendss/write.py:1063-1065 -/
def storagePf (sqrt : K → K) (p q : K) : Option K :=
  if q ≠ 0 ∧ p ≠ 0 then some (p / sqrt (p ^ 2 + q ^ 2)) else none

/-- number of phases: ditto/writers/opendss/write.py:1048-1053. The comparison `None < 300` raises `TypeError`. -/
def storagePhases (volt : Option K) (ps : Option (List (PStorage K))) : Py (Option Nat) :=
  match ps with
  | none => .ok none
  | some ps =>
    match volt with
    | none => .error .typeError
    | some v => .ok (some (if v < 300 then 1 else ps.length))

/-- active power: ditto/writers/opendss/write.py:1055-1058 -/
def storageP (ps : Option (List (PStorage K))) : Option K := ps.bind fun ps => sumAll (ps.map (·.p))

/-- reactive power: ditto/writers/opendss/write.py:1060-1062 -/
def storageQ (ps : Option (List (PStorage K))) : Option K := ps.bind fun ps => sumAll (ps.map (·.q))

/-- ditto/writers/opendss/write.py:1067-1073. The voltage of a storage without is looked up at its bus: `nodeVolt` is
`model[...].nominal_voltage`. -/
def storageVolt (nodeVolt : String → Py (Option K)) (bus : Option String) (volt : Option K) : Py (Option K) :=
  match bus, volt with
  | some b, none => nodeVolt b
  | _, v => .ok v

/-- ditto/writers/opendss/write.py:1074-1081 -/
def storageBus (bus : Option String) (ps : Option (List (PStorage K))) : Option (String × List (Option Nat)) :=
  bus.map fun b => (cleanName b, (ps.getD []).map fun p => p.phase.bind toDssPhase)

/-- ditto/writers/opendss/write.py:1102-1108; division by zero raises `ZeroDivisionError` -/
def storageKVA (volt rating pf : Option K) : Py (Option K) :=
  match volt, rating with
  | some _, some a => if pf = some 0 then .error .zeroDivisionError else .ok (some (a / |pf.getD 1| / 1000))
  | _, _ => .ok none

/-- the text of one storage: ditto/writers/opendss/write.py:1044-1172 -/
def storageText (sqrt : K → K) (nodeVolt : String → Py (Option K)) (s : DStorage K) : Py (StorageText K) :=
  match storagePhases s.volt s.phases with
  | .error e => .error e
  | .ok n =>
    match storageVolt nodeVolt s.bus s.volt with
    | .error e => .error e
    | .ok v =>
      match storageKVA v s.activeRating s.pf with
      | .error e => .error e
      | .ok kva => .ok
        { name := s.name
          phases := n
          kW := (storageP s.phases).map (· / 1000)
          pf := (storageP s.phases).bind fun p => (storageQ s.phases).bind fun q => storagePf sqrt p q
          bus := storageBus s.bus s.phases
          kV := v.map (· / 1000)
          kVA := kva
          kWRated := s.ratedPower.map (· / 1000)
          kWhRated := s.ratedKWh.map (· / 1000)
          kWhStored := s.storedKWh.map (· / 1000)
          state := s.state.getD "IDLING"
          reserve := s.reserve.map (· / 1000)
          rates := s.rates }

end

/-! ### Reader -/

/-- what OpenDSS reports of a storage. `key` is the name with the class before it; `bus` the text of the bus; numbers that are missing or cannot
be cast are `none`. `phases` is always a number. -/
structure StorageData (K : Type) where
  key : String
  enabled : Bool := true
  bus : Option String := none
  kv : Option K := none
  kWRated : Option K := none
  kWhRated : Option K := none
  kWhStored : Option K := none
  reserve : Option K := none
  state : Option String := none
  rates : StorageRates K := {}
  rest : StorageRest K := {}
  phases : Nat
  kW : Option K := none
  kvar : Option K := none
deriving DecidableEq, Repr

/-- a storage that was read: ditto/readers/opendss/read.py:2613-2758. The values `reactive_rating` and `min_powerfactor` are not set; the
phases of the phase storages are not set. -/
def readStorage {K : Type} [Field K] (d : StorageData K) : DStorage K :=
  { name := some d.key
    bus := d.bus
    volt := d.kv.map (· * 1000)
    ratedPower := d.kWRated.map (· * 1000)
    ratedKWh := d.kWhRated
    storedKWh := d.kWhStored
    reserve := d.reserve
    state := d.state
    rates := d.rates
    phases := some (List.replicate d.phases { p := d.kW.map (· / d.phases), q := d.kvar.map (· / d.phases) })
    rest := { d.rest with reactiveRating := none, minPf := none } }

/-- `parse_storage`: ditto/readers/opendss/read.py:2603-2758 -/
def readStorages {K : Type} [Field K] (ds : List (StorageData K)) : List (DStorage K) :=
  (ds.filter (·.enabled)).map readStorage

/-! ### Generators -/

/-- what OpenDSS reports of a generator; `phases` is the text of the number of phases -/
structure GenData (K : Type) where
  key : String
  enabled : Bool := true
  bus : Option (List Char) := none
  kv : Option K := none
  pf : Option K := none
  kVA : Option K := none
  phases : List Char
deriving DecidableEq, Repr

/-- a `Generator` that was read -/
structure RGen (K : Type) where
  bus : Option String := none
  volt : Option K := none
  pf : Option K := none
  ratedPower : Option K := none
  phases : List (Option String) := []
deriving DecidableEq, Repr

/-- `phase_mapping` of the reader for characters: ditto/readers/opendss/read.py:155-184 -/
def charPhase (c : Char) : Option String :=
  if c = '1' ∨ c = 'A' then some "A" else if c = '2' ∨ c = 'B' then some "B" else if c = '3' ∨ c = 'C' then some "C" else none

/-- a generator: ditto/readers/opendss/read.py:2776-2849, without name, `forced_on`, voltage limits and model. `map` runs over the characters of
the text. `b.split(".")[0]` is the text up to the first dot. -/
def readGen {K : Type} [Field K] (d : GenData K) : RGen K :=
  { bus := d.bus.map fun b => String.ofList (b.takeWhile fun c => decide (c ≠ '.'))
    volt := d.kv.map (· * 1000)
    pf := d.pf
    ratedPower := d.kVA.map (· * 1000)
    phases := d.phases.map charPhase }

/-- `parse_generators`: ditto/readers/opendss/read.py:2761-2853. Disabled ones are not skipped. -/
def readGens {K : Type} [Field K] (ds : List (GenData K)) : List (RGen K) := ds.map readGen

end Ditto.Dss
