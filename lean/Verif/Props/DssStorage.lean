import Verif.Spec.DssStorage
import Verif.Props.DssNodes
import Mathlib.Algebra.Order.Field.Basic
import Mathlib.Tactic.FieldSimp
import Mathlib.Tactic.Ring
import Mathlib.Tactic.Linarith

/-! C67: storages and generators in OpenDSS files. -/
namespace Ditto.Dss
open Ditto Ditto.Spec

section
variable {K : Type} [Field K] [LinearOrder K]

theorem storageText_inv {sqrt : K → K} {nv : String → Py (Option K)} {s : DStorage K} {t : StorageText K} (h : storageText sqrt nv s = .ok t) :
    ∃ n v kva, storagePhases s.volt s.phases = .ok n ∧ storageVolt nv s.bus s.volt = .ok v ∧ storageKVA v s.activeRating s.pf = .ok kva ∧ t =
      { name := s.name, phases := n, kW := (storageP s.phases).map (· / 1000),
        pf := (storageP s.phases).bind fun p => (storageQ s.phases).bind fun q => storagePf sqrt p q,
        bus := storageBus s.bus s.phases, kV := v.map (· / 1000), kVA := kva, kWRated := s.ratedPower.map (· / 1000),
        kWhRated := s.ratedKWh.map (· / 1000), kWhStored := s.storedKWh.map (· / 1000), state := s.state.getD "IDLING",
        reserve := s.reserve.map (· / 1000), rates := s.rates } := by
  unfold storageText at h
  split at h
  · exact absurd h (by simp)
  · rename_i n hn
    split at h
    · exact absurd h (by simp)
    · rename_i v hv
      split at h
      · exact absurd h (by simp)
      · rename_i kva hk
        exact ⟨n, v, kva, hn, hv, hk, (Except.ok.inj h).symm⟩

/-- A storage with a voltage and a power factor other than zero can be written. -/
theorem C67_written (sqrt : K → K) (nv : String → Py (Option K)) (s : DStorage K) (v : K) (hv : s.volt = some v) (hpf : s.pf ≠ some 0) :
    ∃ t, storageText sqrt nv s = .ok t := by
  have h1 : ∃ n, storagePhases s.volt s.phases = .ok n := by
    unfold storagePhases
    rw [hv]
    split <;> exact ⟨_, rfl⟩
  have h2 : storageVolt nv s.bus s.volt = .ok (some v) := by
    unfold storageVolt
    rw [hv]
    split
    · rename_i h; exact absurd h (by simp)
    · rename_i h; rfl
  have h3 : ∃ k, storageKVA (some v) s.activeRating s.pf = .ok k := by
    unfold storageKVA
    split
    · rw [if_neg hpf]; exact ⟨_, rfl⟩
    · exact ⟨_, rfl⟩
  obtain ⟨n, h1⟩ := h1
  obtain ⟨k, h3⟩ := h3
  unfold storageText
  rw [h1, h2]
  simp only
  rw [h3]
  exact ⟨_, rfl⟩

/-- A storage without voltage cannot be written, even if its bus has one. -/
theorem C67_unvolted_violated (sqrt : K → K) (nv : String → Py (Option K)) (s : DStorage K) (hv : s.volt = none) (hp : s.phases ≠ none) :
    storageText sqrt nv s = .error .typeError := by
  obtain ⟨ps, hp⟩ := Option.ne_none_iff_exists'.1 hp
  unfold storageText storagePhases
  rw [hp, hv]

/-- A power factor of zero with an active rating raises `ZeroDivisionError`. -/
theorem C67_zero_violated (sqrt : K → K) (nv : String → Py (Option K)) (s : DStorage K) (v a : K) (hv : s.volt = some v) (ha : s.activeRating = some a)
    (hpf : s.pf = some 0) : storageText sqrt nv s = .error .zeroDivisionError := by
  have h1 : ∃ n, storagePhases s.volt s.phases = .ok n := by
    unfold storagePhases
    rw [hv]
    split <;> exact ⟨_, rfl⟩
  obtain ⟨n, h1⟩ := h1
  have h2 : storageVolt nv s.bus s.volt = .ok (some v) := by
    unfold storageVolt
    rw [hv]
    split
    · rename_i h; exact absurd h (by simp)
    · rename_i h; rfl
  unfold storageText
  rw [h1, h2]
  simp only
  unfold storageKVA
  rw [ha, hpf]
  simp

variable [IsStrictOrderedRing K]

/-- Voltage, rated power, state, rates, efficiencies and impedances of a storage survive. Missing: the rest, see below. -/
theorem C67_storage_partial (sqrt : K → K) (nv : String → Py (Option K)) (s : DStorage K) (t : StorageText K) (d : StorageData K)
    (ht : storageText sqrt nv s = .ok t) (hd : ReportsStorage t d) :
    readStorages [d] = [readStorage d] ∧ (∀ v, s.volt = some v → (readStorage d).volt = some v) ∧
    (∀ x, s.ratedPower = some x → (readStorage d).ratedPower = some x) ∧ (∀ x, s.state = some x → (readStorage d).state = some x) ∧
    (∀ f ∈ rateFields, f s.rates ≠ none → f (readStorage d).rates = f s.rates) ∧
    (s.rates.model ≠ none → (readStorage d).rates.model = s.rates.model) ∧
    (∀ v ps, s.volt = some v → s.phases = some ps → ∃ ps', (readStorage d).phases = some ps' ∧ ps'.length = if v < 300 then 1 else ps.length) := by
  obtain ⟨n, v, kva, hn, hv, hk, rfl⟩ := storageText_inv ht
  refine ⟨by simp [readStorages, hd.enabled], fun x hx => ?_, fun x hx => ?_, fun x hx => ?_, hd.rates, hd.model, fun x ps hx hps => ?_⟩
  · have hvx : v = some x := by
      unfold storageVolt at hv
      rw [hx] at hv
      split at hv
      · rename_i h; exact absurd h (by simp)
      · exact (Except.ok.inj hv).symm
    have := hd.kV (x / 1000) (by simp [hvx])
    simp [readStorage, this]
  · have := hd.kWRated (x / 1000) (by simp [hx])
    simp [readStorage, this]
  · have := hd.state
    simp only [hx, Option.getD_some] at this
    simp [readStorage, this]
  · refine ⟨_, rfl, ?_⟩
    have hnn : n = some (if x < 300 then 1 else ps.length) := by
      unfold storagePhases at hn
      rw [hx, hps] at hn
      exact (Except.ok.inj hn).symm
    have := hd.phases _ hnn
    rw [List.length_replicate, this]

/-- The energies and the reserve shrink by a factor of a thousand each time: only zero survives. -/
theorem C67_energy_violated (sqrt : K → K) (nv : String → Py (Option K)) (s : DStorage K) (t : StorageText K) (d : StorageData K)
    (ht : storageText sqrt nv s = .ok t) (hd : ReportsStorage t d) (x : K) :
    (s.ratedKWh = some x → (readStorage d).ratedKWh = some (x / 1000) ∧ ((readStorage d).ratedKWh = s.ratedKWh ↔ x = 0)) ∧
    (s.storedKWh = some x → (readStorage d).storedKWh = some (x / 1000) ∧ ((readStorage d).storedKWh = s.storedKWh ↔ x = 0)) ∧
    (s.reserve = some x → (readStorage d).reserve = some (x / 1000) ∧ ((readStorage d).reserve = s.reserve ↔ x = 0)) := by
  obtain ⟨n, v, kva, hn, hv, hk, rfl⟩ := storageText_inv ht
  have hx : x / 1000 = x ↔ x = 0 := by
    constructor
    · intro h
      have := (div_eq_iff (show (1000 : K) ≠ 0 by norm_num)).1 h
      linarith
    · rintro rfl; simp
  refine ⟨fun h => ?_, fun h => ?_, fun h => ?_⟩
  · have := hd.kWhRated (x / 1000) (by simp [h])
    simp [readStorage, this, h, hx]
  · have := hd.kWhStored (x / 1000) (by simp [h])
    simp [readStorage, this, h, hx]
  · have := hd.reserve (x / 1000) (by simp [h])
    simp [readStorage, this, h, hx]

theorem sumAll_some : ∀ (xs : List K), sumAll (xs.map some) = some xs.sum := by
  intro xs
  induction xs with
  | nil => rfl
  | cons x xs ih => simp [sumAll, ih]

/-- The power of a storage, too, shrinks by a factor of a thousand. -/
theorem C67_power_violated (sqrt : K → K) (nv : String → Py (Option K)) (s : DStorage K) (t : StorageText K) (d : StorageData K)
    (ht : storageText sqrt nv s = .ok t) (hd : ReportsStorage t d) (ps : List (PStorage K)) (xs : List K) (hps : s.phases = some ps)
    (hne : ps ≠ []) (hp : ps.map (·.p) = xs.map some) :
    ∃ (ps' : List (PStorage K)) (ys : List K), (readStorage d).phases = some ps' ∧ ps'.map (·.p) = ys.map some ∧ ys.sum = xs.sum / 1000 := by
  obtain ⟨n, v, kva, hn, hv, hk, rfl⟩ := storageText_inv ht
  have hkw := hd.kW (xs.sum / 1000) (by simp [storageP, hps, hp, sumAll_some])
  have hpos : d.phases ≠ 0 := by
    have hlen : ps.length ≠ 0 := fun h => hne (List.length_eq_zero_iff.1 h)
    rw [hps] at hn
    cases hx : s.volt with
    | none => rw [hx] at hn; exact absurd hn (by simp [storagePhases])
    | some x =>
      rw [hx] at hn
      have := hd.phases _ (Except.ok.inj hn).symm
      rw [this]
      split
      · omega
      · exact hlen
  refine ⟨_, List.replicate d.phases (xs.sum / 1000 / d.phases), rfl, by simp [hkw], ?_⟩
  rw [List.sum_replicate, nsmul_eq_mul]
  have : (d.phases : K) ≠ 0 := Nat.cast_ne_zero.2 hpos
  field_simp

theorem sumAll_neg : ∀ (xs : List (Option K)), sumAll (xs.map (Option.map fun x => -x)) = (sumAll xs).map fun x => -x := by
  intro xs
  induction xs with
  | nil => simp [sumAll]
  | cons x xs ih =>
    cases x with
    | none => rfl
    | some x =>
      rw [List.map_cons, Option.map_some, sumAll, sumAll, ih]
      cases sumAll xs with
      | none => rfl
      | some y => simp [add_comm]

/-- The sign of the reactive power is not in the files. -/
theorem C67_sign_violated (sqrt : K → K) (nv : String → Py (Option K)) (s : DStorage K) :
    storageText sqrt nv { s with phases := s.phases.map (·.map fun p => { p with q := p.q.map fun x => -x }) } = storageText sqrt nv s := by
  have h1 : storagePhases s.volt (s.phases.map (·.map fun p => { p with q := p.q.map fun x => -x })) = storagePhases s.volt s.phases := by
    unfold storagePhases
    cases s.phases <;> simp
  have h2 : storageP (s.phases.map (·.map fun p => { p with q := p.q.map fun x => -x })) = storageP s.phases := by
    unfold storageP
    cases s.phases with
    | none => rfl
    | some ps => simp [Function.comp_def]
  have h3 : storageQ (s.phases.map (·.map fun p => { p with q := p.q.map fun x => -x })) = (storageQ s.phases).map fun x => -x := by
    unfold storageQ
    cases s.phases with
    | none => rfl
    | some ps =>
      simp only [Option.map_some, Option.bind_some]
      rw [← sumAll_neg, List.map_map, List.map_map]
      rfl
  have h4 : storageBus s.bus (s.phases.map (·.map fun p => { p with q := p.q.map fun x => -x })) = storageBus s.bus s.phases := by
    unfold storageBus
    cases s.phases <;> simp [Function.comp_def]
  have h5 : ∀ p q, storagePf sqrt p (-q) = storagePf sqrt p q := by
    intro p q
    unfold storagePf
    rw [neg_sq]
    simp
  unfold storageText
  simp only [h1, h2, h3, h4]
  cases storageQ s.phases <;> simp [h5]

omit [IsStrictOrderedRing K] in
/-- Ratings of the inverter other than the apparent power, shapes and triggers are not in the files. -/
theorem C67_lost_violated (sqrt : K → K) (nv : String → Py (Option K)) (s : DStorage K) (r : StorageRest K) :
    storageText sqrt nv { s with rest := r } = storageText sqrt nv s := rfl

end

/-- Every storage read has the name of its class in its name. -/
theorem C67_name_violated {K : Type} [Field K] [LinearOrder K] (sqrt : K → K) (nv : String → Py (Option K)) (s : DStorage K) (t : StorageText K) (d : StorageData K)
    (ht : storageText sqrt nv s = .ok t) (hd : ReportsStorage t d) (n : String) (hn : s.name = some n) :
    (readStorage d).name = some ("storage." ++ n) ∧ (readStorage d).name ≠ s.name := by
  obtain ⟨_, _, _, -, -, -, rfl⟩ := storageText_inv ht
  have hk : (readStorage d).name = some ("storage." ++ n) := by
    have := hd.key n hn
    simp [readStorage, this]
  refine ⟨hk, ?_⟩
  rw [hk, hn]
  intro h
  have := congrArg String.length (Option.some.inj h)
  rw [String.length_append] at this
  have h8 : "storage.".length = 8 := by decide +kernel
  omega

theorem busText_cons (b : String) (n : Option Nat) (ns : List (Option Nat)) : busText (b, n :: ns) = busText (b ++ "." ++ (match n with | some n => toString n | none => "None"), ns) := rfl

theorem busText_mem : ∀ (ns : List (Option Nat)) (b : String) (c : Char), c ∈ b.toList → c ∈ (busText (b, ns)).toList := by
  intro ns
  induction ns with
  | nil => intro b c h; exact h
  | cons n ns ih =>
    intro b c h
    rw [busText_cons]
    refine ih _ c ?_
    rw [String.toList_append, String.toList_append]
    exact List.mem_append_left _ (List.mem_append_left _ h)

theorem cleanName_dot (b : String) : '.' ∉ (cleanName b).toList := by
  unfold cleanName
  rw [String.toList_ofList]
  intro h
  rcases cleanChars_mem h with h | ⟨-, h⟩
  · exact absurd h (by decide)
  · exact absurd h (by decide)

/-- The bus of a storage with phases is read with the numbers of the phases, so that the storage is connected to no node. -/
theorem C67_bus_violated {K : Type} [Field K] [LinearOrder K] (sqrt : K → K) (nv : String → Py (Option K)) (s : DStorage K) (t : StorageText K) (d : StorageData K)
    (ht : storageText sqrt nv s = .ok t) (hd : ReportsStorage t d) (b : String) (hb : s.bus = some b) (p : PStorage K) (ps : List (PStorage K))
    (hp : s.phases = some (p :: ps)) : ∃ b', (readStorage d).bus = some b' ∧ '.' ∈ b'.toList ∧ b' ≠ cleanName b := by
  obtain ⟨_, _, _, -, -, -, rfl⟩ := storageText_inv ht
  have hbus := hd.bus _ (show storageBus s.bus s.phases = some (cleanName b, (p :: ps).map fun p => p.phase.bind toDssPhase) by rw [hb, hp]; rfl)
  refine ⟨_, hbus, ?_⟩
  have hdot : '.' ∈ (busText (cleanName b, (p :: ps).map fun p => p.phase.bind toDssPhase)).toList := by
    rw [List.map_cons, busText_cons]
    refine busText_mem _ _ _ ?_
    rw [String.toList_append, String.toList_append]
    exact List.mem_append_left _ (List.mem_append_right _ (by decide +kernel))
  refine ⟨hdot, fun h => ?_⟩
  rw [h] at hdot
  exact absurd hdot (cleanName_dot b)

/-- The bus of a storage without phases is kept. -/
theorem C67_bus_partial {K : Type} [Field K] [LinearOrder K] (sqrt : K → K) (nv : String → Py (Option K)) (s : DStorage K) (t : StorageText K) (d : StorageData K)
    (ht : storageText sqrt nv s = .ok t) (hd : ReportsStorage t d) (b : String) (hb : s.bus = some b) (hp : s.phases = some [] ∨ s.phases = none) :
    (readStorage d).bus = some (cleanName b) := by
  obtain ⟨_, _, _, -, -, -, rfl⟩ := storageText_inv ht
  exact hd.bus _ (show storageBus s.bus s.phases = some (cleanName b, []) by rw [hb]; rcases hp with hp | hp <;> rw [hp] <;> rfl)

/-- The parts of a storage that is read have no phase. -/
theorem C67_phases_violated {K : Type} [Field K] (ds : List (StorageData K)) : ∀ s ∈ readStorages ds, ∀ ps, s.phases = some ps → ∀ p ∈ ps, p.phase = none := by
  intro s hs ps hps p hp
  obtain ⟨d, -, rfl⟩ := List.mem_map.1 hs
  obtain rfl := Option.some.inj hps
  rw [(List.mem_replicate.1 hp).2]

/-- Every generator is read, with the bus without numbers, voltage and power factor, the disabled ones too. -/
theorem C67_generators {K : Type} [Field K] (ds : List (GenData K)) :
    List.Forall₂ (fun (d : GenData K) r => r.volt = d.kv.map (· * 1000) ∧ r.pf = d.pf ∧ r.ratedPower = d.kVA.map (· * 1000) ∧
      (∀ b, d.bus = some b → ∃ b', r.bus = some (String.ofList b') ∧ '.' ∉ b' ∧ (b = b' ∨ ∃ e, b = b' ++ '.' :: e)) ∧ (d.bus = none → r.bus = none)) ds (readGens ds) := by
  unfold readGens
  rw [List.forall₂_map_right_iff, List.forall₂_same]
  intro d _
  refine ⟨rfl, rfl, rfl, fun b hb => ?_, fun hb => by simp [readGen, hb]⟩
  by_cases hdot : '.' ∈ b
  · obtain ⟨l, e, rfl, hl⟩ := List.eq_append_cons_of_mem hdot
    refine ⟨l, ?_, hl, Or.inr ⟨e, rfl⟩⟩
    have : (l ++ '.' :: e).takeWhile (fun c => decide (c ≠ '.')) = l := by
      have hp : ∀ c ∈ l, (fun c => decide (c ≠ '.')) c = true := fun c hc => decide_eq_true fun h => hl (by rw [← h]; exact hc)
      rw [List.takeWhile_append_of_pos hp]
      simp
    simp only [readGen, hb, Option.map_some, this]
  · refine ⟨b, ?_, hdot, Or.inl rfl⟩
    have : b.takeWhile (fun c => decide (c ≠ '.')) = b := List.takeWhile_eq_self_iff.2 fun c hc => decide_eq_true fun h => hdot (by rw [← h]; exact hc)
    simp only [readGen, hb, Option.map_some, this]

/-- A generator of three phases is read with phase C only; with any number of one digit it has at most one phase. -/
theorem C67_generator_phases_violated {K : Type} [Field K] (d : GenData K) : (d.phases = ['3'] → (readGen d).phases = [some "C"]) ∧
    (∀ c, d.phases = [c] → (readGen d).phases.length = 1) := by
  refine ⟨fun h => ?_, fun c h => ?_⟩
  · unfold readGen
    rw [h]
    rfl
  · simp [readGen, h]

/-! ### Examples -/

def exStorage : DStorage ℚ where
  name := some "bat"
  bus := some "b.1"
  volt := some 480
  ratedPower := some 5000
  ratedKWh := some 13000
  state := some "CHARGING"
  rates := { charge := some 90, model := some 1 }
  phases := some [{ phase := some "A", p := some 1000, q := some (-5) }, { phase := none, p := some 2000, q := some 2 }]

def exStorageText : StorageText ℚ where
  name := some "bat"
  phases := some 2
  kW := some 3
  pf := some 3000
  bus := some ("b_1", [some 1, none])
  kV := some (12 / 25)
  kWRated := some 5
  kWhRated := some 13
  state := "CHARGING"
  rates := { charge := some 90, model := some 1 }

example : storageText (fun _ => 1) (fun _ => .ok none) exStorage = .ok exStorageText := by decide +kernel

def exStorageData : StorageData ℚ where
  key := "storage.bat"
  bus := some "b_1.1.None"
  kv := some (12 / 25)
  kWRated := some 5
  kWhRated := some 13
  state := some "CHARGING"
  rates := { charge := some 90, model := some 1, discharge := some 100 }
  phases := 2
  kW := some 3
  kvar := some 0

example : ReportsStorage exStorageText exStorageData where
  key n h := by cases h; decide +kernel
  enabled := rfl
  phases n h := by cases h; rfl
  bus b h := by cases h; decide +kernel
  kV v h := by cases h; rfl
  kW v h := by cases h; rfl
  kWRated v h := by cases h; rfl
  kWhRated v h := by cases h; rfl
  kWhStored v h := by cases h
  state := rfl
  reserve v h := by cases h
  rates f hf h := by
    simp only [rateFields, List.mem_cons, List.not_mem_nil, or_false] at hf
    rcases hf with rfl | rfl | rfl | rfl | rfl | rfl <;> first | rfl | exact absurd rfl h
  model _ := rfl

example : readStorage exStorageData =
    { name := some "storage.bat", bus := some "b_1.1.None", volt := some 480, ratedPower := some 5000, ratedKWh := some 13, state := some "CHARGING",
      rates := { charge := some 90, model := some 1, discharge := some 100 },
      phases := some [{ p := some (3 / 2), q := some 0 }, { p := some (3 / 2), q := some 0 }] } := by decide +kernel

example : readGens (K := ℚ) [{ key := "generator.g", enabled := false, bus := some ['b', '.', '1', '.', '2'], kv := some 4, phases := ['3'] }] =
    [{ bus := some "b", volt := some 4000, phases := [some "C"] }] := by decide +kernel

end Ditto.Dss
