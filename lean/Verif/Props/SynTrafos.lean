import Verif.Spec.SynTrafos
import Verif.Lemmas.SynLoads
import Verif.Props.SynCaps
import Mathlib.Tactic.LinearCombination

/-! C96: transformers of Synergi databases. -/
namespace Ditto.Syn
open Ditto Glm Syn.Spec

theorem windingPhases_lower (s : SecRow) : windingPhases (lower s.phases) = (phasesOf s).filter (· ≠ 'N') := by
  unfold windingPhases
  congr 1
  have := secPhases_lower s
  unfold lower phasesOf upper
  rw [List.filter_map, List.map_map]
  have h1 : ((fun c : Char => decide (c ≠ ' ')) ∘ Char.toLower) = fun c => decide (c ≠ ' ') := by
    funext c
    simp only [Function.comp, ne_eq, lower_blank_iff]
  rw [h1]
  exact List.map_congr_left fun c _ => upperLower c

section
variable {K : Type} {db : TrafoDb K} {r : TrafoRow} {d : DevTrafoRow K}

theorem typePlace_of (h : TypeOf db.devs r d) : ∃ n, typePlace (db.devs.map lowerDevTrafo) (lowerTrafo r).type = some n ∧
    (db.devs.map lowerDevTrafo)[n]? = some (lowerDevTrafo d) := by
  obtain ⟨a, b, h1, h2, h3⟩ := h
  refine ⟨a.length, ?_, ?_⟩
  · unfold typePlace
    rw [List.findIdx?_eq_some_iff_getElem, h1]
    refine ⟨by simp, ?_, ?_⟩
    · simp only [List.map_append, List.map_cons]
      rw [List.getElem_append_right (by simp)]
      simp only [List.length_map, Nat.sub_self, List.getElem_cons_zero]
      exact decide_eq_true h2
    · intro j hj
      simp only [List.map_append, List.map_cons]
      rw [List.getElem_append_left (by simpa using hj)]
      simp only [List.getElem_map, Bool.not_eq_true', decide_eq_false_iff_not]
      exact fun e => h3 _ (List.getElem_mem hj) (of_decide_eq_true e)
  · rw [h1, List.map_append, List.getElem?_append_right (by simp)]
    simp

theorem typePlace_none (h : ∀ d ∈ db.devs, ¬Same d.name r.type) : typePlace (db.devs.map lowerDevTrafo) (lowerTrafo r).type = none := by
  unfold typePlace
  rw [List.findIdx?_eq_none_iff]
  intro x hx
  obtain ⟨d, hd, rfl⟩ := List.mem_map.mp hx
  exact decide_eq_false fun e => h d hd e

/-- each transformer has a type, or none is known -/
theorem type_cases (devs : List (DevTrafoRow K)) (r : TrafoRow) : (∃ d, TypeOf devs r d) ∨ ∀ d ∈ devs, ¬Same d.name r.type := by
  induction devs with
  | nil => exact .inr fun d hd => by cases hd
  | cons x devs ih =>
    by_cases hx : Same x.name r.type
    · exact .inl ⟨x, [], devs, rfl, hx, fun y hy => by cases hy⟩
    · rcases ih with ⟨d, a, b, rfl, h2, h3⟩ | h
      · refine .inl ⟨d, x :: a, b, rfl, h2, fun y hy => ?_⟩
        rcases List.mem_cons.mp hy with rfl | hy
        · exact hx
        · exact h3 y hy
      · refine .inr fun y hy => ?_
        rcases List.mem_cons.mp hy with rfl | hy
        · exact hx
        · exact h y hy

theorem sectionPhases_of {secs : List SecRow} (h : (secs.map (·.id)).Nodup) : ∃ m, sectionPhases secs = .ok m := by
  unfold sectionPhases createMapping
  rw [if_neg (by simp), if_neg (by simpa using (dedup_length.mpr h))]
  exact ⟨_, rfl⟩

theorem sectionPhases_ok {secs : List SecRow} {m : List (Text × Text)} (h : sectionPhases secs = .ok m) :
    (secs.map (·.id)).Nodup ∧ ∀ s ∈ secs, find m s.id = some s.phases := by
  obtain ⟨-, h2, rfl⟩ := createMapping_ok h
  refine ⟨h2, fun s hs => ?_⟩
  obtain ⟨i, hi, rfl⟩ := List.getElem_of_mem hs
  have := find_zip (keys := secs.map (·.id)) (vals := secs.map (·.phases)) (by simp) h2 (i := i) (by simpa using hi)
  simpa using this

theorem sectionPhases_keys {secs : List SecRow} {m : List (Text × Text)} (h : sectionPhases secs = .ok m) {k : Text} (hk : ∀ s ∈ secs, s.id ≠ k) :
    find m k = none := by
  obtain ⟨-, -, rfl⟩ := createMapping_ok h
  rw [find_none]
  intro e he e1
  have := (List.of_mem_zip he).1
  obtain ⟨s, hs, e2⟩ := List.mem_map.mp this
  exact hk s hs (e2.trans e1)

section
variable [Field K] {sqrt : K → Option K} {ts : List (SynTrafo K)}

theorem trafosFrom_ok {feeders subs phases : List (Text × Text)} {secs : List SecRow} {rows : List TrafoRow} {devs : List (DevTrafoRow K)} :
    ∀ {i : Nat} {rs : List TrafoRow} {l : List (SynTrafo K)}, trafosFrom sqrt feeders subs phases secs rows devs i rs = .ok l →
    l.length = rs.length ∧ ∀ j r, rs[j]? = some r → ∃ t, l[j]? = some t ∧ readTrafo sqrt feeders subs phases secs rows devs (i + j) r = .ok t
  | i, [], l, h => by
    injection h with h
    subst h
    exact ⟨rfl, fun j t ht => by simp at ht⟩
  | i, r :: rs, l, h => by
    unfold trafosFrom at h
    cases hs : readTrafo sqrt feeders subs phases secs rows devs i r with
    | error e => rw [hs] at h; cases h
    | ok s =>
      rw [hs] at h
      dsimp only at h
      cases hr : trafosFrom sqrt feeders subs phases secs rows devs (i + 1) rs with
      | error e => rw [hr] at h; cases h
      | ok l' =>
        rw [hr] at h
        injection h with h
        subst h
        obtain ⟨h1, h2⟩ := trafosFrom_ok hr
        refine ⟨by rw [List.length_cons, List.length_cons, h1], fun j t ht => ?_⟩
        cases j with
        | zero =>
          rw [List.getElem?_cons_zero] at ht
          injection ht with ht
          subst ht
          exact ⟨s, rfl, hs⟩
        | succ j =>
          rw [List.getElem?_cons_succ] at ht
          obtain ⟨s', hs', e⟩ := h2 j t ht
          exact ⟨s', by rw [List.getElem?_cons_succ]; exact hs', by rw [← e]; congr 1; omega⟩

theorem trafosFrom_of {feeders subs phases : List (Text × Text)} {secs : List SecRow} {rows : List TrafoRow} {devs : List (DevTrafoRow K)} :
    ∀ {i : Nat} {rs : List TrafoRow}, (∀ j r, rs[j]? = some r → ∃ t, readTrafo sqrt feeders subs phases secs rows devs (i + j) r = .ok t) →
    ∃ l, trafosFrom sqrt feeders subs phases secs rows devs i rs = .ok l
  | i, [], _ => ⟨[], rfl⟩
  | i, r :: rs, h => by
    obtain ⟨t, ht⟩ := h 0 r rfl
    obtain ⟨l, hl⟩ := trafosFrom_of (i := i + 1) (rs := rs) fun j r hr => by
        obtain ⟨t, ht⟩ := h (j + 1) r (by rw [List.getElem?_cons_succ]; exact hr)
        exact ⟨t, by rw [← ht]; congr 1; omega⟩
    unfold trafosFrom
    rw [Nat.add_zero] at ht
    rw [ht]
    dsimp only
    rw [hl]
    exact ⟨_, rfl⟩

/-- what reading a database means for each row -/
theorem readTrafos_ok (h : readTrafos sqrt db = .ok ts) : ∃ feeders phases, sectionFeeders (db.secs.map lowerSec) = .ok feeders ∧
    sectionPhases (db.secs.map lowerSec) = .ok phases ∧ ts.length = db.trafos.length ∧ ∀ j r, db.trafos[j]? = some r → ∃ t, ts[j]? = some t ∧
      readTrafo sqrt feeders (feederSubstations (db.feederTable.map fun f => (lower f.1, lower f.2))) phases (db.secs.map lowerSec)
        (db.trafos.map lowerTrafo) (db.devs.map lowerDevTrafo) j (lowerTrafo r) = .ok t := by
  unfold readTrafos at h
  cases hf : sectionFeeders (db.secs.map lowerSec) with
  | error e => rw [hf] at h; cases h
  | ok feeders =>
    rw [hf] at h
    dsimp only at h
    cases hp : sectionPhases (db.secs.map lowerSec) with
    | error e => rw [hp] at h; cases h
    | ok phases =>
      rw [hp] at h
      obtain ⟨h1, h2⟩ := trafosFrom_ok h
      refine ⟨feeders, phases, rfl, rfl, by simpa using h1, fun j r hr => ?_⟩
      obtain ⟨t, ht, e⟩ := h2 j (lowerTrafo r) (by rw [List.getElem?_map, hr]; rfl)
      rw [Nat.zero_add] at e
      exact ⟨t, ht, e⟩

/-- a row with a known type that could be read -/
theorem known_ok {feeders subs phases : List (Text × Text)} {secs : List SecRow} {rows : List TrafoRow} {i : Nat} {t : SynTrafo K}
    (hd : TypeOf db.devs r d) (h : readTrafo sqrt feeders subs phases secs rows (db.devs.map lowerDevTrafo) i (lowerTrafo r) = .ok t) :
    ∃ n x p c1 c2, sqrt (d.percentZ ^ 2 - d.percentR ^ 2) = some x ∧ find phases (lower r.sec) = some p ∧
      primaryConnection rows (db.devs.map lowerDevTrafo) i n = .ok c1 ∧ secondaryConnection rows (db.devs.map lowerDevTrafo) i n = .ok c2 ∧
      ¬(d.three = true ∧ d.tertiary = true) ∧ t.pt = some d.pt ∧ t.reactances = [x] ∧
      t.windings = [⟨d.percentR, c1, d.highKv * 1000, d.kva * 1000, d.emergencyKva * 1000, windingPhases p⟩,
        ⟨d.percentR, c2, d.lowKv * 1000, d.kva * 1000, d.emergencyKva * 1000, windingPhases p⟩] := by
  obtain ⟨n, h1, h2⟩ := typePlace_of hd
  unfold readTrafo at h
  rw [h1] at h
  dsimp only at h
  rw [h2] at h
  dsimp only at h
  have h3 : sqrt ((lowerDevTrafo d).percentZ ^ 2 - (lowerDevTrafo d).percentR ^ 2) = sqrt (d.percentZ ^ 2 - d.percentR ^ 2) := rfl
  rw [h3] at h
  cases hx : sqrt (d.percentZ ^ 2 - d.percentR ^ 2) with
  | none => rw [hx] at h; cases h
  | some x =>
    rw [hx] at h
    dsimp only at h
    have h4 : find phases (lowerTrafo r).sec = find phases (lower r.sec) := rfl
    rw [h4] at h
    cases hp : find phases (lower r.sec) with
    | none => rw [hp] at h; cases h
    | some p =>
      rw [hp] at h
      dsimp only at h
      unfold readWindings at h
      cases hc1 : primaryConnection rows (db.devs.map lowerDevTrafo) i n with
      | error e => rw [hc1] at h; cases h
      | ok c1 =>
        rw [hc1] at h
        dsimp only at h
        cases hc2 : secondaryConnection rows (db.devs.map lowerDevTrafo) i n with
        | error e => rw [hc2] at h; cases h
        | ok c2 =>
          rw [hc2] at h
          dsimp only at h
          by_cases h3w : d.three = true ∧ d.tertiary = true
          · have h5 : (lowerDevTrafo d).three = true ∧ (lowerDevTrafo d).tertiary = true := h3w
            rw [if_pos h5] at h
            cases h
          · have h5 : ¬((lowerDevTrafo d).three = true ∧ (lowerDevTrafo d).tertiary = true) := h3w
            rw [if_neg h5] at h
            injection h with h
            subst h
            exact ⟨n, x, p, c1, c2, rfl, rfl, hc1, hc2, h3w, rfl, rfl, rfl⟩

/-- the parts of a transformer that do not depend on its type -/
theorem head_ok {feeders subs phases : List (Text × Text)} {secs : List SecRow} {rows : List TrafoRow} {devs : List (DevTrafoRow K)} {i : Nat} {t : SynTrafo K}
    (h : readTrafo sqrt feeders subs phases secs rows devs i (lowerTrafo r) = .ok t) :
    t.name = clean ((lower r.id).filter fun c => c ≠ ',') ∧ t.feeder = trafoFeeder feeders (lowerTrafo r) ∧
      t.substation = substationOf subs (trafoFeeder feeders (lowerTrafo r)) ∧
      t.fromElement = (firstSection secs (lower r.sec)).map (fun s => clean (if r.highNearFrom then s.fromNode else s.toNode)) ∧
      t.toElement = (firstSection secs (lower r.sec)).map (fun s => clean (if r.highNearFrom then s.toNode else s.fromNode)) := by
  unfold readTrafo at h
  dsimp only at h
  split at h
  · injection h with h
    subst h
    exact ⟨rfl, rfl, rfl, rfl, rfl⟩
  · split at h
    · cases h
    · split at h
      · cases h
      · split at h
        · cases h
        · split at h
          · cases h
          · injection h with h
            subst h
            exact ⟨rfl, rfl, rfl, rfl, rfl⟩

theorem lower_comma (t : Text) : (lower t).filter (fun c => c ≠ ',') = lower (t.filter (· ≠ ',')) := by
  unfold lower
  rw [List.filter_map]
  have h1 : ((fun c : Char => decide (c ≠ ',')) ∘ Char.toLower) = fun c => decide (c ≠ ',') := by
    funext c
    have : c.toLower = ',' ↔ c = ',' := by
      constructor
      · intro h
        have h := congrArg Char.toNat h
        apply char_nat
        rw [lower_nat] at h
        have : ','.toNat = 44 := by decide
        split at h <;> omega
      · rintro rfl; decide
    simp only [Function.comp, ne_eq, this]
  rw [h1]

/-- Each row becomes one transformer, from the node at its high side to the other one, with the voltages and powers of its type, and with a reactance that
fits impedance and resistance. Missing: connections (`C96_high_partial`, `C96_low_violated`), resistances (`C96_resistance_violated`), three windings
(`C96_three_violated`), and that more transformers than types can be read (`C96_types_violated`). -/
theorem C96_transformers_partial (hq : IsSqrt sqrt) (h : readTrafos sqrt db = .ok ts) : List.Forall₂ (TrafoAt db) db.trafos ts := by
  obtain ⟨feeders, phases, hf, hp, hl, hall⟩ := readTrafos_ok h
  rw [List.forall₂_iff_get]
  refine ⟨hl.symm, fun i hi hi2 => ?_⟩
  obtain ⟨t, ht, e⟩ := hall i db.trafos[i] (List.getElem?_eq_getElem hi)
  have e2 : ts.get ⟨i, hi2⟩ = t := (List.getElem?_eq_some_iff.mp ht).2
  rw [e2, List.get_eq_getElem]
  generalize db.trafos[i] = r at e
  clear e2 ht
  obtain ⟨a1, a2, a3, a4, a5⟩ := head_ok e
  have hn := (sectionFeeders_ok hf).1
  have hfeed : ∀ s ∈ db.secs, Same s.id r.sec → trafoFeeder feeders (lowerTrafo r) = some (shown s.feeder) := by
    intro s hs e3
    unfold trafoFeeder
    have : find feeders (lowerTrafo r).sec = some (shown s.feeder) := feeder_of hf hs e3
    rw [this]
  refine ⟨?_, ?_, ?_, ?_, ?_, ?_, ?_, ?_, ?_⟩
  · rw [a1, lower_comma, clean_lower_eq]
  · intro s hs e3
    rw [a4, firstSec_of hn hs e3, Option.map_some]
    by_cases hh : r.highNearFrom = true
    · rw [if_pos hh, if_pos hh]; exact congrArg some (clean_lower_eq _)
    · rw [if_neg hh, if_neg hh]; exact congrArg some (clean_lower_eq _)
  · intro s hs e3
    rw [a5, firstSec_of hn hs e3, Option.map_some]
    by_cases hh : r.highNearFrom = true
    · rw [if_pos hh, if_pos hh]; exact congrArg some (clean_lower_eq _)
    · rw [if_neg hh, if_neg hh]; exact congrArg some (clean_lower_eq _)
  · intro s hs e3
    rw [a2, hfeed s hs e3]
  · intro hu s hs e3 p hp2 e4
    rw [a3, hfeed s hs e3]
    exact substation_of hu hp2 e4
  · intro d hd
    obtain ⟨n, x, p, c1, c2, b1, b2, b3, b4, b5, b6, b7, b8⟩ := known_ok hd e
    exact b6
  · intro d hd
    obtain ⟨n, x, p, c1, c2, b1, b2, b3, b4, b5, b6, b7, b8⟩ := known_ok hd e
    refine ⟨x, b7, ?_⟩
    rw [hq _ _ b1]
    ring
  · intro d hd s hs e3
    obtain ⟨n, x, p, c1, c2, b1, b2, b3, b4, b5, b6, b7, b8⟩ := known_ok hd e
    refine ⟨_, _, b8, ?_⟩
    have e0 : lower s.id = lower r.sec := e3
    have hps : find phases (lower r.sec) = some (lower s.phases) := by
      rw [← e0]
      exact (sectionPhases_ok hp).2 _ (List.mem_map_of_mem (f := lowerSec) hs)
    rw [hps] at b2
    injection b2 with b2
    subst b2
    exact ⟨mul_comm _ _, mul_comm _ _, ⟨mul_comm _ _, mul_comm _ _⟩, ⟨mul_comm _ _, mul_comm _ _⟩, windingPhases_lower s, windingPhases_lower s⟩
  · intro hno
    unfold readTrafo at e
    rw [typePlace_none hno] at e
    injection e with e
    subst e
    exact ⟨rfl, rfl, rfl⟩

/-- The connection of the primary winding is the one of the network if the warehouse has a connection in the row with the number of the transformer. -/
theorem C96_high_partial (h : readTrafos sqrt db = .ok ts) {i : Nat} {t : SynTrafo K} {di : DevTrafoRow K} (hr : db.trafos[i]? = some r) (ht : ts[i]? = some t)
    (hdi : db.devs[i]? = some di) (hc : di.highCode ≠ []) (hd : TypeOf db.devs r d) :
    ∃ w1 w2, t.windings = [w1, w2] ∧ w1.connection = (r.highCode.map Char.toUpper).take 1 := by
  obtain ⟨feeders, phases, hf, hp, hl, hall⟩ := readTrafos_ok h
  obtain ⟨t', ht', e⟩ := hall i r hr
  rw [ht] at ht'
  injection ht' with ht'
  subst ht'
  obtain ⟨n, x, p, c1, c2, b1, b2, b3, b4, b5, b6, b7, b8⟩ := known_ok hd e
  refine ⟨_, _, b8, ?_⟩
  unfold primaryConnection at b3
  rw [List.getElem?_map, hdi] at b3
  dsimp only [Option.map_some] at b3
  have h1 : 0 < (lowerDevTrafo di).highCode.length := by
    show 0 < (lower di.highCode).length
    unfold lower
    rw [List.length_map]
    exact List.length_pos_of_ne_nil hc
  rw [if_pos h1, List.getElem?_map, hr] at b3
  injection b3 with b3
  subst b3
  show upper ((lower r.highCode).take 1) = _
  unfold upper
  rw [List.map_take]
  exact congrArg (List.take 1) (upper_lower _)

/-- The property is false: the connection of the secondary winding is the one of the row of the warehouse with the number of the transformer, whatever the
type of the transformer and the connection in the network. -/
theorem C96_low_violated (h : readTrafos sqrt db = .ok ts) {i : Nat} {t : SynTrafo K} {di : DevTrafoRow K} (hr : db.trafos[i]? = some r) (ht : ts[i]? = some t)
    (hdi : db.devs[i]? = some di) (hc : di.lowCode ≠ []) (hd : TypeOf db.devs r d) :
    ∃ w1 w2, t.windings = [w1, w2] ∧ w2.connection = (di.lowCode.map Char.toUpper).take 1 := by
  obtain ⟨feeders, phases, hf, hp, hl, hall⟩ := readTrafos_ok h
  obtain ⟨t', ht', e⟩ := hall i r hr
  rw [ht] at ht'
  injection ht' with ht'
  subst ht'
  obtain ⟨n, x, p, c1, c2, b1, b2, b3, b4, b5, b6, b7, b8⟩ := known_ok hd e
  refine ⟨_, _, b8, ?_⟩
  unfold secondaryConnection at b4
  rw [List.getElem?_map, hdi] at b4
  dsimp only [Option.map_some] at b4
  have h1 : 0 < (lowerDevTrafo di).lowCode.length := by
    show 0 < (lower di.lowCode).length
    unfold lower
    rw [List.length_map]
    exact List.length_pos_of_ne_nil hc
  rw [if_pos h1] at b4
  injection b4 with b4
  subst b4
  show upper ((lower di.lowCode).take 1) = _
  unfold upper
  rw [List.map_take]
  exact congrArg (List.take 1) (upper_lower _)

/-- The property is false: both windings have the whole resistance of the transformer, so that together they have twice as much. -/
theorem C96_resistance_violated (h : readTrafos sqrt db = .ok ts) (hr : r ∈ db.trafos) (hd : TypeOf db.devs r d) :
    ∃ t ∈ ts, ∃ w1 w2, t.windings = [w1, w2] ∧ w1.resistance + w2.resistance = 2 * d.percentR := by
  obtain ⟨feeders, phases, hf, hp, hl, hall⟩ := readTrafos_ok h
  obtain ⟨i, hi, rfl⟩ := List.getElem_of_mem hr
  obtain ⟨t, ht, e⟩ := hall i _ (List.getElem?_eq_getElem hi)
  obtain ⟨n, x, p, c1, c2, b1, b2, b3, b4, b5, b6, b7, b8⟩ := known_ok hd e
  exact ⟨t, List.mem_of_getElem? ht, _, _, b8, (two_mul _).symm⟩

/-- The property is false: no transformer of a known type may have a number beyond the number of types in the warehouse. -/
theorem C96_types_violated {i : Nat} (hr : db.trafos[i]? = some r) (hd : TypeOf db.devs r d) (hi : db.devs.length ≤ i) : ¬∃ ts, readTrafos sqrt db = .ok ts := by
  rintro ⟨ts, h⟩
  obtain ⟨feeders, phases, hf, hp, hl, hall⟩ := readTrafos_ok h
  obtain ⟨t, ht, e⟩ := hall i r hr
  obtain ⟨n, x, p, c1, c2, b1, b2, b3, b4, b5, b6, b7, b8⟩ := known_ok hd e
  unfold primaryConnection at b3
  rw [List.getElem?_eq_none (by simpa using hi)] at b3
  cases b3

/-- The property is false: no database with a transformer with three windings can be read. -/
theorem C96_three_violated (hr : r ∈ db.trafos) (hd : TypeOf db.devs r d) (h3 : d.three = true ∧ d.tertiary = true) : ¬∃ ts, readTrafos sqrt db = .ok ts := by
  rintro ⟨ts, h⟩
  obtain ⟨feeders, phases, hf, hp, hl, hall⟩ := readTrafos_ok h
  obtain ⟨i, hi, rfl⟩ := List.getElem_of_mem hr
  obtain ⟨t, ht, e⟩ := hall i _ (List.getElem?_eq_getElem hi)
  obtain ⟨n, x, p, c1, c2, b1, b2, b3, b4, b5, b6, b7, b8⟩ := known_ok hd e
  exact b5 h3

/-- No database with a transformer of a known type in an unknown section can be read. -/
theorem C96_section_errors (hr : r ∈ db.trafos) (hd : TypeOf db.devs r d) (hs : ∀ s ∈ db.secs, ¬Same s.id r.sec) : ¬∃ ts, readTrafos sqrt db = .ok ts := by
  rintro ⟨ts, h⟩
  obtain ⟨feeders, phases, hf, hp, hl, hall⟩ := readTrafos_ok h
  obtain ⟨i, hi, rfl⟩ := List.getElem_of_mem hr
  obtain ⟨t, ht, e⟩ := hall i _ (List.getElem?_eq_getElem hi)
  obtain ⟨n, x, p, c1, c2, b1, b2, b3, b4, b5, b6, b7, b8⟩ := known_ok hd e
  rw [sectionPhases_keys hp fun s hs2 e2 => by
    obtain ⟨s', hs', rfl⟩ := List.mem_map.mp hs2
    exact hs s' hs' e2] at b2
  cases b2

/-- Databases can be read if sections have different names, each type has connections, two windings and a resistance below its impedance, each transformer is in a
section, and there are at least as many types as transformers. -/
theorem C96_reads (hs : db.secs.Pairwise fun s t => ¬Same s.id t.id)
    (hdev : ∀ d ∈ db.devs, d.highCode ≠ [] ∧ d.lowCode ≠ [] ∧ ¬(d.three = true ∧ d.tertiary = true) ∧ ∃ x, sqrt (d.percentZ ^ 2 - d.percentR ^ 2) = some x)
    (hsec : ∀ r ∈ db.trafos, ∃ s ∈ db.secs, Same s.id r.sec) (hlen : db.trafos.length ≤ db.devs.length) : ∃ ts, readTrafos sqrt db = .ok ts := by
  obtain ⟨feeders, hf⟩ := sectionFeeders_of (ids_nodup hs)
  obtain ⟨phases, hp⟩ := sectionPhases_of (ids_nodup hs)
  unfold readTrafos
  rw [hf]
  dsimp only
  rw [hp]
  dsimp only
  refine trafosFrom_of fun j r' hr' => ?_
  rw [List.getElem?_map] at hr'
  obtain ⟨r, hr, rfl⟩ := Option.map_eq_some_iff.mp hr'
  have hj : j < db.trafos.length := (List.getElem?_eq_some_iff.mp hr).1
  rw [Nat.zero_add]
  rcases type_cases db.devs r with ⟨d, hd⟩ | hno
  · obtain ⟨n, h1, h2⟩ := typePlace_of hd
    have hmem : d ∈ db.devs := by
      obtain ⟨a, b, e, -⟩ := hd
      rw [e]
      simp
    obtain ⟨-, -, h3, x, hx⟩ := hdev d hmem
    obtain ⟨g1, g2, -⟩ := hdev db.devs[j] (List.getElem_mem (by omega))
    obtain ⟨s, hs2, e2⟩ := hsec r (List.mem_of_getElem? hr)
    have e0 : lower s.id = lower r.sec := e2
    have hps : find phases (lowerTrafo r).sec = some (lower s.phases) := by
      show find phases (lower r.sec) = _
      rw [← e0]
      exact (sectionPhases_ok hp).2 _ (List.mem_map_of_mem (f := lowerSec) hs2)
    have hdj : (db.devs.map lowerDevTrafo)[j]? = some (lowerDevTrafo db.devs[j]) := by
      rw [List.getElem?_map, List.getElem?_eq_getElem (by omega)]
      rfl
    have l1 : 0 < (lowerDevTrafo db.devs[j]).highCode.length := by
      show 0 < (lower _).length
      unfold lower
      rw [List.length_map]
      exact List.length_pos_of_ne_nil g1
    have l2 : 0 < (lowerDevTrafo db.devs[j]).lowCode.length := by
      show 0 < (lower _).length
      unfold lower
      rw [List.length_map]
      exact List.length_pos_of_ne_nil g2
    unfold readTrafo
    rw [h1]
    dsimp only
    rw [h2]
    dsimp only
    have h4 : sqrt ((lowerDevTrafo d).percentZ ^ 2 - (lowerDevTrafo d).percentR ^ 2) = some x := hx
    rw [h4]
    dsimp only
    rw [hps]
    dsimp only
    unfold readWindings primaryConnection secondaryConnection
    rw [hdj]
    dsimp only
    rw [if_pos l1, List.getElem?_map, hr]
    dsimp only [Option.map_some]
    rw [if_pos l2]
    dsimp only
    have h5 : ¬((lowerDevTrafo d).three = true ∧ (lowerDevTrafo d).tertiary = true) := h3
    rw [if_neg h5]
    exact ⟨_, rfl⟩
  · unfold readTrafo
    rw [typePlace_none hno]
    exact ⟨_, rfl⟩

end
end

/-! ### Examples -/

/-- the root that the examples need -/
def exRoot (x : ℚ) : Option ℚ := if x = 16 then some 4 else none

theorem exRoot_sqrt : IsSqrt exRoot := by
  intro x y h
  unfold exRoot at h
  split at h
  · rename_i hx
    injection h with h
    subst h
    subst hx
    norm_num
  · cases h

def exDev (name low : Text) (tertiary : Bool) : DevTrafoRow ℚ :=
  ⟨name, 60, 5, 3, true, tertiary, "D".toList, low, [], 12, 48 / 100, 500, 600⟩

def exTrafoRow (id sec type : Text) (near : Bool) : TrafoRow := ⟨id, sec, type, near, "Delta".toList, "Yg".toList, []⟩

def exTrafoDb : TrafoDb ℚ where
  feederTable := [("F 1".toList, "Main".toList)]
  secs := [⟨"S1".toList, "F 1".toList, "A B C N".toList, "High".toList, "Low 1".toList, []⟩, ⟨"S2".toList, "F 1".toList, "b".toList, "Low 2".toList, "High".toList, []⟩]
  trafos := [exTrafoRow "Tran, 1".toList "s1".toList "Big".toList true, exTrafoRow "Tran2".toList "S2".toList "big".toList false]
  devs := [exDev "BIG".toList "Y".toList false, exDev "Small".toList "Z".toList false]

def exWinding (c : Char) (v : ℚ) (p : List Char) : SynWinding ℚ := ⟨3, [c], v, 500000, 600000, p⟩

def exSynTrafos : List (SynTrafo ℚ) :=
  [⟨"tran_1".toList, some "f_1".toList, some "main".toList, some "high".toList, some "low_1".toList, some 60, [4],
      [exWinding 'D' 12000 ['A', 'B', 'C'], exWinding 'Y' 480 ['A', 'B', 'C']]⟩,
   ⟨"tran2".toList, some "f_1".toList, some "main".toList, some "high".toList, some "low_2".toList, some 60, [4],
      [exWinding 'D' 12000 ['B'], exWinding 'Z' 480 ['B']]⟩]

theorem exTrafos : readTrafos exRoot exTrafoDb = .ok exSynTrafos := by decide +kernel

theorem exType (r : TrafoRow) (h : Same "BIG".toList r.type) : TypeOf exTrafoDb.devs r (exDev "BIG".toList "Y".toList false) :=
  ⟨[], [exDev "Small".toList "Z".toList false], rfl, h, fun x hx => by cases hx⟩

example : List.Forall₂ (TrafoAt exTrafoDb) exTrafoDb.trafos exSynTrafos := C96_transformers_partial exRoot_sqrt exTrafos

/-- the second transformer has the type of the first row of the warehouse, but the connection of the second one -/
example : ∃ w1 w2, exSynTrafos[1].windings = [w1, w2] ∧ w2.connection = ['Z'] :=
  C96_low_violated exTrafos (i := 1) (di := exDev "Small".toList "Z".toList false) (r := exTrafoRow "Tran2".toList "S2".toList "big".toList false) rfl rfl rfl (by decide)
    (exType _ (by decide))

example : ∃ w1 w2, exSynTrafos[1].windings = [w1, w2] ∧ w1.connection = ['D'] :=
  C96_high_partial exTrafos (i := 1) (di := exDev "Small".toList "Z".toList false) (r := exTrafoRow "Tran2".toList "S2".toList "big".toList false) rfl rfl rfl (by decide)
    (exType _ (by decide))

example : ∃ t ∈ exSynTrafos, ∃ w1 w2, t.windings = [w1, w2] ∧ w1.resistance + w2.resistance = 2 * 3 :=
  C96_resistance_violated exTrafos (r := exTrafoRow "Tran, 1".toList "s1".toList "Big".toList true) (.head _) (exType _ (by decide))

example : ∃ ts, readTrafos exRoot exTrafoDb = .ok ts := by
  refine C96_reads (by decide) ?_ (by decide) (by decide)
  intro d hd
  have : ∀ d ∈ exTrafoDb.devs, d.highCode ≠ [] ∧ d.lowCode ≠ [] ∧ ¬(d.three = true ∧ d.tertiary = true) ∧ exRoot (d.percentZ ^ 2 - d.percentR ^ 2) = some 4 := by
    decide +kernel
  obtain ⟨h1, h2, h3, h4⟩ := this d hd
  exact ⟨h1, h2, h3, 4, h4⟩

/-- two transformers of the only type in the warehouse -/
def exOneType : TrafoDb ℚ := { exTrafoDb with devs := [exDev "BIG".toList "Y".toList false] }

example : ¬∃ ts, readTrafos exRoot exOneType = .ok ts :=
  C96_types_violated (db := exOneType) (i := 1) (r := exTrafoRow "Tran2".toList "S2".toList "big".toList false) (d := exDev "BIG".toList "Y".toList false) rfl
    ⟨[], [], rfl, by decide, fun x hx => by cases hx⟩ (by decide)

def exThreeType : TrafoDb ℚ := { exTrafoDb with devs := [exDev "BIG".toList "Y".toList true] }

example : ¬∃ ts, readTrafos exRoot exThreeType = .ok ts :=
  C96_three_violated (db := exThreeType) (r := exTrafoRow "Tran2".toList "S2".toList "big".toList false) (d := exDev "BIG".toList "Y".toList true) (.tail _ (.head _))
    ⟨[], [], rfl, by decide, fun x hx => by cases hx⟩ (by decide)

def exLostTrafo : TrafoDb ℚ := { exTrafoDb with secs := [] }

example : ¬∃ ts, readTrafos exRoot exLostTrafo = .ok ts :=
  C96_section_errors (db := exLostTrafo) (r := exTrafoRow "Tran2".toList "S2".toList "big".toList false) (d := exDev "BIG".toList "Y".toList false) (.tail _ (.head _))
    (exType _ (by decide)) (fun s hs => by cases hs)

end Ditto.Syn
