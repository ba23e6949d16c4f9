import Verif.Spec.EphLoads
import Verif.Lemmas.EphBuses

/-! Lemmas about the loads of the ePHASOR writer. -/
namespace Ditto.Eph
open Ditto Ditto.Eph.Spec
open Ditto.Glm (Text)

section numbers
variable {K : Type}

/-- the cells that the phases do not write -/
def SameRest (r r' : LoadRow K) : Prop :=
  r'.id = r.id ∧ r'.voltage = r.voltage ∧ r'.bandwidth = r.bandwidth ∧ r'.conn = r.conn ∧ r'.status = r.status ∧ r'.initial = r.initial

theorem SameRest.refl (r : LoadRow K) : SameRest r r := ⟨rfl, rfl, rfl, rfl, rfl, rfl⟩

theorem SameRest.trans {a b c : LoadRow K} (h : SameRest a b) (h' : SameRest b c) : SameRest a c :=
  ⟨h'.1.trans h.1, h'.2.1.trans h.2.1, h'.2.2.1.trans h.2.2.1, h'.2.2.2.1.trans h.2.2.2.1, h'.2.2.2.2.1.trans h.2.2.2.2.1, h'.2.2.2.2.2.trans h.2.2.2.2.2⟩

theorem setSlot_ok {k : Nat} {f : LoadSlot K → LoadSlot K} {r r' : LoadRow K} (h : setSlot k f r = .ok r') :
    (∀ i : Fin 3, i.val + 1 ≠ k → slotAt r' i = slotAt r i) ∧ (∀ i : Fin 3, i.val + 1 = k → slotAt r' i = f (slotAt r i)) ∧ SameRest r r' ∧
      r'.type = r.type ∧ r'.kz = r.kz ∧ r'.ki = r.ki ∧ r'.kp = r.kp ∧ 1 ≤ k ∧ k ≤ 3 := by
  unfold setSlot at h
  split at h
  · cases h
    refine ⟨fun i hi => ?_, fun i hi => ?_, ⟨rfl, rfl, rfl, rfl, rfl, rfl⟩, rfl, rfl, rfl, rfl, by decide, by decide⟩ <;> fin_cases i <;> first | rfl | (simp at hi)
  · cases h
    refine ⟨fun i hi => ?_, fun i hi => ?_, ⟨rfl, rfl, rfl, rfl, rfl, rfl⟩, rfl, rfl, rfl, rfl, by decide, by decide⟩ <;> fin_cases i <;> first | rfl | (simp at hi)
  · cases h
    refine ⟨fun i hi => ?_, fun i hi => ?_, ⟨rfl, rfl, rfl, rfl, rfl, rfl⟩, rfl, rfl, rfl, rfl, by decide, by decide⟩ <;> fin_cases i <;> first | rfl | (simp at hi)
  · cases h

theorem setSlot_exists {k : Nat} (f : LoadSlot K → LoadSlot K) (r : LoadRow K) (h1 : 1 ≤ k) (h3 : k ≤ 3) : ∃ r', setSlot k f r = .ok r' := by
  have : k = 1 ∨ k = 2 ∨ k = 3 := by omega
  rcases this with rfl | rfl | rfl <;> exact ⟨_, rfl⟩

variable [Field K] [LinearOrder K]

theorem portion_ok {x y : Option K} {a : K} (h : portion x y = .ok a) : both x y = some a ∧ a ≠ 0 := by
  unfold portion at h
  cases x with
  | none => cases h
  | some x =>
    cases y with
    | none => cases h
    | some y =>
      simp only at h
      split at h
      · cases h
      · rename_i hne
        cases h; exact ⟨rfl, hne⟩

theorem portion_both {x y : Option K} {a : K} (h : both x y = some a) (ha : a ≠ 0) : portion x y = .ok a := by
  cases x with
  | none => cases h
  | some x =>
    cases y with
    | none => cases h
    | some y => cases h; unfold portion; simp only; rw [if_neg ha]

/-- what a phase does to a row -/
structure PhaseDone (element : Option Text) (k : Nat) (j : EphPhaseLoad K) (r r' : LoadRow K) : Prop where
  others : ∀ i : Fin 3, i.val + 1 ≠ k → slotAt r' i = slotAt r i
  own : ∀ i : Fin 3, i.val + 1 = k → slotAt r i = {} → SlotSays element j (slotAt r' i)
  rest : SameRest r r'
  type : r'.type = (typeOf j).or r.type
  kz : r'.kz = ((portionsOf j).map (·.1)).or r.kz
  ki : r'.ki = ((portionsOf j).map (·.2.1)).or r.ki
  kp : r'.kp = ((portionsOf j).map (·.2.2)).or r.kp
  fine : PhaseOk j
  few : element ≠ none → k ≤ 3

theorem zipPhase_ok {k : Nat} {j : EphPhaseLoad K} {r r' : LoadRow K} (h : zipPhase k j r = .ok r') :
    ∃ ki kp kz p q r1, portion j.pCurrent j.qCurrent = .ok ki ∧ portion j.pPower j.qPower = .ok kp ∧ portion j.pImpedance j.qImpedance = .ok kz ∧
      j.p = some p ∧ j.q = some q ∧ setSlot k (fun s => { s with p := some (p / 1000), q := some (q / 1000) }) { r with type := some "ZIP".toList } = .ok r1 ∧
      r' = { r1 with kp := some kp, ki := some ki, kz := some kz } := by
  unfold zipPhase at h
  cases h1 : portion j.pCurrent j.qCurrent with
  | error e => rw [h1] at h; cases h
  | ok ki =>
    rw [h1] at h
    cases h2 : portion j.pPower j.qPower with
    | error e => rw [h2] at h; cases h
    | ok kp =>
      rw [h2] at h
      cases h3 : portion j.pImpedance j.qImpedance with
      | error e => rw [h3] at h; cases h
      | ok kz =>
        rw [h3] at h
        cases hp : j.p with
        | none => rw [hp] at h; cases h
        | some p =>
          cases hq : j.q with
          | none => rw [hp, hq] at h; cases h
          | some q =>
            rw [hp, hq] at h
            simp only [bind, Except.bind] at h
            cases hs : setSlot k (fun s => { s with p := some (p / 1000), q := some (q / 1000) }) { r with type := some "ZIP".toList } with
            | error e => rw [hs] at h; cases h
            | ok r1 => rw [hs] at h; cases h; exact ⟨ki, kp, kz, p, q, r1, rfl, rfl, rfl, rfl, rfl, hs, rfl⟩

theorem modelPortions_ok (m : Option Int) (r : LoadRow K) : (∀ i, slotAt (modelPortions m r) i = slotAt r i) ∧ SameRest r (modelPortions m r) := by
  unfold modelPortions
  refine ⟨fun i => ?_, ?_⟩
  · split
    · fin_cases i <;> rfl
    · split
      · fin_cases i <;> rfl
      · split
        · fin_cases i <;> rfl
        · rfl
  · split
    · exact ⟨rfl, rfl, rfl, rfl, rfl, rfl⟩
    · split
      · exact ⟨rfl, rfl, rfl, rfl, rfl, rfl⟩
      · split
        · exact ⟨rfl, rfl, rfl, rfl, rfl, rfl⟩
        · exact SameRest.refl r

theorem modelPortions_values {j : EphPhaseLoad K} {z : Int} (hz : j.useZip = some z) (h1 : z ≠ 1) {r : LoadRow K} (hr : r.type = some []) (r0 : LoadRow K)
    (e1 : r.kz = r0.kz) (e2 : r.ki = r0.ki) (e3 : r.kp = r0.kp) : (modelPortions j.model r).type = (typeOf j).or r0.type ∧
      (modelPortions j.model r).kz = ((portionsOf j).map (·.1)).or r0.kz ∧ (modelPortions j.model r).ki = ((portionsOf j).map (·.2.1)).or r0.ki ∧
      (modelPortions j.model r).kp = ((portionsOf j).map (·.2.2)).or r0.kp := by
  unfold modelPortions typeOf portionsOf
  have hn : j.useZip ≠ none := by rw [hz]; exact Option.some_ne_none _
  have ho : j.useZip ≠ some 1 := by rw [hz]; exact fun h => h1 (Option.some.inj h)
  by_cases m1 : j.model = some 1
  · simp [m1, hn, ho]
  · by_cases m2 : j.model = some 2
    · simp [m2, hn, ho]
    · by_cases m5 : j.model = some 5
      · simp [m5, hn, ho]
      · simp [m1, m2, m5, hn, ho, hr, e1, e2, e3]

theorem busStep_ok {element : Option Text} {k : Nat} {ph : Text} {r r' : LoadRow K}
    (h : busPhase element k ph r = .ok r') :
    (∀ i : Fin 3, i.val + 1 ≠ k → slotAt r' i = slotAt r i) ∧
      (∀ i : Fin 3, i.val + 1 = k → slotAt r' i = { slotAt r i with bus := (element.map fun e => busName e ph).or (slotAt r i).bus }) ∧ SameRest r r' ∧
      r'.type = r.type ∧ r'.kz = r.kz ∧ r'.ki = r.ki ∧ r'.kp = r.kp ∧ (element ≠ none → k ≤ 3) := by
  cases element with
  | none => cases h; exact ⟨fun _ _ => rfl, fun _ _ => rfl, SameRest.refl _, rfl, rfl, rfl, rfl, fun h => absurd rfl h⟩
  | some e =>
    unfold busPhase at h
    obtain ⟨h1, h2, h3, h4, h5, h6, h7, -, h8⟩ := setSlot_ok h
    exact ⟨h1, fun i hi => h2 i hi, h3, h4, h5, h6, h7, fun _ => h8⟩

theorem loadPhase_ok {element : Option Text} {k : Nat} {j : EphPhaseLoad K} {ph : Text} {r r' : LoadRow K} (hph : j.phase = some ph)
    (h : loadPhase element k j ph r = .ok r') : PhaseDone element k j r r' := by
  unfold loadPhase at h
  cases hb : busPhase element k ph r with
  | error e => rw [hb] at h; cases h
  | ok r1 =>
    rw [hb] at h
    simp only at h
    obtain ⟨b1, b2, b3, b4, b5, b6, b7, b8⟩ := busStep_ok hb
    have busOk : ∀ s : LoadSlot K, s.bus = (element.map fun e => busName e ph).or none →
        (∀ e ∈ element, ∀ ph ∈ j.phase, ∃ b, s.bus = some b ∧ BusOf e ph b) ∧ (element = none → s.bus = none) := by
      intro s hs
      constructor
      · intro e he ph' hp'
        cases he
        rw [hph] at hp'; cases hp'
        exact ⟨busName e ph, hs, by simp [BusOf, busName, lowered]⟩
      · rintro rfl; exact hs
    cases hz : j.useZip with
    | none =>
      rw [hz] at h
      cases h
      have ht : typeOf j = none := by unfold typeOf; rw [if_pos hz]
      have hp : portionsOf j = none := by unfold portionsOf; rw [if_pos hz]
      refine ⟨b1, fun i hi he => ?_, b3, by rw [ht]; exact b4, by rw [hp]; exact b5, by rw [hp]; exact b6, by rw [hp]; exact b7,
        fun h => (by rw [hz] at h; cases h), b8⟩
      rw [b2 i hi, he]
      obtain ⟨c1, c2⟩ := busOk { bus := (element.map fun e => busName e ph).or none } rfl
      exact ⟨c1, c2, fun _ => ⟨rfl, rfl⟩, fun h => (by rw [hz] at h; cases h), fun z h => (by rw [hz] at h; cases h)⟩
    | some z =>
      rw [hz] at h
      simp only at h
      by_cases h1 : z = 1
      · rw [if_pos h1] at h
        subst h1
        obtain ⟨ki, kp, kz, p, q, r2, p1, p2, p3, hp, hq, hs, rfl⟩ := zipPhase_ok h
        obtain ⟨s1, s2, s3, s4, s5, s6, s7, -, s8⟩ := setSlot_ok hs
        have q1 := portion_ok p1
        have q2 := portion_ok p2
        have q3 := portion_ok p3
        have ht : typeOf j = some "ZIP".toList := by unfold typeOf; rw [if_neg (by rw [hz]; exact Option.some_ne_none _), if_pos (.inl hz)]
        have hpo : portionsOf j = some (kz, ki, kp) := by
          unfold portionsOf
          rw [if_neg (by rw [hz]; exact Option.some_ne_none _), if_pos hz, q1.1, q2.1, q3.1]; rfl
        have same : ∀ i, slotAt { r2 with kp := some kp, ki := some ki, kz := some kz } i = slotAt r2 i := fun i => by fin_cases i <;> rfl
        have same1 : ∀ i, slotAt { r1 with type := some "ZIP".toList } i = slotAt r1 i := fun i => by fin_cases i <;> rfl
        refine ⟨fun i hi => ?_, fun i hi he => ?_, b3.trans ?_, by rw [ht]; exact s4, by rw [hpo]; rfl, by rw [hpo]; rfl, by rw [hpo]; rfl,
          fun _ => ⟨by rw [hp]; exact Option.some_ne_none _, by rw [hq]; exact Option.some_ne_none _, ⟨ki, q1⟩, ⟨kp, q2⟩, ⟨kz, q3⟩⟩, b8⟩
        · rw [same, s1 i hi, same1, b1 i hi]
        · rw [same, s2 i hi, same1, b2 i hi, he]
          obtain ⟨c1, c2⟩ := busOk { bus := (element.map fun e => busName e ph).or none, p := some (p / 1000), q := some (q / 1000) } rfl
          exact ⟨c1, c2, fun h => (by rw [hz] at h; cases h), fun _ => ⟨p, q, hp, hq, rfl, rfl⟩, fun z h hne => (by rw [hz] at h; cases h; exact absurd rfl hne)⟩
        · exact s3
      · rw [if_neg h1] at h
        unfold plainPhase at h
        cases hs : plainPower k j r1 with
        | error e => rw [hs] at h; cases h
        | ok r2 =>
          rw [hs] at h
          cases h
          unfold plainPower at hs
          have hne : j.useZip ≠ some 1 := by rw [hz]; exact fun h => h1 (Option.some.inj h)
          have same1 : ∀ i, slotAt { r1 with type := some [] } i = slotAt r1 i := fun i => by fin_cases i <;> rfl
          cases hp : j.p with
          | none =>
            rw [hp] at hs
            cases hs
            obtain ⟨v1, v2, v3, v4⟩ := modelPortions_values hz h1 (r := { r1 with type := some [] }) rfl r b5 b6 b7
            obtain ⟨w1, w2⟩ := modelPortions_ok j.model { r1 with type := some [] }
            refine ⟨fun i hi => by rw [w1, same1, b1 i hi], fun i hi he => ?_, b3.trans w2, v1, v2, v3, v4, fun h => absurd h hne, b8⟩
            rw [w1, same1, b2 i hi, he]
            obtain ⟨c1, c2⟩ := busOk { bus := (element.map fun e => busName e ph).or none } rfl
            exact ⟨c1, c2, fun _ => ⟨rfl, rfl⟩, fun h => absurd h hne, fun z _ _ => ⟨fun p q h => (by rw [hp] at h; cases h), fun _ => ⟨rfl, rfl⟩⟩⟩
          | some p =>
            cases hq : j.q with
            | none =>
              rw [hp, hq] at hs
              cases hs
              obtain ⟨v1, v2, v3, v4⟩ := modelPortions_values hz h1 (r := { r1 with type := some [] }) rfl r b5 b6 b7
              obtain ⟨w1, w2⟩ := modelPortions_ok j.model { r1 with type := some [] }
              refine ⟨fun i hi => by rw [w1, same1, b1 i hi], fun i hi he => ?_, b3.trans w2, v1, v2, v3, v4, fun h => absurd h hne, b8⟩
              rw [w1, same1, b2 i hi, he]
              obtain ⟨c1, c2⟩ := busOk { bus := (element.map fun e => busName e ph).or none } rfl
              exact ⟨c1, c2, fun _ => ⟨rfl, rfl⟩, fun h => absurd h hne, fun z _ _ => ⟨fun p q _ h => (by rw [hq] at h; cases h), fun _ => ⟨rfl, rfl⟩⟩⟩
            | some q =>
              rw [hp, hq] at hs
              simp only at hs
              obtain ⟨s1, s2, s3, s4, s5, s6, s7, -, s8⟩ := setSlot_ok hs
              obtain ⟨v1, v2, v3, v4⟩ := modelPortions_values hz h1 (r := r2) s4 r (s5.trans b5) (s6.trans b6) (s7.trans b7)
              obtain ⟨w1, w2⟩ := modelPortions_ok j.model r2
              refine ⟨fun i hi => by rw [w1, s1 i hi, same1, b1 i hi], fun i hi he => ?_, b3.trans (SameRest.trans s3 w2), v1, v2, v3, v4, fun h => absurd h hne, b8⟩
              rw [w1, s2 i hi, same1, b2 i hi, he]
              obtain ⟨c1, c2⟩ := busOk { bus := (element.map fun e => busName e ph).or none, p := some (magnitude p / 1000), q := some (magnitude q / 1000) } rfl
              refine ⟨c1, c2, fun h => (by rw [hz] at h; cases h), fun h => absurd h hne, fun z _ _ => ⟨fun p' q' h h' => ?_, fun h => ?_⟩⟩
              · rw [hp] at h; rw [hq] at h'; cases h; cases h'; exact ⟨rfl, rfl⟩
              · rcases h with h | h
                · rw [hp] at h; cases h
                · rw [hq] at h; cases h

omit [Field K] [LinearOrder K] in
theorem lastOf_cons {α : Type} (f : EphPhaseLoad K → Option α) (j : EphPhaseLoad K) (js : List (EphPhaseLoad K)) (o : Option α) :
    (lastOf f (j :: js)).or o = (lastOf f js).or ((f j).or o) := by
  unfold lastOf
  rw [List.filterMap_cons]
  cases hj : f j with
  | none => rfl
  | some a =>
    simp only
    cases h : js.filterMap f with
    | nil => rfl
    | cons b l => rw [List.getLast?_cons_cons]; cases hl : (b :: l).getLast? with
      | none => simp at hl
      | some c => rfl

/-- what the phases do to a row -/
structure PhasesDone (element : Option Text) (k : Nat) (js : List (EphPhaseLoad K)) (r r' : LoadRow K) : Prop where
  before : ∀ i : Fin 3, i.val + 1 < k → slotAt r' i = slotAt r i
  own : ∀ (i : Fin 3) (m : Nat) (j : EphPhaseLoad K), i.val + 1 = k + m → js[m]? = some j → slotAt r i = {} → SlotSays element j (slotAt r' i)
  after : ∀ i : Fin 3, k + js.length ≤ i.val + 1 → slotAt r' i = slotAt r i
  rest : SameRest r r'
  type : r'.type = (lastOf typeOf js).or r.type
  kz : r'.kz = (lastOf (fun j => (portionsOf j).map (·.1)) js).or r.kz
  ki : r'.ki = (lastOf (fun j => (portionsOf j).map (·.2.1)) js).or r.ki
  kp : r'.kp = (lastOf (fun j => (portionsOf j).map (·.2.2)) js).or r.kp
  fine : ∀ j ∈ js, PhaseOk j
  few : element ≠ none → js ≠ [] → k + js.length ≤ 4

theorem loadPhases_ok {element : Option Text} : ∀ {js : List (EphPhaseLoad K)} {k : Nat} {r r' : LoadRow K}, loadPhases element k js r = .ok r' →
    PhasesDone element k (js.filter (·.phase.isSome)) r r'
  | [], k, r, r', h => by
    unfold loadPhases at h
    cases h
    exact ⟨fun _ _ => rfl, fun i m j _ h => (by simp at h), fun _ _ => rfl, SameRest.refl _, rfl, rfl, rfl, rfl, fun j h => (by cases h), fun _ h => absurd rfl h⟩
  | j :: js, k, r, r', h => by
    unfold loadPhases at h
    cases hp : j.phase with
    | none =>
      rw [hp] at h
      rw [List.filter_cons, hp]
      exact loadPhases_ok h
    | some ph =>
      rw [hp] at h
      simp only at h
      rw [List.filter_cons, hp]
      simp only [Option.isSome_some, if_true]
      cases hs : loadPhase element k j ph r with
      | error e => rw [hs] at h; cases h
      | ok s =>
        rw [hs] at h
        have a := loadPhase_ok hp hs
        have b := loadPhases_ok (js := js) (k := k + 1) (r := s) h
        refine ⟨fun i hi => (b.before i (by omega)).trans (a.others i (by omega)), fun i m j' hi hm he => ?_, fun i hi => ?_, a.rest.trans b.rest, ?_, ?_, ?_, ?_, ?_, ?_⟩
        · cases m with
          | zero =>
            rw [List.getElem?_cons_zero] at hm; cases hm
            rw [b.before i (by omega)]
            exact a.own i (by omega) he
          | succ m =>
            rw [List.getElem?_cons_succ] at hm
            exact b.own i m j' (by omega) hm ((a.others i (by omega)).trans he)
        · rw [List.length_cons] at hi
          exact (b.after i (by omega)).trans (a.others i (by omega))
        · rw [b.type, a.type, lastOf_cons]
        · rw [b.kz, a.kz, lastOf_cons]
        · rw [b.ki, a.ki, lastOf_cons]
        · rw [b.kp, a.kp, lastOf_cons]
        · intro x hx
          rcases List.mem_cons.mp hx with rfl | hx
          · exact a.fine
          · exact b.fine x hx
        · intro he _
          have := a.few he
          rw [List.length_cons]
          by_cases hn : js.filter (·.phase.isSome) = []
          · rw [hn, List.length_nil]; omega
          · have := b.few he hn; omega

theorem loadPhase_exists {element : Option Text} {k : Nat} {j : EphPhaseLoad K} (ph : Text) (r : LoadRow K) (h1 : 1 ≤ k) (h3 : k ≤ 3) (hj : PhaseOk j) :
    ∃ r', loadPhase element k j ph r = .ok r' := by
  unfold loadPhase
  have hb : ∃ r1, busPhase element k ph r = .ok r1 := by
    cases element with
    | none => exact ⟨r, rfl⟩
    | some e => unfold busPhase; exact setSlot_exists _ r h1 h3
  obtain ⟨r1, hb⟩ := hb
  rw [hb]
  simp only
  cases hz : j.useZip with
  | none => exact ⟨r1, rfl⟩
  | some z =>
    simp only
    by_cases h1z : z = 1
    · rw [if_pos h1z]
      subst h1z
      obtain ⟨hp, hq, ⟨a, ha, ha0⟩, ⟨b, hb', hb0⟩, c, hc, hc0⟩ := hj hz
      obtain ⟨p, hp⟩ := Option.ne_none_iff_exists'.mp hp
      obtain ⟨q, hq⟩ := Option.ne_none_iff_exists'.mp hq
      unfold zipPhase
      rw [portion_both ha ha0, portion_both hb' hb0, portion_both hc hc0, hp, hq]
      simp only [bind, Except.bind]
      obtain ⟨r2, h2⟩ := setSlot_exists (fun s => { s with p := some (p / 1000), q := some (q / 1000) }) { r1 with type := some "ZIP".toList } h1 h3
      rw [h2]
      exact ⟨_, rfl⟩
    · rw [if_neg h1z]
      unfold plainPhase plainPower
      cases hp : j.p with
      | none => exact ⟨_, rfl⟩
      | some p =>
        cases hq : j.q with
        | none => exact ⟨_, rfl⟩
        | some q =>
          simp only
          obtain ⟨r2, h2⟩ := setSlot_exists (fun s => { s with p := some (magnitude p / 1000), q := some (magnitude q / 1000) }) { r1 with type := some [] } h1 h3
          rw [h2]
          exact ⟨_, rfl⟩

theorem loadPhases_exists {element : Option Text} : ∀ {js : List (EphPhaseLoad K)} {k : Nat} (r : LoadRow K), 1 ≤ k → k + (js.filter (·.phase.isSome)).length ≤ 4 →
    (∀ j ∈ js.filter (·.phase.isSome), PhaseOk j) → ∃ r', loadPhases element k js r = .ok r'
  | [], k, r, _, _, _ => ⟨r, rfl⟩
  | j :: js, k, r, h1, hk, hj => by
    unfold loadPhases
    rw [List.filter_cons] at hk hj
    cases hp : j.phase with
    | none =>
      rw [hp] at hk hj
      exact loadPhases_exists r h1 hk hj
    | some ph =>
      rw [hp] at hk hj
      simp only [Option.isSome_some, if_true, List.length_cons] at hk hj
      obtain ⟨s, hs⟩ := loadPhase_exists (element := element) (k := k) ph r h1 (by omega) (hj j List.mem_cons_self)
      simp only
      rw [hs]
      exact loadPhases_exists s (by omega) (by omega) fun x hx => hj x (List.mem_cons_of_mem _ hx)

theorem fillLoad_ok {l : EphLoad K} {r r' : LoadRow K} (h : fillLoad l r = .ok r') : ∃ s, loadPhases l.element 1 l.phaseLoads (volted l r) = .ok s ∧
    r' = finishLoad l s := by
  unfold fillLoad at h
  cases hs : loadPhases l.element 1 l.phaseLoads (volted l r) with
  | error e => rw [hs] at h; cases h
  | ok s => rw [hs] at h; cases h; exact ⟨s, rfl, rfl⟩

theorem fillLoad_exists {l : EphLoad K} (r : LoadRow K) (h3 : (phased l).length ≤ 3) (hj : ∀ j ∈ phased l, PhaseOk j) : ∃ r', fillLoad l r = .ok r' := by
  obtain ⟨s, hs⟩ := loadPhases_exists (element := l.element) (js := l.phaseLoads) (k := 1) (volted l r) (le_refl _) (by unfold phased at h3; omega) hj
  unfold fillLoad
  rw [hs]
  exact ⟨_, rfl⟩

/-- the row of a load in a row with only an ID -/
theorem fillLoad_says {l : EphLoad K} {n : Text} {r' : LoadRow K} (hn : l.name = some n) (h : fillLoad l { id := some (shortName (stem n)) } = .ok r') : LoadSays l r' := by
  obtain ⟨s, hs, rfl⟩ := fillLoad_ok h
  have d := loadPhases_ok hs
  have hv : (volted l { id := some (shortName (stem n)) }) = { id := some (shortName (stem n)), voltage := l.voltage.map (· / 1000) } := by
    unfold volted
    cases l.voltage <;> rfl
  rw [hv] at d
  have e0 : ∀ i, slotAt ({ id := some (shortName (stem n)), voltage := l.voltage.map (· / 1000) } : LoadRow K) i = {} := fun i => by fin_cases i <;> rfl
  generalize hr : finishLoad l s = r'
  unfold finishLoad at hr
  have same : (∀ i, slotAt r' i = slotAt s i) ∧ r'.id = s.id ∧ r'.voltage = s.voltage ∧ r'.type = s.type ∧ r'.kz = s.kz ∧ r'.ki = s.ki ∧ r'.kp = s.kp ∧
      r'.bandwidth = some (2 / 100) ∧ r'.status = some 1 ∧ r'.initial = some 0 := by
    rw [← hr]
    split
    · exact ⟨fun i => by fin_cases i <;> rfl, rfl, rfl, rfl, rfl, rfl, rfl, rfl, rfl, rfl⟩
    · split
      · exact ⟨fun i => by fin_cases i <;> rfl, rfl, rfl, rfl, rfl, rfl, rfl, rfl, rfl, rfl⟩
      · exact ⟨fun i => by fin_cases i <;> rfl, rfl, rfl, rfl, rfl, rfl, rfl, rfl, rfl, rfl⟩
  obtain ⟨s1, s2, s3, s4, s5, s6, s7, s8, s9, s10⟩ := same
  obtain ⟨t1, t2, -, t4, -, -⟩ := d.rest
  refine ⟨⟨n, hn, s2.trans t1⟩, s3.trans t2, fun hy => ?_, fun hd => ?_, fun hy hd => ?_, fun i j hj => ?_, fun i hi => ?_, ?_, ?_, ?_, ?_, s8, s9, s10⟩
  · rw [← hr, if_pos hy]
  · have : ¬l.conn = some ['Y'] := by rw [hd]; decide
    rw [← hr, if_neg this, if_pos hd]
  · rw [← hr, if_neg hy, if_neg hd]; exact t4
  · rw [s1]; exact d.own i i.val j (by omega) hj (e0 i)
  · rw [s1, d.after i (by unfold phased at hi; omega), e0]; exact ⟨rfl, rfl, rfl⟩
  · rw [s4, d.type]; exact Option.or_none
  · rw [s5, d.kz]; exact Option.or_none
  · rw [s6, d.ki]; exact Option.or_none
  · rw [s7, d.kp]; exact Option.or_none

end numbers

theorem isLetter_ends {n : Text} {c : Char} (h : n.getLast? = some c) : endsInLetter n = isLetter c := by
  unfold endsInLetter isLetter
  rw [h]
  simp [Bool.decide_or, Bool.or_assoc]

theorem loadId_short (n : Text) : loadId n = shortName n := by
  unfold loadId shortName
  have : n.take 5 = "load_".toList ↔ "load_".toList.isPrefixOf n = true := by
    rw [List.isPrefixOf_iff_prefix, List.prefix_iff_eq_take]
    exact eq_comm
  by_cases h : n.take 5 = "load_".toList
  · rw [if_pos h, if_pos (this.mp h)]
  · rw [if_neg h, if_neg (fun x => h (this.mpr x))]

section steps
variable {K : Type}

/-- the states in which the current row is the last one -/
def AtEnd (s : LoadState K) : Prop := nextIndex s.index = s.rows.length

theorem newRow_end {s : LoadState K} (h : AtEnd s) (n : Text) : (newRow s n).rows = s.rows ++ [{ id := some (loadId n) }] ∧ (newRow s n).index = some s.rows.length := by
  unfold AtEnd at h
  unfold newRow
  rw [h]
  refine ⟨?_, rfl⟩
  simp only
  generalize s.rows = rows
  induction rows with
  | nil => rfl
  | cons r rows ih => exact congrArg (r :: ·) ih

variable [Field K] [LinearOrder K]

theorem step_end {s s' : LoadState K} (h : AtEnd s) {l : EphLoad K} {n : Text} (hn : l.name = some n) (hfresh : endsInLetter n = true → s.dict.find? (·.1 = n.dropLast) = none)
    (hs : loadStep s l = .ok s') : ∃ r, fillLoad l { id := some (shortName (stem n)) } = .ok r ∧ s'.rows = s.rows ++ [r] ∧ AtEnd s' ∧
      s'.dict = s.dict ++ (if endsInLetter n then [(n.dropLast, s.rows.length)] else []) := by
  have key : ∀ (t : LoadState K), t.rows = s.rows ++ [{ id := some (shortName (stem n)) }] → t.index = some s.rows.length →
      (match t.index with
        | none => .error .indexError
        | some i => match t.rows[i]? with
          | none => .error .indexError
          | some r => match fillLoad l r with
            | .error e => .error e
            | .ok r => .ok { t with rows := t.rows.set i r } : Except PyErr (LoadState K)) = .ok s' →
      ∃ r, fillLoad l { id := some (shortName (stem n)) } = .ok r ∧ s'.rows = s.rows ++ [r] ∧ AtEnd s' ∧ s'.dict = t.dict := by
    intro t ht hi hx
    rw [hi] at hx
    simp only at hx
    rw [ht, List.getElem?_concat_length] at hx
    simp only at hx
    cases hf : fillLoad l { id := some (shortName (stem n)) } with
    | error e => rw [hf] at hx; cases hx
    | ok r =>
      rw [hf] at hx
      cases hx
      refine ⟨r, rfl, ?_, ?_, rfl⟩
      · simp
      · unfold AtEnd; simp [hi, nextIndex]
  unfold loadStep placeLoad at hs
  rw [hn] at hs
  simp only at hs
  cases hl : n.getLast? with
  | none => rw [hl] at hs; cases hs
  | some c =>
    rw [hl] at hs
    simp only at hs
    have he := isLetter_ends hl
    by_cases hc : isLetter c = true
    · rw [hc] at he
      rw [if_pos hc, hfresh he] at hs
      simp only at hs
      obtain ⟨e1, e2⟩ := newRow_end h n.dropLast
      have hst : stem n = n.dropLast := by unfold stem; rw [if_pos he]
      obtain ⟨r, h1, h2, h3, h4⟩ := key { newRow s n.dropLast with dict := s.dict ++ [(n.dropLast, nextIndex s.index)] }
        (by rw [hst, ← loadId_short]; exact e1) e2 hs
      refine ⟨r, h1, h2, h3, ?_⟩
      rw [h4, if_pos he]
      unfold AtEnd at h
      rw [h]
    · have he' : endsInLetter n = false := by rw [he]; simpa using hc
      rw [if_neg hc] at hs
      simp only at hs
      obtain ⟨e1, e2⟩ := newRow_end h n
      have hst : stem n = n := by unfold stem; rw [he']; rfl
      obtain ⟨r, h1, h2, h3, h4⟩ := key (newRow s n) (by rw [hst, ← loadId_short]; exact e1) e2 hs
      refine ⟨r, h1, h2, h3, ?_⟩
      rw [h4, he']
      simp [newRow]

theorem step_end_exists {s : LoadState K} (h : AtEnd s) {l : EphLoad K} {n : Text} (hn : l.name = some n) (hne : n ≠ [])
    (hfresh : endsInLetter n = true → s.dict.find? (·.1 = n.dropLast) = none)
    {r : LoadRow K} (hr : fillLoad l { id := some (shortName (stem n)) } = .ok r) : ∃ s', loadStep s l = .ok s' := by
  have key : ∀ (t : LoadState K), t.rows = s.rows ++ [{ id := some (shortName (stem n)) }] → t.index = some s.rows.length →
      ∃ s', (match t.index with
        | none => .error .indexError
        | some i => match t.rows[i]? with
          | none => .error .indexError
          | some r => match fillLoad l r with
            | .error e => .error e
            | .ok r => .ok { t with rows := t.rows.set i r } : Except PyErr (LoadState K)) = .ok s' := by
    intro t ht hi
    rw [hi]
    simp only
    rw [ht, List.getElem?_concat_length]
    simp only
    rw [hr]
    exact ⟨_, rfl⟩
  unfold loadStep placeLoad
  rw [hn]
  simp only
  cases hl : n.getLast? with
  | none => exact absurd (List.getLast?_eq_none_iff.mp hl) hne
  | some c =>
    simp only
    have he := isLetter_ends hl
    by_cases hc : isLetter c = true
    · rw [hc] at he
      rw [if_pos hc, hfresh he]
      obtain ⟨e1, e2⟩ := newRow_end h n.dropLast
      have hst : stem n = n.dropLast := by unfold stem; rw [if_pos he]
      exact key { newRow s n.dropLast with dict := s.dict ++ [(n.dropLast, nextIndex s.index)] } (by rw [hst, ← loadId_short]; exact e1) e2
    · have he' : endsInLetter n = false := by rw [he]; simpa using hc
      rw [if_neg hc]
      obtain ⟨e1, e2⟩ := newRow_end h n
      have hst : stem n = n := by unfold stem; rw [he']; rfl
      exact key (newRow s n) (by rw [hst, ← loadId_short]; exact e1) e2

/-- every load that was written got a name and filled some row -/
theorem step_fills {s s' : LoadState K} {l : EphLoad K} (hs : loadStep s l = .ok s') : l.name ≠ some [] ∧ ∃ r r', fillLoad l r = .ok r' := by
  unfold loadStep at hs
  constructor
  · intro h; rw [h] at hs; cases hs
  · cases hp : placeLoad s l.name with
    | error e => rw [hp] at hs; cases hs
    | ok t =>
      rw [hp] at hs
      simp only at hs
      cases hi : t.index with
      | none => rw [hi] at hs; cases hs
      | some i =>
        rw [hi] at hs
        simp only at hs
        cases hr : t.rows[i]? with
        | none => rw [hr] at hs; cases hs
        | some r =>
          rw [hr] at hs
          simp only at hs
          cases hf : fillLoad l r with
          | error e => rw [hf] at hs; cases hs
          | ok r' => exact ⟨r, r', hf⟩

theorem fold_fills {loads : List (EphLoad K)} : ∀ {s s' : LoadState K}, loads.foldlM loadStep s = .ok s' → ∀ l ∈ loads, l.name ≠ some [] ∧ ∃ r r', fillLoad l r = .ok r' := by
  induction loads with
  | nil => intro s s' _ l hl; cases hl
  | cons a loads ih =>
    intro s s' h l hl
    rw [List.foldlM_cons] at h
    cases ha : loadStep s a with
    | error e => rw [ha] at h; cases h
    | ok t =>
      rw [ha] at h
      rcases List.mem_cons.mp hl with rfl | hl
      · exact step_fills ha
      · exact ih (s := t) h l hl

omit [Field K] [LinearOrder K] in
theorem dict_fresh {d : List (Text × Nat)} {n : Text} (h : n ∉ d.map (·.1)) : d.find? (·.1 = n) = none := by
  rw [List.find?_eq_none]
  intro e he hx
  exact h (List.mem_map.mpr ⟨e, he, of_decide_eq_true hx⟩)

/-- the stems of the loads that end in a letter -/
def stems (loads : List (EphLoad K)) : List Text := ((loads.filterMap (·.name)).filter endsInLetter).map List.dropLast

omit [Field K] [LinearOrder K] in
theorem stems_cons {l : EphLoad K} {n : Text} (hn : l.name = some n) (loads : List (EphLoad K)) :
    stems (l :: loads) = (if endsInLetter n then [n.dropLast] else []) ++ stems loads := by
  unfold stems
  rw [List.filterMap_cons, hn]
  simp only
  rw [List.filter_cons]
  cases endsInLetter n <;> rfl

theorem fold_single {loads : List (EphLoad K)} : ∀ {s s' : LoadState K}, AtEnd s → (∀ l ∈ loads, l.name ≠ none) → (s.dict.map (·.1) ++ stems loads).Nodup →
    loads.foldlM loadStep s = .ok s' → ∃ rows, s'.rows = s.rows ++ rows ∧ List.Forall₂ LoadSays loads rows := by
  induction loads with
  | nil => intro s s' _ _ _ h; cases h; exact ⟨[], (List.append_nil _).symm, .nil⟩
  | cons l loads ih =>
    intro s s' ha hn hd h
    rw [List.foldlM_cons] at h
    cases hl : loadStep s l with
    | error e => rw [hl] at h; cases h
    | ok t =>
      rw [hl] at h
      obtain ⟨n, hname⟩ := Option.ne_none_iff_exists'.mp (hn l List.mem_cons_self)
      rw [stems_cons hname] at hd
      obtain ⟨r, h1, h2, h3, h4⟩ := step_end ha hname (fun he => dict_fresh fun hm => by
        rw [he] at hd
        exact (List.nodup_append.mp hd).2.2 n.dropLast hm n.dropLast (List.mem_append_left _ (by simp)) rfl) hl
      obtain ⟨rows, e1, e2⟩ := ih (s := t) h3 (fun l hl => hn l (List.mem_cons_of_mem _ hl)) (by
        rw [h4, List.map_append, List.append_assoc]
        convert hd using 3
        cases endsInLetter n <;> rfl) h
      exact ⟨r :: rows, by rw [e1, h2, List.append_assoc]; rfl, .cons (fillLoad_says hname h1) e2⟩

theorem fold_single_exists {loads : List (EphLoad K)} : ∀ {s : LoadState K}, AtEnd s → (∀ l ∈ loads, l.name ≠ none ∧ l.name ≠ some []) → (s.dict.map (·.1) ++ stems loads).Nodup →
    (∀ l ∈ loads, (phased l).length ≤ 3 ∧ ∀ j ∈ phased l, PhaseOk j) → ∃ s', loads.foldlM loadStep s = .ok s' := by
  induction loads with
  | nil => intro s _ _ _ _; exact ⟨s, rfl⟩
  | cons l loads ih =>
    intro s ha hn hd hp
    rw [List.foldlM_cons]
    obtain ⟨n, hname⟩ := Option.ne_none_iff_exists'.mp (hn l List.mem_cons_self).1
    have hne : n ≠ [] := fun h => (hn l List.mem_cons_self).2 (by rw [hname, h])
    rw [stems_cons hname] at hd
    have hfresh : endsInLetter n = true → s.dict.find? (·.1 = n.dropLast) = none := fun he => dict_fresh fun hm => by
      rw [he] at hd
      exact (List.nodup_append.mp hd).2.2 n.dropLast hm n.dropLast (List.mem_append_left _ (by simp)) rfl
    obtain ⟨r, hr⟩ := fillLoad_exists (l := l) { id := some (shortName (stem n)) } (hp l List.mem_cons_self).1 (hp l List.mem_cons_self).2
    obtain ⟨t, ht⟩ := step_end_exists ha hname hne hfresh hr
    obtain ⟨-, -, -, h3, h4⟩ := step_end ha hname hfresh ht
    rw [ht]
    exact ih h3 (fun l hl => hn l (List.mem_cons_of_mem _ hl)) (by
        rw [h4, List.map_append, List.append_assoc]
        convert hd using 3
        cases endsInLetter n <;> rfl) fun l hl => hp l (List.mem_cons_of_mem _ hl)

end steps
end Ditto.Eph

namespace Ditto.Eph
open Ditto Ditto.Eph.Spec
open Ditto.Glm (Text)
variable {K : Type} [Field K] [LinearOrder K]

theorem fillLoad_id {l : EphLoad K} {r r' : LoadRow K} (h : fillLoad l r = .ok r') : r'.id = r.id := by
  obtain ⟨s, hs, rfl⟩ := fillLoad_ok h
  have h1 : (finishLoad l s).id = s.id := by
    unfold finishLoad
    split
    · rfl
    · split <;> rfl
  have h2 : (volted l r).id = r.id := by unfold volted; split <;> rfl
  rw [h1, (loadPhases_ok hs).rest.1, h2]

/-- a load without a row of its own -/
theorem step_shared {s s' : LoadState K} {l : EphLoad K} {i : Nat} (hp : placeLoad s l.name = .ok { s with index := some i }) (h : loadStep s l = .ok s') :
    s'.rows.map (·.id) = s.rows.map (·.id) ∧ s'.index = some i ∧ s'.dict = s.dict ∧ ∃ r r', s.rows[i]? = some r ∧ fillLoad l r = .ok r' ∧ s'.rows = s.rows.set i r' := by
  unfold loadStep at h
  rw [hp] at h
  simp only at h
  cases hr : s.rows[i]? with
  | none => rw [hr] at h; cases h
  | some r =>
    rw [hr] at h
    simp only at h
    cases hf : fillLoad l r with
    | error e => rw [hf] at h; cases h
    | ok r' =>
      rw [hf] at h
      cases h
      refine ⟨?_, rfl, rfl, r, r', rfl, hf, rfl⟩
      simp only
      rw [List.map_set, fillLoad_id hf]
      refine List.ext_getElem? fun j => ?_
      by_cases hj : i = j
      · subst hj
        have hlt : i < s.rows.length := (List.getElem?_eq_some_iff.mp hr).1
        rw [List.getElem?_set_self (by rw [List.length_map]; exact hlt), List.getElem?_map, hr]; rfl
      · rw [List.getElem?_set_ne hj]

omit [Field K] [LinearOrder K] in
theorem get_modify_self {α : Type} (l : List α) (i : Nat) (f : α → α) : (l.modify i f)[i]? = l[i]?.map f := by
  rw [List.getElem?_modify]; simp

omit [Field K] [LinearOrder K] in
theorem get_modify_ne {α : Type} (l : List α) {i j : Nat} (h : i ≠ j) (f : α → α) : (l.modify i f)[j]? = l[j]? := by
  rw [List.getElem?_modify]; simp [h]

/-- a new load after a load that did not get the last row -/
theorem step_behind {s s' : LoadState K} {l : EphLoad K} {n : Text} {i : Nat} (hn : l.name = some n) (hne : n ≠ []) (hl : endsInLetter n = false) (hi : s.index = some i)
    (hlen : i + 1 < s.rows.length) (h : loadStep s l = .ok s') :
    s'.rows.map (·.id) = ((s.rows.map (·.id)).set (i + 1) (some (shortName n))) ++ [none] ∧ s'.rows[s.rows.length]? = some {} := by
  have hp : placeLoad s l.name = .ok (newRow s n) := by
    unfold placeLoad
    rw [hn]
    simp only
    cases hc : n.getLast? with
    | none => exact absurd (List.getLast?_eq_none_iff.mp hc) hne
    | some c =>
      have := isLetter_ends hc
      rw [hl] at this
      simp only
      rw [if_neg (by rw [← this]; decide)]
  unfold loadStep at h
  rw [hp] at h
  simp only [newRow, hi, nextIndex] at h
  generalize hrows : (s.rows ++ [({} : LoadRow K)]).modify (i + 1) (fun r => { r with id := some (loadId n) }) = rows at h
  have e1 : rows.map (·.id) = ((s.rows.map (·.id)).set (i + 1) (some (shortName n))) ++ [none] := by
    rw [← hrows, ← loadId_short]
    refine List.ext_getElem? fun j => ?_
    rw [List.getElem?_map]
    by_cases hj : i + 1 = j
    · subst hj
      rw [get_modify_self, List.getElem?_append_left hlen, List.getElem?_append_left (by simpa using hlen), List.getElem?_set_self (by simpa using hlen)]
      rw [List.getElem?_eq_getElem hlen]; rfl
    · rw [get_modify_ne _ hj]
      by_cases hjl : j < s.rows.length
      · rw [List.getElem?_append_left hjl, List.getElem?_append_left (by simpa using hjl), List.getElem?_set_ne hj, List.getElem?_map]
      · by_cases hje : j = s.rows.length
        · subst hje
          rw [List.getElem?_concat_length]
          have : ((s.rows.map (·.id)).set (i + 1) (some (loadId n))).length = s.rows.length := by simp
          rw [← this, List.getElem?_concat_length]; rfl
        · rw [List.getElem?_eq_none (by simp; omega), List.getElem?_eq_none (by simp; omega)]; rfl
  have e2 : rows[s.rows.length]? = some {} := by
    rw [← hrows, get_modify_ne _ (by omega), List.getElem?_concat_length]
  cases hr : rows[i + 1]? with
  | none => rw [hr] at h; cases h
  | some r =>
    rw [hr] at h
    simp only at h
    cases hf : fillLoad l r with
    | error e => rw [hf] at h; cases h
    | ok r' =>
      rw [hf] at h
      cases h
      simp only
      refine ⟨?_, by rw [List.getElem?_set_ne (by omega)]; exact e2⟩
      rw [List.map_set, fillLoad_id hf, ← e1]
      refine List.ext_getElem? fun j => ?_
      by_cases hj : i + 1 = j
      · subst hj
        have hlt : i + 1 < rows.length := (List.getElem?_eq_some_iff.mp hr).1
        rw [List.getElem?_set_self (by rw [List.length_map]; exact hlt), List.getElem?_map, hr]; rfl
      · rw [List.getElem?_set_ne hj]

/-- loads that end in a letter and have been seen share the row -/
theorem place_seen {s : LoadState K} {n : Text} {i : Nat} (hl : endsInLetter n = true) (hd : s.dict.find? (·.1 = n.dropLast) = some (n.dropLast, i)) :
    placeLoad s (some n) = .ok { s with index := some i } := by
  unfold placeLoad
  simp only
  cases hc : n.getLast? with
  | none => unfold endsInLetter at hl; rw [hc] at hl; cases hl
  | some c =>
    have := isLetter_ends hc
    rw [hl] at this
    simp only
    rw [if_pos this.symm, hd]

end Ditto.Eph
