import Verif.Lemmas.EphLoads
import Mathlib.Algebra.Field.Rat
import Mathlib.Algebra.Order.Ring.Unbundled.Rat

/-! C108: the loads of ePHASOR files -/
namespace Ditto.Eph
open Ditto Ditto.Eph.Spec
open Ditto.Glm (Text)
variable {K : Type} [Field K] [LinearOrder K]

/-- C108: if all loads have names and no two of them only differ in the letter of a phase at the end, then the sheet has a row for each load, in order, with
its voltage, its connection, the bus and power of each of its first three phases and the portions of its last phase. -/
theorem C108_loads_partial {loads : List (EphLoad K)} (hs : Single loads) {rows : List (LoadRow K)} (h : loadSheet loads = .ok rows) :
    List.Forall₂ LoadSays loads rows := by
  unfold loadSheet at h
  cases hf : loads.foldlM loadStep ({} : LoadState K) with
  | error e => rw [hf] at h; cases h
  | ok s =>
    rw [hf] at h
    cases h
    obtain ⟨rows, h1, h2⟩ := fold_single (s := {}) rfl (fun l hl => (hs.1 l hl).1) hs.2 hf
    rw [List.nil_append] at h1
    simp only
    rw [h1]; exact h2

/-- C108: such loads are written if they have at most three phases and if no sum of the portions of a ZIP load is zero. -/
theorem C108_written_partial {loads : List (EphLoad K)} (hs : Single loads) (hp : ∀ l ∈ loads, (phased l).length ≤ 3 ∧ ∀ j ∈ phased l, PhaseOk j) :
    ∃ rows, loadSheet loads = .ok rows := by
  obtain ⟨s, h⟩ := fold_single_exists (s := {}) rfl hs.1 hs.2 hp
  unfold loadSheet
  rw [h]
  exact ⟨_, rfl⟩

def exEphPhase (ph : Text) (p q : ℚ) : EphPhaseLoad ℚ := ⟨some ph, some p, some q, some 1, some 0, none, none, none, none, none, none⟩

def exEphZip : EphPhaseLoad ℚ := ⟨some "B".toList, some 3000, some 1000, some 8, some 1, some 1, some 1, some 2, some 1, some 3, some 1⟩

def exEphLoad : EphLoad ℚ := ⟨some "load_x1".toList, some 4000, some ['D'], some "n".toList, [exEphPhase "C".toList 2000 (-1000), { exEphZip with phase := none }, exEphZip]⟩

def exEphLoadA : EphLoad ℚ := ⟨some "ya".toList, none, none, some "m".toList, [exEphPhase "A".toList 5000 0]⟩

def exEphLoadRow : LoadRow ℚ :=
  { one := ⟨some "n_c".toList, some 2, some 1⟩, two := ⟨some "n_b".toList, some 3, some 1⟩, id := some "x1".toList, type := some "ZIP".toList, voltage := some 4,
    bandwidth := some (1 / 50), conn := some "delta".toList, kz := some 4, ki := some 2, kp := some 3, status := some 1, initial := some 0 }

def exEphLoadRowA : LoadRow ℚ :=
  { one := ⟨some "m_a".toList, some 5, some 0⟩, id := some "y".toList, type := some "ZIP".toList, bandwidth := some (1 / 50), kz := some 0, ki := some 0, kp := some 1,
    status := some 1, initial := some 0 }

example : loadSheet [exEphLoad, exEphLoadA] = .ok [exEphLoadRow, exEphLoadRowA] := by decide +kernel

example : Single [exEphLoad, exEphLoadA] := by unfold Single; decide +kernel

example : ∀ l ∈ [exEphLoad, exEphLoadA], (phased l).length ≤ 3 ∧ ∀ j ∈ phased l, PhaseOk j := by
  intro l hl
  rcases List.mem_cons.mp hl with rfl | hl
  · refine ⟨by decide +kernel, fun j hj => ?_⟩
    have : phased exEphLoad = [exEphPhase "C".toList 2000 (-1000), exEphZip] := by decide +kernel
    rw [this] at hj
    rcases List.mem_cons.mp hj with rfl | hj
    · intro h; revert h; decide +kernel
    · rcases List.mem_singleton.mp hj with rfl
      intro _
      exact ⟨by decide +kernel, by decide +kernel, ⟨2, by decide +kernel, by decide +kernel⟩, ⟨3, by decide +kernel, by decide +kernel⟩, 4, by decide +kernel, by decide +kernel⟩
  · rcases List.mem_singleton.mp hl with rfl
    refine ⟨by decide +kernel, fun j hj => ?_⟩
    have : phased exEphLoadA = [exEphPhase "A".toList 5000 0] := by decide +kernel
    rw [this] at hj
    rcases List.mem_singleton.mp hj with rfl
    intro h; revert h; decide +kernel

/-- C108: a power below zero, as of a load that feeds in, is written with the other sign, unless the load is a ZIP load. -/
theorem C108_sign_violated {loads : List (EphLoad K)} (hs : Single loads) {rows : List (LoadRow K)} (h : loadSheet loads = .ok rows) {l : EphLoad K} (hl : l ∈ loads)
    {i : Fin 3} {j : EphPhaseLoad K} (hj : (phased l)[i.val]? = some j) {z : Int} (hz : j.useZip = some z) (h1 : z ≠ 1) {p q : K} (hp : j.p = some p) (hq : j.q = some q)
    (hneg : p < 0) : ∃ r ∈ rows, LoadSays l r ∧ (slotAt r i).p = some (-p / 1000) := by
  obtain ⟨r, hr, hsays⟩ := Glm.found_right (C108_loads_partial hs h) hl
  have := ((hsays.phases i j hj).2.2.2.2 z hz h1).1 p q hp hq
  rw [if_pos hneg] at this
  exact ⟨r, hr, hsays, this.1⟩

def exEphExport : EphLoad ℚ := ⟨some "pv".toList, none, some ['Y'], some "n".toList, [exEphPhase "C".toList (-2000) 0]⟩

def exEphExportRow : LoadRow ℚ :=
  { one := ⟨some "n_c".toList, some 2, some 0⟩, id := some "pv".toList, type := some "ZIP".toList, bandwidth := some (1 / 50), conn := some "wye".toList, kz := some 0, ki := some 0,
    kp := some 1, status := some 1, initial := some 0 }

example : loadSheet [exEphExport] = .ok [exEphExportRow] := by decide +kernel

/-- C108: a load and another with the same name and the letter of a phase get the same ID. -/
theorem C108_ids_violated {loads : List (EphLoad K)} (hs : Single loads) {rows : List (LoadRow K)} (h : loadSheet loads = .ok rows) {a b : EphLoad K} (ha : a ∈ loads) (hb : b ∈ loads)
    {n : Text} {c : Char} (hn : a.name = some n) (hne : endsInLetter n = false) (hbn : b.name = some (n ++ [c])) (hc : c.toLower ∈ ['a', 'b', 'c']) :
    ∃ r ∈ rows, ∃ r' ∈ rows, LoadSays a r ∧ LoadSays b r' ∧ r.id = r'.id := by
  obtain ⟨r, hr, hsr⟩ := Glm.found_right (C108_loads_partial hs h) ha
  obtain ⟨r', hr', hsr'⟩ := Glm.found_right (C108_loads_partial hs h) hb
  refine ⟨r, hr, r', hr', hsr, hsr', ?_⟩
  obtain ⟨m, hm, e⟩ := hsr.id
  obtain ⟨m', hm', e'⟩ := hsr'.id
  rw [hn] at hm; cases hm
  rw [hbn] at hm'; cases hm'
  have h1 : stem n = n := by unfold stem; rw [hne]; rfl
  have h2 : stem (n ++ [c]) = n := by
    unfold stem
    have : endsInLetter (n ++ [c]) = true := by unfold endsInLetter; rw [List.getLast?_concat]; exact decide_eq_true hc
    rw [this, if_pos rfl, List.dropLast_concat]
  rw [e, e', h1, h2]

def exEphY : EphLoad ℚ := { exEphLoadA with name := some "y".toList }

example : Single [exEphY, exEphLoadA] ∧ (loadSheet [exEphY, exEphLoadA]).map (·.map (·.id)) = .ok [some "y".toList, some "y".toList] := by
  unfold Single; decide +kernel

omit [Field K] [LinearOrder K] in
theorem first_place {n : Text} (hl : endsInLetter n = true) : placeLoad ({} : LoadState K) (some n) =
    .ok { rows := [{ id := some (shortName n.dropLast) }], index := some 0, dict := [(n.dropLast, 0)] } := by
  unfold placeLoad
  simp only
  cases hc : n.getLast? with
  | none => unfold endsInLetter at hl; rw [hc] at hl; cases hl
  | some c =>
    have := isLetter_ends hc
    rw [hl] at this
    simp only
    rw [if_pos this.symm, ← loadId_short]
    rfl

/-- the first load, if it ends in a letter -/
theorem first_load {l : EphLoad K} {n : Text} (hn : l.name = some n) (hl : endsInLetter n = true) {s : LoadState K} (h : loadStep {} l = .ok s) :
    ∃ r, fillLoad l { id := some (shortName n.dropLast) } = .ok r ∧ s = { rows := [r], index := some 0, dict := [(n.dropLast, 0)] } := by
  unfold loadStep at h
  rw [hn, first_place hl] at h
  simp only [List.getElem?_cons_zero] at h
  cases hf : fillLoad l { id := some (shortName n.dropLast) } with
  | error e => rw [hf] at h; cases h
  | ok r => rw [hf] at h; cases h; exact ⟨r, rfl, rfl⟩

theorem ends_of {s : Text} {c : Char} (hc : c.toLower ∈ ['a', 'b', 'c']) : endsInLetter (s ++ [c]) = true ∧ (s ++ [c]).dropLast = s := by
  refine ⟨?_, List.dropLast_concat⟩
  unfold endsInLetter; rw [List.getLast?_concat]; exact decide_eq_true hc

/-- C108: two loads whose names only differ in the letter of a phase share a row, and the second one starts at the first columns again: the row is that of
the second load, filled over the row of the first one. -/
theorem C108_merged_violated {a b : EphLoad K} {s : Text} {c d : Char} (hc : c.toLower ∈ ['a', 'b', 'c']) (hd : d.toLower ∈ ['a', 'b', 'c']) (ha : a.name = some (s ++ [c]))
    (hb : b.name = some (s ++ [d])) {rows : List (LoadRow K)} (h : loadSheet [a, b] = .ok rows) :
    ∃ r r', fillLoad a { id := some (shortName s) } = .ok r ∧ fillLoad b r = .ok r' ∧ rows = [r'] := by
  unfold loadSheet at h
  rw [List.foldlM_cons] at h
  obtain ⟨ec, dc⟩ := ends_of (s := s) hc
  obtain ⟨ed, dd⟩ := ends_of (s := s) hd
  cases h1 : loadStep {} a with
  | error e => rw [h1] at h; cases h
  | ok t =>
    rw [h1] at h
    obtain ⟨r, hr, rfl⟩ := first_load ha ec h1
    simp only [bind, Except.bind, List.foldlM_cons, List.foldlM_nil] at h
    cases h2 : loadStep { rows := [r], index := some 0, dict := [((s ++ [c]).dropLast, 0)] } b with
    | error e => rw [h2] at h; cases h
    | ok u =>
      rw [h2] at h
      cases h
      rw [dc] at h2 hr
      have hp := place_seen (s := { rows := [r], index := some 0, dict := [(s, 0)] }) (n := s ++ [d]) (i := 0) ed (by rw [dd]; simp)
      rw [← hb] at hp
      obtain ⟨-, -, -, r0, r', h3, h4, h5⟩ := step_shared hp h2
      cases h3
      exact ⟨r, r', hr, h4, h5⟩

/-- a load with one phase -/
def oneLoad (name node phase : Text) (p q : K) : EphLoad K := ⟨some name, none, none, some node, [⟨some phase, some p, some q, some 1, some 0, none, none, none, none, none, none⟩]⟩

/-- C108: so the power of the first of them is lost. -/
theorem C108_lost_violated {s node : Text} {c d : Char} (hc : c.toLower ∈ ['a', 'b', 'c']) (hd : d.toLower ∈ ['a', 'b', 'c']) (x y : Text) (p q p' q' : K) :
    ∃ r, loadSheet [oneLoad (s ++ [c]) node x p q, oneLoad (s ++ [d]) node y p' q'] = .ok [r] ∧ (slotAt r 0).bus = some (busName node y) ∧
      (slotAt r 0).p = some (magnitude p' / 1000) ∧ (slotAt r 0).q = some (magnitude q' / 1000) ∧ slotAt r 1 = {} ∧ slotAt r 2 = {} := by
  obtain ⟨ec, dc⟩ := ends_of (s := s) hc
  obtain ⟨ed, dd⟩ := ends_of (s := s) hd
  unfold loadSheet
  have hp1 := first_place (K := K) ec
  have hp2 : ∀ r : LoadRow K, placeLoad { rows := [r], index := some 0, dict := [(s, 0)] } (some (s ++ [d])) = .ok { rows := [r], index := some 0, dict := [(s, 0)] } :=
    fun r => place_seen (s := { rows := [r], index := some 0, dict := [(s, 0)] }) (n := s ++ [d]) (i := 0) ed (by rw [dd]; simp)
  rw [dc] at hp1
  simp only [List.foldlM_cons, List.foldlM_nil, bind, Except.bind, loadStep, oneLoad, hp1, hp2, List.getElem?_cons_zero, fillLoad, loadPhases, volted, loadPhase, busPhase, setSlot,
    plainPhase, plainPower, Except.map, List.set_cons_zero, pure, Except.pure, zero_ne_one, if_false]
  refine ⟨_, rfl, ?_⟩
  simp [finishLoad, modelPortions, slotAt, setSlot, Except.map]

/-- C108: after such a load, a new one is written over the load in the next row, and the last row stays empty: here the loads are x (phase c), y, x (phase d)
and z, and y is lost. -/
theorem C108_overwritten_violated {a b e f : EphLoad K} {s y z : Text} {c d : Char} (hc : c.toLower ∈ ['a', 'b', 'c']) (hd : d.toLower ∈ ['a', 'b', 'c']) (ha : a.name = some (s ++ [c]))
    (hb : b.name = some y) (he : e.name = some (s ++ [d])) (hf : f.name = some z) (hy : y ≠ [] ∧ endsInLetter y = false) (hz : z ≠ [] ∧ endsInLetter z = false)
    {rows : List (LoadRow K)} (h : loadSheet [a, b, e, f] = .ok rows) :
    rows.map (·.id) = [some (shortName s), some (shortName z), none] ∧ rows[2]? = some ({} : LoadRow K) := by
  unfold loadSheet at h
  rw [List.foldlM_cons] at h
  obtain ⟨ec, dc⟩ := ends_of (s := s) hc
  obtain ⟨ed, dd⟩ := ends_of (s := s) hd
  cases h1 : loadStep {} a with
  | error x => rw [h1] at h; cases h
  | ok t =>
    rw [h1] at h
    obtain ⟨r, hr, rfl⟩ := first_load ha ec h1
    simp only [bind, Except.bind, List.foldlM_cons, List.foldlM_nil] at h
    rw [dc] at h hr
    cases h2 : loadStep { rows := [r], index := some 0, dict := [(s, 0)] } b with
    | error x => rw [h2] at h; cases h
    | ok u =>
      rw [h2] at h
      simp only at h
      obtain ⟨r2, hr2, e1, e2, e3⟩ := step_end (s := { rows := [r], index := some 0, dict := [(s, 0)] }) rfl hb (fun x => by rw [hy.2] at x; cases x) h2
      rw [hy.2] at e3
      cases h3 : loadStep u e with
      | error x => rw [h3] at h; cases h
      | ok v =>
        rw [h3] at h
        simp only at h
        have hp := place_seen (s := u) (n := s ++ [d]) (i := 0) ed (by rw [dd, e3]; simp)
        rw [← he] at hp
        obtain ⟨f1, f2, f3, -⟩ := step_shared hp h3
        cases h4 : loadStep v f with
        | error x => rw [h4] at h; cases h
        | ok w =>
          rw [h4] at h
          cases h
          have hlen : v.rows.length = 2 := by
            have := congrArg List.length f1
            rw [List.length_map, List.length_map, e1] at this
            exact this
          obtain ⟨g1, g2⟩ := step_behind hf hz.1 hz.2 f2 (by rw [hlen]; decide) h4
          rw [hlen] at g2
          refine ⟨?_, g2⟩
          simp only
          have i1 := fillLoad_id hr
          have i2 := fillLoad_id hr2
          rw [g1, f1, e1]
          simp [i1]

example : loadSheet [oneLoad "xa".toList "n".toList "A".toList (1000 : ℚ) 0, oneLoad "y".toList "m".toList "A".toList 2000 0, oneLoad "xb".toList "n".toList "B".toList 3000 0,
    oneLoad "z".toList "k".toList "A".toList 4000 0] = .ok [
      { exEphLoadRowA with one := ⟨some "n_b".toList, some 3, some 0⟩, id := some "x".toList }, { exEphLoadRowA with one := ⟨some "k_a".toList, some 4, some 0⟩, id := some "z".toList }, {}] := by
  decide +kernel

/-- C108: a ZIP load without a constant current part, or without one of the other parts, stops the writer. -/
theorem C108_zip_violated {loads : List (EphLoad K)} {l : EphLoad K} (hl : l ∈ loads) {j : EphPhaseLoad K} (hj : j ∈ phased l) (hz : ¬PhaseOk j) (rows : List (LoadRow K)) :
    loadSheet loads ≠ .ok rows := by
  intro h
  unfold loadSheet at h
  cases hf : loads.foldlM loadStep ({} : LoadState K) with
  | error e => rw [hf] at h; cases h
  | ok s =>
    obtain ⟨-, r, r', hr⟩ := fold_fills hf l hl
    obtain ⟨t, ht, -⟩ := fillLoad_ok hr
    exact hz ((loadPhases_ok ht).fine j hj)

def exEphPowerOnly : EphPhaseLoad ℚ := { exEphZip with pCurrent := some 0, qCurrent := some 0, pPower := some 1, qPower := some 1 }

example : ¬PhaseOk exEphPowerOnly := fun h => by
  obtain ⟨-, -, ⟨a, ha, hne⟩, -⟩ := h rfl
  have : both exEphPowerOnly.pCurrent exEphPowerOnly.qCurrent = some 0 := by decide +kernel
  rw [this] at ha; cases ha; exact hne rfl

example : loadSheet [{ exEphLoadA with phaseLoads := [exEphPowerOnly] }] = .error .zeroDivisionError := by decide +kernel

/-- C108: a load at a node with more than three phases, for instance with two loads per phase, stops the writer. -/
theorem C108_phases_violated {loads : List (EphLoad K)} {l : EphLoad K} (hl : l ∈ loads) (he : l.element ≠ none) (hp : 3 < (phased l).length) (rows : List (LoadRow K)) :
    loadSheet loads ≠ .ok rows := by
  intro h
  unfold loadSheet at h
  cases hf : loads.foldlM loadStep ({} : LoadState K) with
  | error e => rw [hf] at h; cases h
  | ok s =>
    obtain ⟨-, r, r', hr⟩ := fold_fills hf l hl
    obtain ⟨t, ht, -⟩ := fillLoad_ok hr
    have := (loadPhases_ok ht).few he (fun hn => by unfold phased at hp; rw [hn] at hp; cases hp)
    unfold phased at hp
    omega

example : loadSheet [{ exEphLoadA with phaseLoads := List.replicate 4 (exEphPhase "A".toList 5000 0) }] = .error .keyError := by decide +kernel

/-- C108: a load with the default name, which is the empty text, stops the writer; a load without a name is written over the load before, or stops the
writer if it is the first one. -/
theorem C108_unnamed_violated : (∀ {loads : List (EphLoad K)} {l : EphLoad K}, l ∈ loads → l.name = some [] → ∀ rows, loadSheet loads ≠ .ok rows) ∧
    (∀ {l : EphLoad K} (loads : List (EphLoad K)), l.name = none → loadSheet (l :: loads) = .error .indexError) ∧
    ∀ {a b : EphLoad K} {rows : List (LoadRow K)}, (∃ n, a.name = some n) → b.name = none → loadSheet [a, b] = .ok rows → rows.length = 1 := by
  refine ⟨fun {loads l} hl hn rows h => ?_, fun {l} loads hn => ?_, fun {a b rows} ⟨n, ha⟩ hb h => ?_⟩
  · unfold loadSheet at h
    cases hf : loads.foldlM loadStep ({} : LoadState K) with
    | error e => rw [hf] at h; cases h
    | ok s => exact (fold_fills hf l hl).1 hn
  · unfold loadSheet
    rw [List.foldlM_cons]
    have : loadStep {} l = .error .indexError := by unfold loadStep; rw [hn]; rfl
    rw [this]; rfl
  · unfold loadSheet at h
    simp only [bind, Except.bind, List.foldlM_cons, List.foldlM_nil] at h
    cases h1 : loadStep {} a with
    | error e => rw [h1] at h; cases h
    | ok s =>
      rw [h1] at h
      simp only at h
      obtain ⟨r, -, e1, e2, -⟩ := step_end (s := {}) rfl ha (fun _ => rfl) h1
      cases h2 : loadStep s b with
      | error e => rw [h2] at h; cases h
      | ok t =>
        rw [h2] at h
        cases h
        have hi : s.index = some 0 := by
          unfold AtEnd at e2
          rw [e1] at e2
          cases hs : s.index with
          | none => rw [hs] at e2; cases e2
          | some i => rw [hs] at e2; cases e2; rfl
        have hp : placeLoad s b.name = .ok { s with index := some 0 } := by rw [hb, ← hi]; rfl
        obtain ⟨-, -, -, r0, r', -, -, h5⟩ := step_shared hp h2
        simp only
        rw [h5, e1]; rfl

example : (loadSheet [exEphLoadA, { exEphLoad with name := none }]).map List.length = .ok 1 := by decide +kernel

end Ditto.Eph
