import Verif.Lemmas.EphBuses
import Mathlib.Algebra.Field.Rat

/-! C107: the sheets Switch, Bus and Vsource of ePHASOR files -/
namespace Ditto.Eph
open Ditto Ditto.Eph.Spec
open Ditto.Glm (Text)

/-- C107: the sheet Switch has a row for each pole of each switch with both ends, in order, with the buses of the pole and its state, and no other rows.
It is written just if all these switches have names (as `PoleSays` says). -/
theorem C107_switches (lines : List EphSwitch) (rows : List SwitchRow) : switchSheet lines = .ok rows ↔ List.Forall₂ PoleSays (poles lines) rows :=
  mapM_flatten switchRows_ok lines rows

/-- C107: a switch with both ends, but without a name, stops the writer. -/
theorem C107_unnamed_violated {lines : List EphSwitch} {q : EphSwitch × EphWire} (hq : q ∈ poles lines) (hn : q.1.name = none) : ∃ e, switchSheet lines = .error e := by
  cases h : switchSheet lines with
  | error e => exact ⟨e, rfl⟩
  | ok rows =>
    obtain ⟨r, -, -, -, n, -, -, -, hname, -⟩ := Glm.found_right ((C107_switches lines rows).mp h) hq
    rw [hn] at hname; cases hname

def exEphSwitch : EphSwitch := ⟨some true, some "s".toList, some "x".toList, some "y".toList, [⟨some "C".toList, some true⟩, ⟨some "A".toList, none⟩, ⟨some "N".toList, none⟩]⟩

def exEphLine : EphSwitch := ⟨none, some "l".toList, some "x".toList, some "y".toList, [⟨some "C".toList, some true⟩]⟩

example : switchSheet [exEphLine, exEphSwitch] =
    .ok [⟨"x_c".toList, "y_c".toList, "s_c".toList, "0".toList⟩, ⟨"x_a".toList, "y_a".toList, "s_a".toList, "1".toList⟩] := by decide +kernel

example : poles [exEphLine, exEphSwitch] = [(exEphSwitch, ⟨some "C".toList, some true⟩), (exEphSwitch, ⟨some "A".toList, none⟩)] := by decide +kernel

section numbers
variable {K : Type} [Field K]

/-- C107: the sheet Bus has a row for each of the phases a, b and c of each node, in order, with its name, its voltage divided by the root of 3 and its
type, and no other rows. -/
theorem C107_buses_partial {root : K} {nodes : List (EphNode K)} {rows : List (BusRow K)} (h : busSheet root nodes = .ok rows) :
    List.Forall₂ (BusSays root) (places nodes) rows := by
  obtain ⟨cs, hc, hl, rfl⟩ := busSheet_ok h
  have h1 := (cells_ok root nodes cs.flatten).mp (by rw [hc]; rfl)
  rw [← (zip_cells hl).1, List.forall₂_map_right_iff] at h1
  exact h1.imp fun q r hr => hr

/-- C107: the sheet Bus is written just if no node has a phase twice, and all nodes with phases have names. -/
theorem C107_bus_sheet (root : K) (nodes : List (EphNode K)) :
    (∃ rows, busSheet root nodes = .ok rows) ↔ ∀ n ∈ nodes, (lettersOf n.phases).Nodup ∧ (lettersOf n.phases ≠ [] → n.name ≠ none) := by
  constructor
  · rintro ⟨rows, h⟩ n hn
    obtain ⟨cs, hc, hl, -⟩ := busSheet_ok h
    rw [cells_length hc] at hl
    exact ⟨(places_length nodes).2.mp hl.symm n hn, (cells_exist root nodes).mp ⟨cs, hc⟩ n hn⟩
  · intro h
    obtain ⟨cs, hc⟩ := (cells_exist root nodes).mpr fun n hn => (h n hn).2
    have hl : cs.flatten.length = (nodes.flatMap fun n => busAngles (letterPhases n.phases)).length := by
      rw [cells_length hc]; exact ((places_length nodes).2.mpr fun n hn => (h n hn).1).symm
    unfold busSheet
    rw [hc]
    simp only
    rw [if_pos hl]
    exact ⟨_, rfl⟩

/-- C107: a node that has a phase twice, for instance as "A" and as "a", stops the writer with ValueError. -/
theorem C107_repeated_violated {root : K} {nodes : List (EphNode K)} (hnames : ∀ n ∈ nodes, n.name ≠ none) {n : EphNode K} (hn : n ∈ nodes)
    (hp : ¬(lettersOf n.phases).Nodup) : busSheet root nodes = .error .valueError := by
  obtain ⟨cs, hc⟩ := (cells_exist root nodes).mpr fun n hn _ => hnames n hn
  have hl : ¬cs.flatten.length = (nodes.flatMap fun n => busAngles (letterPhases n.phases)).length := by
    rw [cells_length hc]
    exact fun h => hp ((places_length nodes).2.mp h.symm n hn)
  unfold busSheet
  rw [hc]
  simp only
  rw [if_neg hl]

/-- C107: the angles are those of the phases just if all nodes have their phases in the order a, b, c. -/
theorem C107_angles_partial {root : K} {nodes : List (EphNode K)} {rows : List (BusRow K)} (h : busSheet root nodes = .ok rows) :
    List.Forall₂ (fun q r => r.angle = angleOf q.2) (places nodes) rows ↔ ∀ n ∈ nodes, (lettersOf n.phases).Sublist letters := by
  obtain ⟨cs, hc, hl, rfl⟩ := busSheet_ok h
  rw [← angles_flat fun n hn => ((C107_bus_sheet root nodes).mp ⟨_, h⟩ n hn).1]
  have e : ∀ (qs : List (EphNode K × Text)) (rs : List (BusRow K)), List.Forall₂ (fun q r => r.angle = angleOf q.2) qs rs ↔
      qs.map (fun q => angleOf q.2) = rs.map (·.angle) := by
    intro qs
    induction qs with
    | nil => intro rs; cases rs <;> simp
    | cons q qs ih => intro rs; cases rs with
      | nil => simp
      | cons r rs => rw [List.forall₂_cons, ih, List.map_cons, List.map_cons, List.cons.injEq]; exact and_congr_left' eq_comm
  rw [e, (zip_cells hl).2]

/-- C107: a node with the phases in another order gets angles of other phases. -/
theorem C107_angles_violated {root : K} {nodes : List (EphNode K)} {rows : List (BusRow K)} (h : busSheet root nodes = .ok rows) {n : EphNode K} (hn : n ∈ nodes)
    (hp : ¬(lettersOf n.phases).Sublist letters) : ¬List.Forall₂ (fun q r => r.angle = angleOf q.2) (places nodes) rows :=
  fun x => hp ((C107_angles_partial h).mp x n hn)

def exEphNode : EphNode ℚ := ⟨some "x".toList, some 6, [some "C".toList, none, some "A".toList, some "N".toList]⟩

def exEphSourceNode : EphNode ℚ := ⟨some "SourceBus".toList, none, [some "A".toList, some "b".toList]⟩

example : busSheet (2 : ℚ) [exEphNode, exEphSourceNode] = .ok
    [⟨⟨"x_c".toList, some 3, "PQ".toList⟩, 0⟩, ⟨⟨"x_a".toList, some 3, "PQ".toList⟩, -120⟩, ⟨⟨"SourceBus_a".toList, none, "SLACK".toList⟩, 0⟩,
      ⟨⟨"SourceBus_b".toList, none, "SLACK".toList⟩, 120⟩] := by decide +kernel

example : ¬(lettersOf exEphNode.phases).Sublist letters ∧ (lettersOf exEphSourceNode.phases).Sublist letters := by decide +kernel

def exEphTwice : EphNode ℚ := ⟨some "x".toList, some 6, [some "A".toList, some "a".toList]⟩

example : ¬(lettersOf exEphTwice.phases).Nodup ∧ busSheet (2 : ℚ) [exEphNode, exEphTwice] = .error .valueError :=
  ⟨by decide +kernel, C107_repeated_violated (n := exEphTwice) (by decide +kernel) (by decide +kernel) (by decide +kernel)⟩

/-- C107: only nodes called "sourcebus" are slack buses, wherever the sources are. -/
theorem C107_slack_violated {root : K} {nodes : List (EphNode K)} {rows : List (BusRow K)} (h : busSheet root nodes = .ok rows)
    (hn : ∀ n ∈ nodes, ∀ m ∈ n.name, m.map Char.toLower ≠ "sourcebus".toList) : ∀ r ∈ rows, r.cells.type ≠ "SLACK".toList := by
  intro r hr
  obtain ⟨q, hq, m, hm, -, -, -, ht⟩ := Glm.found_left (C107_buses_partial h) hr
  obtain ⟨n, hnn, hq⟩ := List.mem_flatMap.mp hq
  obtain ⟨p, -, rfl⟩ := List.mem_map.mp hq
  rw [ht (hn n hnn m hm)]
  decide

example : ∀ n ∈ [exEphNode], ∀ m ∈ n.name, m.map Char.toLower ≠ "sourcebus".toList := by decide +kernel

/-- C107: the sheet Vsource has a row for each source, in order, with its name, voltage, angle, short circuit power and buses. -/
theorem C107_sources_partial {sources : List (EphSource K)} {rows : List (SourceRow K)} (h : sourceSheet sources = .ok rows) :
    List.Forall₂ SourceSays sources rows := by
  refine (Net.mapM_forall₂ h).imp fun s r hr => ?_
  unfold sourceRow at hr
  cases hv : s.voltage with
  | none => rw [hv] at hr; cases hr
  | some v =>
    rw [hv] at hr
    obtain ⟨⟨h1, h2, h3, h4, h5⟩, -, hl⟩ := source_fold hr
    refine ⟨h1, h3, ⟨v, hv, h2⟩, h4, h5.trans h4.symm, fun p hp => ⟨(hl p hp).1, fun hn => ((hl p hp).2 hn).trans ?_⟩⟩
    unfold busOfLetter
    split
    · rfl
    · split <;> rfl

/-- C107: the sheet Vsource is written if and only if all sources have voltages and phases, and nodes if they have phases a, b or c. -/
theorem C107_source_sheet (sources : List (EphSource K)) : (∃ rows, sourceSheet sources = .ok rows) ↔ ∀ s ∈ sources, Written s := by
  constructor
  · rintro ⟨rows, h⟩ s hs
    obtain ⟨r, -, hr⟩ := Glm.found_right (Net.mapM_forall₂ h) hs
    unfold sourceRow at hr
    cases hv : s.voltage with
    | none => rw [hv] at hr; cases hr
    | some v =>
      rw [hv] at hr
      have hl := (source_fold hr).2.2
      refine ⟨by rw [hv]; exact Option.some_ne_none _, fun hn => ?_, fun hne => ?_⟩
      · have : ∀ (ps : List (Option Text)) (a b : SourceRow K), none ∈ ps → ps.foldlM (sourcePhase s.element) a ≠ .ok b := by
          intro ps
          induction ps with
          | nil => intro a b hm; cases hm
          | cons o ps ih =>
            intro a b hm hx
            rw [List.foldlM_cons] at hx
            cases ho : sourcePhase s.element a o with
            | error e => rw [ho] at hx; cases hx
            | ok c =>
              rw [ho] at hx
              rcases List.mem_cons.mp hm with h | h
              · subst h; cases ho
              · exact ih c b h hx
        exact this _ _ _ hn hr
      · obtain ⟨p, hp⟩ := List.exists_mem_of_ne_nil _ hne
        obtain ⟨e, b, he, -⟩ := (hl p (letterPhases_letters hp)).1 hp
        rw [he]; exact Option.some_ne_none _
  · intro h
    induction sources with
    | nil => exact ⟨[], rfl⟩
    | cons s sources ih =>
      obtain ⟨rows, hrows⟩ := ih fun s hs => h s (List.mem_cons_of_mem _ hs)
      obtain ⟨hv, hp, he⟩ := h s List.mem_cons_self
      obtain ⟨v, hv⟩ := Option.ne_none_iff_exists'.mp hv
      have : ∃ r, sourceRow s = .ok r := by unfold sourceRow; rw [hv]; exact source_fold_exists _ hp he
      obtain ⟨r, hr⟩ := this
      refine ⟨r :: rows, ?_⟩
      unfold sourceSheet at hrows ⊢
      rw [List.mapM_cons, hr, hrows]; rfl

/-- C107: the impedances of the sources are never written. -/
theorem C107_impedances_violated {sources : List (EphSource K)} {rows : List (SourceRow K)} (h : sourceSheet sources = .ok rows) :
    ∀ r ∈ rows, r.rPos = none ∧ r.xPos = none ∧ r.rZero = none ∧ r.xZero = none := by
  intro r hr
  obtain ⟨s, -, hs⟩ := Glm.found_left (Net.mapM_forall₂ h) hr
  unfold sourceRow at hs
  cases hv : s.voltage with
  | none => rw [hv] at hs; cases hs
  | some v => rw [hv] at hs; exact (source_fold hs).2.1

def exEphSource : EphSource ℚ := ⟨some "s".toList, some "x".toList, some 2000, some 30, some 5000000, [some "C".toList, some "A".toList, some "n".toList], some (1, 2), none⟩

def exEphSourceRow : SourceRow ℚ := { busA := some "x_a".toList, busC := some "x_c".toList, name := some "s".toList, voltage := 2, angle := some 30, short1 := some 5, short3 := some 5 }

example : sourceSheet [exEphSource] = .ok [exEphSourceRow] := by decide +kernel

example : Written exEphSource := by unfold Written; decide +kernel

/-- C107: if the model has the nodes of all poles and sources with their phases, then all buses of the sheets Switch and Vsource are in the sheet Bus. -/
theorem C107_listed_partial {root : K} {nodes : List (EphNode K)} {lines : List EphSwitch} {sources : List (EphSource K)} {rows : List (BusRow K)}
    {switches : List SwitchRow} {vs : List (SourceRow K)} (h : busSheet root nodes = .ok rows) (hs : switchSheet lines = .ok switches)
    (hv : sourceSheet sources = .ok vs) (hp : PolesHaveNodes nodes lines) (hsn : SourcesHaveNodes nodes sources) :
    (∀ s ∈ switches, s.source ∈ rows.map (·.cells.bus) ∧ s.sink ∈ rows.map (·.cells.bus)) ∧
      ∀ v ∈ vs, ∀ p ∈ letters, ∀ b ∈ busOfLetter v p, b ∈ rows.map (·.cells.bus) := by
  have key : ∀ n ∈ nodes, ∀ e, n.name = some e → ∀ p ∈ lettersOf n.phases, ∀ b, BusOf e p b → b ∈ rows.map (·.cells.bus) := by
    intro n hn e he p hpp b hb
    have hq : (n, p) ∈ places nodes := List.mem_flatMap.mpr ⟨n, hn, List.mem_map.mpr ⟨p, hpp, rfl⟩⟩
    obtain ⟨r, hr, m, hm, hbus, -⟩ := Glm.found_right (C107_buses_partial h) hq
    simp only at hm hbus
    rw [he] at hm; cases hm
    exact List.mem_map.mpr ⟨r, hr, hbus.trans hb.symm⟩
  have low : ∀ {e p b : Text}, p.map Char.toLower ∈ letters → BusOf e p b → BusOf e (p.map Char.toLower) b := by
    intro e p b hl hb
    unfold BusOf at hb ⊢
    have := lowered_letter hl
    unfold lowered at this
    rw [this]; exact hb
  constructor
  · intro s hss
    obtain ⟨q, hq, a, b, n, p, ha, hb, -, hph, h1, h2, -⟩ := Glm.found_left ((C107_switches lines switches).mp hs) hss
    obtain ⟨m, hm, hm1, hm2⟩ := hp q hq p hph a (.inl ha)
    obtain ⟨m', hm', hm1', hm2'⟩ := hp q hq p hph b (.inr hb)
    exact ⟨key m hm a hm1 _ hm2 _ (low (letterPhases_letters hm2) h1), key m' hm' b hm1' _ hm2' _ (low (letterPhases_letters hm2') h2)⟩
  · intro v hvv p hpl b hb
    obtain ⟨s, hss, -, -, -, -, -, hl⟩ := Glm.found_left (C107_sources_partial hv) hvv
    by_cases hin : p ∈ lettersOf s.phases
    · obtain ⟨e, b', he, hb', hbus⟩ := (hl p hpl).1 hin
      rw [hb'] at hb; cases hb
      obtain ⟨n, hn, hne, hnp⟩ := hsn s hss p hin e he
      exact key n hn e hne p hnp _ hbus
    · rw [(hl p hpl).2 hin] at hb; cases hb

/-- C107: the buses of other phases, as those of triplex lines or a neutral in lower case, are in the sheet Switch, but never in the sheet Bus. -/
theorem C107_unlisted_violated {root : K} {nodes : List (EphNode K)} {lines : List EphSwitch} {rows : List (BusRow K)} {switches : List SwitchRow}
    (h : busSheet root nodes = .ok rows) (hs : switchSheet lines = .ok switches) {q : EphSwitch × EphWire} (hq : q ∈ poles lines) {p : Text} {c : Char}
    (hp : q.2.phase = some (p ++ [c])) (hc : c.toLower ∉ ['a', 'b', 'c']) : ∃ s ∈ switches, s.source ∉ rows.map (·.cells.bus) := by
  obtain ⟨s, hss, a, b, n, p', ha, hb, -, hph, h1, -⟩ := Glm.found_right ((C107_switches lines switches).mp hs) hq
  rw [hp] at hph; cases hph
  refine ⟨s, hss, fun hm => ?_⟩
  obtain ⟨r, hr, hrb⟩ := List.mem_map.mp hm
  obtain ⟨q', hq', m, hm, hbus, -⟩ := Glm.found_left (C107_buses_partial h) hr
  obtain ⟨n', -, hq'⟩ := List.mem_flatMap.mp hq'
  obtain ⟨x, hx, rfl⟩ := List.mem_map.mp hq'
  have hx := letterPhases_letters hx
  unfold BusOf at h1 hbus
  rw [hrb, h1] at hbus
  have := congrArg List.getLast? hbus
  rw [List.map_append, ← List.append_assoc] at this
  simp only [List.map_cons, List.map_nil, List.getLast?_concat] at this
  have hl : ∀ x ∈ letters, ∀ y : Text, ∃ d ∈ ['a', 'b', 'c'], (y ++ x.map Char.toLower).getLast? = some d := by
    intro x hx y
    fin_cases hx <;> exact ⟨_, by decide, List.getLast?_concat⟩
  obtain ⟨d, hd, e⟩ := hl x hx (m ++ "_".toList)
  rw [e] at this
  cases this
  exact hc hd

def exEphTriplex : EphSwitch := ⟨some true, some "s".toList, some "x".toList, some "y".toList, [⟨some "s1".toList, none⟩]⟩

example : switchSheet [exEphTriplex] = .ok [⟨"x_s1".toList, "y_s1".toList, "s_s1".toList, "1".toList⟩] ∧ poles [exEphTriplex] = [(exEphTriplex, ⟨some "s1".toList, none⟩)] ∧
    '1'.toLower ∉ ['a', 'b', 'c'] := by decide +kernel

def exEphSink : EphNode ℚ := ⟨some "y".toList, none, [some "C".toList, some "A".toList]⟩

example : PolesHaveNodes [exEphNode, exEphSink] [exEphLine, exEphSwitch] ∧ SourcesHaveNodes [exEphNode, exEphSink] [exEphSource] := by
  constructor
  · intro q hq p hp e he
    have hq : q = (exEphSwitch, ⟨some "C".toList, some true⟩) ∨ q = (exEphSwitch, ⟨some "A".toList, none⟩) := by
      have : poles [exEphLine, exEphSwitch] = [(exEphSwitch, ⟨some "C".toList, some true⟩), (exEphSwitch, ⟨some "A".toList, none⟩)] := by decide +kernel
      rw [this] at hq
      simpa using hq
    rcases hq with rfl | rfl <;> cases hp <;> rcases he with h | h <;> cases h
    · exact ⟨exEphNode, .head _, rfl, by decide +kernel⟩
    · exact ⟨exEphSink, .tail _ (.head _), rfl, by decide +kernel⟩
    · exact ⟨exEphNode, .head _, rfl, by decide +kernel⟩
    · exact ⟨exEphSink, .tail _ (.head _), rfl, by decide +kernel⟩
  · intro s hs p hp e he
    rcases List.mem_singleton.mp hs with rfl
    cases he
    exact ⟨exEphNode, .head _, rfl, hp⟩

end numbers
end Ditto.Eph
