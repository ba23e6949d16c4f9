import Verif.Lemmas.DssNodes
import Mathlib.Data.Rat.Encodable

/-! C64: nodes keep position and phases in OpenDSS files. -/
namespace Ditto.Dss
open Ditto Ditto.Spec

/-- the run of the reader behind the nodes -/
theorem readNodes_inv {flt : List Char → Option ℚ} {d : Char} {src : String} {file : Option (List (List Char))} {q : Equipment} {rs : List RNode}
    (h : readNodes flt d src file q = .ok rs) : ReadableLines q ∧ ∃ bs, forPy upd (readCoords flt d file) (updates q) = .ok bs ∧
      rs = bs.map fun e => ⟨e.1, positionOf e.2.positions, phasesOf e.2.phases, src⟩ := by
  unfold readNodes at h
  by_cases hq : ReadableLines q
  · rw [readBusDict_good flt d file hq] at h
    cases hb : forPy upd (readCoords flt d file) (updates q) with
    | error e => rw [hb] at h; exact absurd h (by simp)
    | ok bs =>
      rw [hb] at h
      simp only [Except.ok.injEq] at h
      exact ⟨hq, bs, rfl, h.symm⟩
  · rw [readBusDict_bad flt d file hq] at h
    exact absurd h (by simp)

theorem phases_numbers {bs : Buses} {k : Option String} {r : BusRec} (h : bs.lookup k = some r) : phasesOf r.phases = (numbers bs k).map ofDssPhase := by
  unfold numbers phasesOf
  rw [h, Option.bind_some]
  cases r.phases with
  | none => rfl
  | some o => cases o <;> rfl

theorem coords_numbers (flt : List Char → Option ℚ) (d : Char) (file : Option (List (List Char))) (k : Option String) : numbers (readCoords flt d file) k = [] := by
  unfold numbers
  rw [readCoords_lookup]
  cases lastLine flt d file k <;> rfl

/-- The nodes are the buses of the file of coordinates and the buses of lines, transformers and loads, each once, all of the same feeder. -/
theorem C64_nodes (flt : List Char → Option ℚ) (d : Char) (src : String) (file : Option (List (List Char))) (q : Equipment) (rs : List RNode)
    (h : readNodes flt d src file q = .ok rs) :
    (rs.map (·.name)).Nodup ∧ (∀ b, (∃ r ∈ rs, r.name = some b) ↔ (lastLine flt d file (some b)).isSome = true ∨ Mentions q b) ∧ ∀ r ∈ rs, r.feeder = src := by
  obtain ⟨hq, bs, hb, rfl⟩ := readNodes_inv h
  obtain ⟨h1, -, h3, -⟩ := forUpd_spec _ hb
  have hn := h1 (readCoords_nodup flt d file)
  refine ⟨?_, fun b => ?_, fun r hr => ?_⟩
  · rw [List.map_map]; exact hn
  · rw [← updates_mentions hq]
    have h3' := h3 (some b)
    rw [readCoords_lookup, Option.isSome_map] at h3'
    rw [← h3']
    constructor
    · rintro ⟨r, hr, hname⟩
      obtain ⟨e, he, rfl⟩ := List.mem_map.1 hr
      have : (some b, e.2) ∈ bs := by rw [← hname]; exact he
      rw [(bus_mem_lookup hn).1 this]
      rfl
    · intro hs
      obtain ⟨r, hr⟩ := Option.isSome_iff_exists.1 hs
      exact ⟨_, List.mem_map.2 ⟨(some b, r), (bus_mem_lookup hn).2 hr, rfl⟩, rfl⟩
  · obtain ⟨e, he, rfl⟩ := List.mem_map.1 hr
    rfl

/-- The phases of a node are exactly those of the equipment at the bus; a number that is no phase appears as a phase without name. -/
theorem C64_phases (flt : List Char → Option ℚ) (d : Char) (src : String) (file : Option (List (List Char))) (q : Equipment) (rs : List RNode)
    (h : readNodes flt d src file q = .ok rs) (r : RNode) (hr : r ∈ rs) (b : String) (hb : r.name = some b) :
    (∀ ph, ph ∈ r.phases ↔ ∃ k, Touches q b k ∧ ph = ofDssPhase k) ∧
      ((∀ k, Touches q b k → k = 1 ∨ k = 2 ∨ k = 3) → (some "A" ∈ r.phases ↔ Touches q b 1) ∧ (some "B" ∈ r.phases ↔ Touches q b 2) ∧
        (some "C" ∈ r.phases ↔ Touches q b 3) ∧ none ∉ r.phases) := by
  obtain ⟨hq, bs, hbs, rfl⟩ := readNodes_inv h
  obtain ⟨h1, -, -, h4, -⟩ := forUpd_spec _ hbs
  have hn := h1 (readCoords_nodup flt d file)
  obtain ⟨e, he, rfl⟩ := List.mem_map.1 hr
  simp only at hb
  have hl : bs.lookup (some b) = some e.2 := (bus_mem_lookup hn).1 (by rw [← hb]; exact he)
  have hk : ∀ k, k ∈ numbers bs (some b) ↔ Touches q b k := by
    intro k
    rw [h4, coords_numbers, updates_touches]
    simp
  have hall : ∀ ph, ph ∈ phasesOf e.2.phases ↔ ∃ k, Touches q b k ∧ ph = ofDssPhase k := by
    intro ph
    rw [phases_numbers hl, List.mem_map]
    constructor
    · rintro ⟨k, hk', rfl⟩; exact ⟨k, (hk k).1 hk', rfl⟩
    · rintro ⟨k, hk', rfl⟩; exact ⟨k, (hk k).2 hk', rfl⟩
  refine ⟨hall, fun h123 => ⟨?_, ?_, ?_, ?_⟩⟩
  · simp only [hall]
    exact ⟨fun ⟨k, hk', hp⟩ => by rcases h123 k hk' with rfl | rfl | rfl <;> first | exact hk' | exact absurd hp (by decide), fun h => ⟨1, h, rfl⟩⟩
  · simp only [hall]
    exact ⟨fun ⟨k, hk', hp⟩ => by rcases h123 k hk' with rfl | rfl | rfl <;> first | exact hk' | exact absurd hp (by decide), fun h => ⟨2, h, rfl⟩⟩
  · simp only [hall]
    exact ⟨fun ⟨k, hk', hp⟩ => by rcases h123 k hk' with rfl | rfl | rfl <;> first | exact hk' | exact absurd hp (by decide), fun h => ⟨3, h, rfl⟩⟩
  · simp only [hall]
    rintro ⟨k, hk', hp⟩
    rcases h123 k hk' with rfl | rfl | rfl <;> exact absurd hp (by decide)

/-- No phase is listed twice, if no end repeats a number and all numbers are phases. -/
theorem C64_phases_once (flt : List Char → Option ℚ) (d : Char) (src : String) (file : Option (List (List Char))) (q : Equipment) (rs : List RNode)
    (h : readNodes flt d src file q = .ok rs) (r : RNode) (hr : r ∈ rs) (b : String) (hb : r.name = some b)
    (h123 : ∀ k, Touches q b k → k = 1 ∨ k = 2 ∨ k = 3)
    (hrep : (∀ l ∈ q.lines, ∀ ns, (l.bus1.2 = some ns ∨ l.bus2.2 = some ns) → ns.Nodup) ∧
      ∀ t ∈ q.trafos ++ q.loads, ∀ x ∈ t.buses, ∀ ns, x.2 = some ns → ns.Nodup) : r.phases.Nodup := by
  obtain ⟨hq, bs, hbs, rfl⟩ := readNodes_inv h
  obtain ⟨h1, -, -, h4, h5⟩ := forUpd_spec _ hbs
  have hn := h1 (readCoords_nodup flt d file)
  obtain ⟨e, he, rfl⟩ := List.mem_map.1 hr
  simp only at hb
  have hl : bs.lookup (some b) = some e.2 := (bus_mem_lookup hn).1 (by rw [← hb]; exact he)
  have hsoft : ∀ (three : Bool) (x : BusRef), (∀ ns, x.2 = some ns → ns.Nodup) → ((softEnd three x).2.getD []).Nodup := by
    rintro three ⟨a, o⟩ hx
    cases o with
    | some ns => exact hx ns rfl
    | none => cases three <;> simp [softEnd]
  have hnd : (numbers bs (some b)).Nodup := by
    refine h5 _ (by rw [coords_numbers]; exact List.nodup_nil) fun u hu => ?_
    rcases mem_updates.1 hu with ⟨l, hl, rfl | rfl⟩ | ⟨t, ht, x, hx, rfl⟩ | ⟨t, ht, x, hx, rfl⟩
    · exact hsoft _ _ fun ns hns => hrep.1 l hl ns (Or.inl hns)
    · exact hsoft _ _ fun ns hns => hrep.1 l hl ns (Or.inr hns)
    · exact hsoft _ _ (hrep.2 t (List.mem_append_left _ ht) x hx)
    · exact hsoft _ _ (hrep.2 t (List.mem_append_right _ ht) x hx)
  simp only
  rw [phases_numbers hl]
  refine List.Nodup.map_on (fun x hx y hy hxy => ?_) hnd
  have hk : ∀ k, k ∈ numbers bs (some b) → k = 1 ∨ k = 2 ∨ k = 3 := fun k hk => h123 k (by
    rw [h4, coords_numbers, updates_touches] at hk
    simpa using hk)
  rcases hk x hx with rfl | rfl | rfl <;> rcases hk y hy with rfl | rfl | rfl <;> first | rfl | exact absurd hxy (by decide)

/-- The position of a node is the one of the last line of the file for its bus. -/
theorem C64_last_line (flt : List Char → Option ℚ) (d : Char) (src : String) (file : Option (List (List Char))) (q : Equipment) (rs : List RNode)
    (h : readNodes flt d src file q = .ok rs) (r : RNode) (hr : r ∈ rs) : r.position = positionOf (lastLine flt d file r.name) := by
  obtain ⟨hq, bs, hbs, rfl⟩ := readNodes_inv h
  obtain ⟨h1, h2, -⟩ := forUpd_spec _ hbs
  have hn := h1 (readCoords_nodup flt d file)
  obtain ⟨e, he, rfl⟩ := List.mem_map.1 hr
  have hl : bs.lookup e.1 = some e.2 := (bus_mem_lookup hn).1 he
  have := h2 e.1
  rw [hl, Option.bind_some, readCoords_lookup] at this
  simp only
  rw [this]
  cases lastLine flt d file e.1 <;> rfl

theorem lastLine_none {flt : List Char → Option ℚ} {d : Char} {file : Option (List (List Char))} (hf : ∀ ls, file = some ls → ∀ l ∈ ls, ¬ Malformed d l) :
    lastLine flt d file none = none := by
  unfold lastLine
  rw [List.find?_eq_none.2]
  · rfl
  · intro c hc
    rw [List.mem_reverse, List.mem_filterMap] at hc
    obtain ⟨l, hl, hc⟩ := hc
    cases file with
    | none => exact absurd hl List.not_mem_nil
    | some ls =>
      have hm := hf ls rfl l hl
      unfold readCoord at hc
      split at hc
      · exact absurd hc (by simp)
      · rename_i hne
        have h3 : ((Net.splitCh d l).map Net.pyStrip).length = 3 := by
          rw [List.length_map]
          by_contra h
          exact hm ⟨hne, h⟩
        obtain ⟨a, x, y, hxy⟩ := List.length_eq_three.1 h3
        rw [hxy] at hc
        simp only [Option.some.injEq] at hc
        subst hc
        simp [coordFields]

theorem first_not {α : Type} {P : α → Prop} (l : List α) : (∀ u ∈ l, P u) ∨ ∃ a u b, l = a ++ u :: b ∧ (∀ x ∈ a, P x) ∧ ¬ P u := by
  induction l with
  | nil => exact Or.inl fun u hu => absurd hu List.not_mem_nil
  | cons x l ih =>
    by_cases hx : P x
    · rcases ih with h | ⟨a, u, b, rfl, ha, hu⟩
      · exact Or.inl fun u hu => by
          rcases List.mem_cons.1 hu with rfl | hu
          · exact hx
          · exact h u hu
      · refine Or.inr ⟨x :: a, u, b, rfl, fun y hy => ?_, hu⟩
        rcases List.mem_cons.1 hy with rfl | hy
        · exact hx
        · exact ha y hy
    · exact Or.inr ⟨[], x, l, rfl, fun y hy => absurd hy List.not_mem_nil, hx⟩

theorem updates_soft {q : Equipment} {u : Upd} (h : u ∈ updates q) : ∃ three r, u = softEnd three r := by
  rcases mem_updates.1 h with ⟨l, hl, rfl | rfl⟩ | ⟨t, ht, x, hx, rfl⟩ | ⟨t, ht, x, hx, rfl⟩ <;> exact ⟨_, _, rfl⟩

theorem updates_full {q : Equipment} (hq : ReadableLines q) : (∀ u ∈ updates q, ∃ b ns, u = (some b, some ns)) ↔ SpecifiedEnds q := by
  have hs : ∀ (three : Bool) (r : BusRef), (∃ b ns, softEnd three r = (some b, some ns)) → Specified three r := by
    rintro three r ⟨b, ns, he⟩
    by_contra hn
    rw [softEnd_unspecified hn] at he
    cases he
  constructor
  · intro h
    exact ⟨fun t ht r hr => hs _ _ (h _ (mem_updates.2 (Or.inr (Or.inl ⟨t, ht, r, hr, rfl⟩)))),
      fun t ht r hr => hs _ _ (h _ (mem_updates.2 (Or.inr (Or.inr ⟨t, ht, r, hr, rfl⟩))))⟩
  · rintro ⟨h1, h2⟩ u hu
    have hok : ∀ (three : Bool) (r : BusRef), Specified three r → ∃ b ns, softEnd three r = (some b, some ns) := fun three r h => by
      obtain ⟨ns, hns⟩ := softEnd_specified h
      exact ⟨_, _, hns⟩
    rcases mem_updates.1 hu with ⟨l, hl, rfl | rfl⟩ | ⟨t, ht, x, hx, rfl⟩ | ⟨t, ht, x, hx, rfl⟩
    · exact hok _ _ (hq l hl).1.1
    · exact hok _ _ (hq l hl).2.1
    · exact hok _ _ (h1 t ht x hx)
    · exact hok _ _ (h2 t ht x hx)

/-- A transformer or a load with fewer than three phases whose bus has no numbers stops the reader. -/
theorem C64_unspecified_violated (flt : List Char → Option ℚ) (d : Char) (src : String) (file : Option (List (List Char))) (q : Equipment)
    (hf : ∀ ls, file = some ls → ∀ l ∈ ls, ¬ Malformed d l) (hq : ReadableLines q) (hs : ¬ SpecifiedEnds q) :
    readNodes flt d src file q = .error .keyError := by
  unfold readNodes
  rw [readBusDict_good flt d file hq]
  rw [← updates_full hq] at hs
  rcases first_not (P := fun u : Upd => ∃ b ns, u = (some b, some ns)) (updates q) with h | ⟨a, u, b, hab, ha, hu⟩
  · exact absurd h hs
  · have hun : u = (none, none) := by
      obtain ⟨three, r, rfl⟩ := updates_soft (q := q) (u := u) (by rw [hab]; simp)
      refine softEnd_unspecified fun hsp => hu ?_
      obtain ⟨ns, hns⟩ := softEnd_specified hsp
      exact ⟨_, _, hns⟩
    subst hun
    rw [hab, forUpd_keyError a b (readCoords_noNone flt d file) ha]
    rw [readCoords_lookup, lastLine_none hf]
    rfl

/-- Which equipment can be read, if every line of the file of coordinates has three fields: numbers 1 to 3 at the ends of lines, and known
phases at all ends of transformers and loads. -/
theorem C64_readable (flt : List Char → Option ℚ) (d : Char) (src : String) (file : Option (List (List Char))) (q : Equipment)
    (hf : ∀ ls, file = some ls → ∀ l ∈ ls, ¬ Malformed d l) :
    (∃ rs, readNodes flt d src file q = .ok rs) ↔ ReadableLines q ∧ SpecifiedEnds q := by
  constructor
  · rintro ⟨rs, h⟩
    have hq := (readNodes_inv h).1
    refine ⟨hq, ?_⟩
    by_contra hs
    rw [C64_unspecified_violated flt d src file q hf hq hs] at h
    exact absurd h (by simp)
  · rintro ⟨hq, hs⟩
    obtain ⟨bs, hb, -⟩ := forUpd_ok (updates q) _ (readCoords_noNone flt d file) ((updates_full hq).2 hs)
    unfold readNodes
    rw [readBusDict_good flt d file hq, hb]
    exact ⟨_, rfl⟩

/-- A line with a neutral, that is with another number than 1, 2 and 3 at one of its ends, or a line with fewer than three phases whose bus has
no numbers, stops the reader. -/
theorem C64_neutral_violated (flt : List Char → Option ℚ) (d : Char) (src : String) (file : Option (List (List Char))) (q : Equipment) (l : LineEnds)
    (hl : l ∈ q.lines) (h : (∃ ns k, (l.bus1.2 = some ns ∨ l.bus2.2 = some ns) ∧ k ∈ ns ∧ k ≠ 1 ∧ k ≠ 2 ∧ k ≠ 3) ∨
      (l.three = false ∧ (l.bus1.2 = none ∨ l.bus2.2 = none))) : readNodes flt d src file q = .error .valueError := by
  unfold readNodes
  rw [readBusDict_bad]
  intro hq
  obtain ⟨h1, h2⟩ := hq l hl
  rcases h with ⟨ns, k, hns, hk, k1, k2, k3⟩ | ⟨ht, hb⟩
  · have : k = 1 ∨ k = 2 ∨ k = 3 := hns.elim (fun hns => h1.2 ns hns k hk) fun hns => h2.2 ns hns k hk
    omega
  · rcases hb with hb | hb
    · rcases h1.1 with h | h
      · exact h hb
      · rw [ht] at h; exact absurd h (by simp)
    · rcases h2.1 with h | h
      · exact h hb
      · rw [ht] at h; exact absurd h (by simp)

/-- The neutral of a transformer or a load is a phase without name of the node. -/
theorem C64_unnamed_violated (flt : List Char → Option ℚ) (d : Char) (src : String) (file : Option (List (List Char))) (q : Equipment) (rs : List RNode)
    (h : readNodes flt d src file q = .ok rs) (t : Ends) (ht : t ∈ q.trafos ∨ t ∈ q.loads) (b : String) (ns : List Nat) (hb : (b, some ns) ∈ t.buses) (h0 : 0 ∈ ns) :
    ∃ r ∈ rs, r.name = some b ∧ none ∈ r.phases := by
  have hc : Connects t.three (b, some ns) b 0 := ⟨rfl, Or.inl ⟨ns, rfl, h0⟩⟩
  have htouch : Touches q b 0 := Or.inr (ht.imp (fun ht => ⟨t, ht, _, hb, hc⟩) fun ht => ⟨t, ht, _, hb, hc⟩)
  have hm : Mentions q b := Or.inr (ht.imp (fun ht => ⟨t, ht, _, hb, rfl, Or.inl (by simp)⟩) fun ht => ⟨t, ht, _, hb, rfl, Or.inl (by simp)⟩)
  obtain ⟨r, hr, hn⟩ := ((C64_nodes flt d src file q rs h).2.1 b).2 (Or.inr hm)
  exact ⟨r, hr, hn, ((C64_phases flt d src file q rs h r hr b hn).1 none).2 ⟨0, htouch, rfl⟩⟩

theorem lastLine_lower {flt : List Char → Option ℚ} {d : Char} {file : Option (List (List Char))} {b : String} {c : Coord × Coord}
    (h : lastLine flt d file (some b) = some c) : pyLower b = b := by
  unfold lastLine at h
  obtain ⟨x, hx, -⟩ := Option.map_eq_some_iff.1 h
  have hb := List.find?_some hx
  have hm := List.mem_of_find?_eq_some hx
  rw [List.mem_reverse, List.mem_filterMap] at hm
  obtain ⟨l, -, hl⟩ := hm
  unfold readCoord at hl
  split at hl
  · exact absurd hl (by simp)
  · simp only [Option.some.injEq] at hl
    subst hl
    have hb : (coordFields flt ((Net.splitCh d l).map Net.pyStrip)).1 = some b := of_decide_eq_true hb
    unfold coordFields at hb
    split at hb
    · simp only [Option.some.injEq] at hb
      rw [← hb, pyLower_idem]
    · exact absurd hb (by simp)

/-- A bus that OpenDSS reports with capitals never gets its position: only the names of the file of coordinates are lowered. If the file
has the bus, there are two nodes for it, one with the position and one with the phases. -/
theorem C64_capitals_violated (flt : List Char → Option ℚ) (d : Char) (src : String) (file : Option (List (List Char))) (q : Equipment) (rs : List RNode)
    (h : readNodes flt d src file q = .ok rs) (b : String) (hb : pyLower b ≠ b) (hm : Mentions q b) :
    (∃ r ∈ rs, r.name = some b ∧ r.position = none) ∧
      ((lastLine flt d file (some (pyLower b))).isSome = true → ∃ r ∈ rs, r.name = some (pyLower b) ∧ ∀ r' ∈ rs, r'.name = some b → r' ≠ r) := by
  have hn := C64_nodes flt d src file q rs h
  obtain ⟨r, hr, hname⟩ := (hn.2.1 b).2 (Or.inr hm)
  refine ⟨⟨r, hr, hname, ?_⟩, fun hs => ?_⟩
  · rw [C64_last_line flt d src file q rs h r hr, hname]
    cases hl : lastLine flt d file (some b) with
    | none => rfl
    | some c => exact absurd (lastLine_lower hl) hb
  · obtain ⟨r', hr', hname'⟩ := (hn.2.1 (pyLower b)).2 (Or.inl hs)
    refine ⟨r', hr', hname', fun r'' _ hn'' heq => ?_⟩
    rw [heq, hname'] at hn''
    exact hb (Option.some.inj hn'')

/-- A line of the file with other than three fields becomes a node without name at an unknown position. -/
theorem C64_malformed_violated (flt : List Char → Option ℚ) (d : Char) (src : String) (ls : List (List Char)) (q : Equipment) (rs : List RNode)
    (h : readNodes flt d src (some ls) q = .ok rs) (l : List Char) (hl : l ∈ ls) (hm : Malformed d l) :
    ∃ r ∈ rs, r.name = none ∧ r.position = some (none, none) := by
  have hc : readCoord flt d l = some (none, .none, .none) := by
    unfold readCoord
    rw [if_neg hm.1]
    have : ((Net.splitCh d l).map Net.pyStrip).length ≠ 3 := by rw [List.length_map]; exact hm.2
    unfold coordFields
    split
    · rename_i heq
      rw [heq] at this
      exact absurd rfl this
    · rfl
  have hlast : lastLine flt d (some ls) none = some (.none, .none) := by
    unfold lastLine
    cases hf : (((some ls).getD []).filterMap (readCoord flt d)).reverse.find? fun c => decide (c.1 = none) with
    | none =>
      rw [List.find?_eq_none] at hf
      exact absurd (hf _ (List.mem_reverse.2 (List.mem_filterMap.2 ⟨l, hl, hc⟩))) (by simp)
    | some c =>
      have hb := List.find?_some hf
      have hb : c.1 = none := of_decide_eq_true hb
      have hmem := List.mem_of_find?_eq_some hf
      rw [List.mem_reverse, List.mem_filterMap] at hmem
      obtain ⟨l', -, hl'⟩ := hmem
      unfold readCoord at hl'
      split at hl'
      · exact absurd hl' (by simp)
      · simp only [Option.some.injEq] at hl'
        unfold coordFields at hl'
        split at hl'
        · rw [← hl'] at hb; exact absurd hb (by simp)
        · rw [← hl']; rfl
  obtain ⟨hq, bs, hbs, rfl⟩ := readNodes_inv h
  obtain ⟨h1, -, h3, -⟩ := forUpd_spec _ hbs
  have hn := h1 (readCoords_nodup flt d (some ls))
  have : (bs.lookup none).isSome = true := (h3 none).2 (Or.inl (by rw [readCoords_lookup, hlast]; rfl))
  obtain ⟨r, hr⟩ := Option.isSome_iff_exists.1 this
  refine ⟨⟨none, positionOf r.positions, phasesOf r.phases, src⟩, List.mem_map.2 ⟨(none, r), (bus_mem_lookup hn).2 hr, rfl⟩, rfl, ?_⟩
  rw [C64_last_line flt d src (some ls) q _ h _ (List.mem_map.2 ⟨(none, r), (bus_mem_lookup hn).2 hr, rfl⟩)]
  simp only [hlast]
  rfl

/-! ### Round trip -/

theorem lastLine_written {shown : ℚ → List Char} {flt : List Char → Option ℚ} {d : Char} (hp : Printable shown flt d) {all : List BusLine}
    (hall : ∀ l ∈ all, ∃ s : String, l.1 = cleanLower s) (b : String) :
    lastLine flt d (some (all.map (coordText shown d))) (some b) = (all.reverse.find? fun l => decide (l.1 = b)).map fun l => (.num l.2.1, .num l.2.2) := by
  have hread : (all.map (coordText shown d)).filterMap (readCoord flt d) = all.map fun l => (some l.1, Coord.num l.2.1, Coord.num l.2.2) := by
    rw [List.filterMap_map, ← List.filterMap_eq_map]
    refine List.filterMap_congr fun l hl => ?_
    obtain ⟨s, hs⟩ := hall l hl
    obtain ⟨n, p⟩ := l
    simp only at hs
    subst hs
    simp only [Function.comp]
    rw [readCoord_text hp]
  unfold lastLine
  rw [Option.getD_some, hread, ← List.map_reverse, List.find?_map, Option.map_map]
  congr 1
  refine congrArg (fun f => List.find? f all.reverse) (funext fun l => ?_)
  simp

/-- The nodes of a model that is written and read: every node with a name and a position is there with its position, under the name in small
letters and with special characters replaced, if no other node with another position has the same name then. Missing: nodes without position
or with such names. -/
theorem C64_positions_partial (shown : ℚ → List Char) (flt : List Char → Option ℚ) (d : Char) (hp : Printable shown flt d) (sf ss : Bool)
    (ord : List String → List String) (hord : ∀ l, (ord l).Perm l) (ns : List DNode) (h : Separable sf ss (ns.filterMap busItem))
    (hsub : ss = true → ∀ i ∈ ns.filterMap busItem, ∀ j ∈ ns.filterMap busItem, cleanLower (groupFor sf ss i).1 = cleanLower (groupFor sf ss j).1 →
      (groupFor sf ss i).1 = (groupFor sf ss j).1) (hne : ns.filterMap busItem ≠ []) :
    ∃ files all, writeBuses sf ss ord ns = .ok files ∧ files.lookup [] = some all ∧
      ∀ (q : Equipment) (src : String) (rs : List RNode), readNodes flt d src (some (all.map (coordText shown d))) q = .ok rs →
        ∀ n ∈ ns, ∀ s p, n.name = some s → n.position = some p →
          (∀ m ∈ ns, ∀ s' p', m.name = some s' → m.position = some p' → cleanLower s' = cleanLower s → p' = p) →
          ∃ r ∈ rs, r.name = some (cleanLower s) ∧ r.position = some (some p.1, some p.2) ∧ ∀ r' ∈ rs, r'.name = r.name → r' = r := by
  obtain ⟨files, all, hw, hl, hperm, -⟩ := C51_buses_partial sf ss ord hord ns h hsub hne
  refine ⟨files, all, hw, hl, fun q src rs hr n hn s p hs hpos huniq => ?_⟩
  have hmem : ∀ l, l ∈ all ↔ ∃ m ∈ ns, ∃ s' p', m.name = some s' ∧ m.position = some p' ∧ l = (cleanLower s', p') := by
    intro l
    rw [hperm.mem_iff, List.mem_filterMap]
    constructor
    · rintro ⟨m, hm, he⟩
      cases h1 : m.name with
      | none => rw [h1] at he; exact absurd he (by simp)
      | some s' =>
        cases h2 : m.position with
        | none => rw [h1, h2] at he; exact absurd he (by simp)
        | some p' =>
          rw [h1, h2] at he
          exact ⟨m, hm, s', p', h1, h2, (Option.some.inj he).symm⟩
    · rintro ⟨m, hm, s', p', h1, h2, rfl⟩
      exact ⟨m, hm, by rw [h1, h2]⟩
  have hlast : lastLine flt d (some (all.map (coordText shown d))) (some (cleanLower s)) = some (.num p.1, .num p.2) := by
    rw [lastLine_written hp fun l hl => by
      obtain ⟨m, -, s', p', -, -, rfl⟩ := (hmem l).1 hl
      exact ⟨s', rfl⟩]
    have hin : (cleanLower s, p) ∈ all := (hmem _).2 ⟨n, hn, s, p, hs, hpos, rfl⟩
    cases hf : all.reverse.find? fun l => decide (l.1 = cleanLower s) with
    | none =>
      rw [List.find?_eq_none] at hf
      exact absurd (hf _ (List.mem_reverse.2 hin)) (by simp)
    | some l =>
      have hb := List.find?_some hf
      have hb : l.1 = cleanLower s := of_decide_eq_true hb
      obtain ⟨m, hm, s', p', h1, h2, rfl⟩ := (hmem l).1 (List.mem_reverse.1 (List.mem_of_find?_eq_some hf))
      have : p' = p := huniq m hm s' p' h1 h2 hb
      subst this
      rfl
  have hnodes := C64_nodes _ _ _ _ _ _ hr
  obtain ⟨r, hrm, hrn⟩ := (hnodes.2.1 (cleanLower s)).2 (Or.inl (by rw [hlast]; rfl))
  refine ⟨r, hrm, hrn, ?_, fun r' hr' hn' => List.inj_on_of_nodup_map hnodes.1 hr' hrm hn'⟩
  rw [C64_last_line _ _ _ _ _ _ hr r hrm, hrn, hlast]
  rfl

/-- Two nodes with different positions whose names become the same are one node afterwards. -/
theorem C64_merged_violated (flt : List Char → Option ℚ) (d : Char) (src : String) (file : Option (List (List Char))) (q : Equipment) (rs : List RNode)
    (h : readNodes flt d src file q = .ok rs) (s s' : String) (hs : cleanLower s = cleanLower s') (p p' : ℚ × ℚ) (hp : p ≠ p') :
    ¬ ((∃ r ∈ rs, r.name = some (cleanLower s) ∧ r.position = some (some p.1, some p.2)) ∧
      ∃ r ∈ rs, r.name = some (cleanLower s') ∧ r.position = some (some p'.1, some p'.2)) := by
  rintro ⟨⟨r, hr, hn, hpos⟩, ⟨r', hr', hn', hpos'⟩⟩
  have : r = r' := List.inj_on_of_nodup_map (C64_nodes _ _ _ _ _ _ h).1 hr hr' (by rw [hn, hn', hs])
  subst this
  rw [hpos] at hpos'
  simp only [Option.some.injEq, Prod.mk.injEq] at hpos'
  exact hp (Prod.ext hpos'.1 hpos'.2)

/-- Nodes without position are not written: one that no line, transformer or load touches is not there afterwards. -/
theorem C64_unplaced_violated (sf ss : Bool) (ord : List String → List String) (ns : List DNode) :
    writeBuses sf ss ord ns = writeBuses sf ss ord (ns.filter fun n => n.position.isSome) := by
  have : ns.filterMap busItem = (ns.filter fun n => n.position.isSome).filterMap busItem := by
    rw [List.filterMap_filter]
    refine List.filterMap_congr fun n _ => ?_
    unfold busItem
    cases n.position with
    | none => cases n.name <;> rfl
    | some p => rfl
  unfold writeBuses
  rw [this]

/-! ### Examples -/

/-- numbers of one digit -/
def exShown (x : ℚ) : List Char := if x = 1 then ['1'] else if x = 2 then ['2'] else ['3']

def exFlt (l : List Char) : Option ℚ := if l = ['1'] then some 1 else if l = ['2'] then some 2 else if l = ['3'] then some 3 else none

def exFile : List (List Char) := [['B', '1', ',', ' ', '1', ',', '2', '\n'], ['\n'], ['b', '2', ',', '3', ',', 'x', '\n'], ['b', '3', ',', '1'], ['b', '1', ',', '3', ',', '3']]

def exEquipment : Equipment where
  lines := [⟨false, ("b1", some [2]), ("b2", some [2])⟩, ⟨true, ("b1", none), ("b4", some [3, 1])⟩]
  trafos := [⟨false, [("b2", some [2]), ("b5", some [1, 0])]⟩]
  loads := [⟨false, [("b5", some [1])]⟩]

/-- the last line for `b1` counts; `b2` has no position since its latitude is no number; the line with two fields is a node -/
theorem exNodes_run : readNodes exFlt ',' "src" (some exFile) exEquipment = .ok
    [⟨some "b1", some (some 3, some 3), [some "A", some "B", some "C"], "src"⟩, ⟨some "b2", none, [some "B"], "src"⟩, ⟨none, some (none, none), [], "src"⟩,
      ⟨some "b4", none, [some "C", some "A"], "src"⟩, ⟨some "b5", none, [none, some "A"], "src"⟩] := by decide +kernel

example : Malformed ',' ['b', '3', ',', '1'] := by unfold Malformed; decide +kernel

example : readNodes exFlt ',' "src" none { loads := [⟨false, [("b5", none)]⟩] } = .error .keyError := by decide +kernel

example : readNodes exFlt ',' "src" none { lines := [⟨false, ("b5", some [1, 0]), ("b6", some [1, 0])⟩] } = .error .valueError := by decide +kernel

/-- a bus with capitals is another node than the one of the file -/
example : readNodes exFlt ',' "src" (some [['B', ',', '1', ',', '2']]) { loads := [⟨false, [("B", some [1])]⟩] } = .ok
    [⟨some "b", some (some 1, some 2), [], "src"⟩, ⟨some "B", none, [some "A"], "src"⟩] := by decide +kernel

example : ReadableLines exEquipment ∧ SpecifiedEnds exEquipment := by
  refine ⟨?_, ?_, ?_⟩
  · intro l hl
    simp only [exEquipment, List.mem_cons, List.not_mem_nil, or_false] at hl
    rcases hl with rfl | rfl
    · exact ⟨⟨Or.inl (by simp), by simp⟩, ⟨Or.inl (by simp), by simp⟩⟩
    · exact ⟨⟨Or.inr rfl, by simp⟩, ⟨Or.inl (by simp), by simp⟩⟩
  · intro t ht r hr
    simp only [exEquipment, List.mem_cons, List.not_mem_nil, or_false] at ht
    subst ht
    simp only [List.mem_cons, List.not_mem_nil, or_false] at hr
    rcases hr with rfl | rfl <;> exact Or.inl (by simp)
  · intro t ht r hr
    simp only [exEquipment, List.mem_cons, List.not_mem_nil, or_false] at ht
    subst ht
    simp only [List.mem_cons, List.not_mem_nil, or_false] at hr
    subst hr
    exact Or.inl (by simp)

/-- a printing of all rational numbers -/
def exPrint (x : ℚ) : List Char := List.replicate (Encodable.encode x + 1) '1'

def exParse (l : List Char) : Option ℚ := match l with | [] => none | _ :: t => Encodable.decode t.length

theorem exPrintable : Printable exPrint exParse ',' where
  reads := fun x => by
    unfold exPrint exParse
    rw [List.replicate_succ]
    simp
  nonempty := fun x => by unfold exPrint; rw [List.replicate_succ]; simp
  blanks := fun x c hc => by
    unfold exPrint at hc
    rw [List.eq_of_mem_replicate hc]
    decide
  delimiter := fun x hc => by
    unfold exPrint at hc
    exact absurd (List.eq_of_mem_replicate hc) (by decide)
  names := by decide

def exPlaced : List DNode := [⟨some "N.1", some (1, 2), none, none⟩, ⟨some "n2", some (3, 4), none, none⟩, ⟨some "n3", none, none, none⟩]

example : Separable false false (exPlaced.filterMap busItem) ∧ exPlaced.filterMap busItem ≠ [] ∧
    writeBuses false false id exPlaced = .ok [([], [("n_1", 1, 2), ("n2", 3, 4)])] :=
  ⟨together_separable (by decide +kernel), by decide +kernel, by decide +kernel⟩

end Ditto.Dss
