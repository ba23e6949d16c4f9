import Verif.Spec.CymeEquivalents
import Verif.Props.CymeLines
import Verif.Props.Carson
import Mathlib.Tactic.NormNum

/-! C118: network equivalents of CYME files. -/
namespace Ditto.Cyme
open Ditto Glm Spec Ditto.Spec

section
variable {N : Type} [Field N] [LinearOrder N]

theorem lower_letter {p : Char} (h : p ∈ ['A', 'B', 'C']) : (p, p.toLower) ∈ threePhases := by
  simp only [List.mem_cons, List.not_mem_nil, or_false] at h
  rcases h with rfl | rfl | rfl <;> decide

omit [Field N] [LinearOrder N] in
theorem column_two {num : Text → Option N} {settings : Values} {k : String} {f : Char → Char → N}
    (h : ∀ p ∈ threePhases, ∀ q ∈ threePhases, numberIn num settings (k.toList ++ [p.2, q.2]) = some (f p.1 q.1)) {p q : Char}
    (hp : p ∈ ['A', 'B', 'C']) (hq : q ∈ ['A', 'B', 'C']) : floatAt num settings (columnFor k [p, q]) = .ok (f p q) :=
  floatAt_in (h _ (lower_letter hp) _ (lower_letter hq))

omit [Field N] [LinearOrder N] in
theorem column_one {num : Text → Option N} {settings : Values} {k : String} {f : Char → N}
    (h : ∀ p ∈ threePhases, numberIn num settings (k.toList ++ [p.2]) = some (f p.1)) {p : Char}
    (hp : p ∈ ['A', 'B', 'C']) : floatAt num settings (columnFor k [p]) = .ok (f p) :=
  floatAt_in (h _ (lower_letter hp))

omit [Field N] [LinearOrder N] in
theorem complexAt_ok {num : Text → Option N} {settings : Values} {a b : Text} {x y : N} (ha : floatAt num settings a = .ok x)
    (hb : floatAt num settings b = .ok y) : complexAt num settings a b = .ok (x, y) := by
  unfold complexAt
  rw [ha]
  dsimp only
  rw [hb]

theorem presentPhases_ok {num : Text → Option N} {settings : Values} {f : Char → N} (ps : List Char)
    (h : ∀ p ∈ ps, floatAt num settings (columnFor "zr" [p, p]) = .ok (f p)) :
    presentPhases num settings ps = .ok (ps.filter fun p => f p ≠ 0) := by
  induction ps with
  | nil => rfl
  | cons p ps ih =>
    rw [presentPhases, h p List.mem_cons_self]
    dsimp only
    rw [ih fun q hq => h q (List.mem_cons_of_mem _ hq)]
    dsimp only
    by_cases hz : f p = 0
    · rw [if_neg (not_not.mpr hz), List.filter_cons_of_neg (by simpa using hz)]
    · rw [if_pos hz, List.filter_cons_of_pos (by simpa using hz)]

theorem resistive_unique {d : Reduced N} {phases : List Char} (h : Resistive d phases) :
    phases = ['A', 'B', 'C'].filter fun p => d.r p p ≠ 0 := by
  obtain ⟨hs, hm⟩ := h
  have hn : (['A', 'B', 'C'] : List Char).Nodup := by decide
  have h1 : phases = ['A', 'B', 'C'].filter fun p => p ∈ phases := by
    have := hs.filter (fun p => decide (p ∈ phases))
    rw [List.filter_eq_self.mpr (by simp)] at this
    refine this.eq_of_length_le ?_
    refine (List.subperm_of_subset (hn.filter _) ?_).length_le
    intro q hq
    simpa using (List.mem_filter.mp hq).2
  rw [h1]
  refine List.filter_congr fun p hp => ?_
  rw [decide_eq_decide, ← hm p hp]

omit [LinearOrder N] in
theorem loadTotals_ok {num : Text → Option N} {settings : Values} {kw kvar : String} {f g : Char → N} (ps : List Char) (s : N × N)
    (hf : ∀ p ∈ ps, floatAt num settings (columnFor kw [p]) = .ok (f p)) (hg : ∀ p ∈ ps, floatAt num settings (columnFor kvar [p]) = .ok (g p)) :
    loadTotals num settings kw kvar ps s = .ok (s.1 + (ps.map f).sum, s.2 + (ps.map g).sum) := by
  induction ps generalizing s with
  | nil => simp [loadTotals]
  | cons p ps ih =>
    rw [loadTotals, hf p List.mem_cons_self]
    dsimp only
    rw [hg p List.mem_cons_self]
    dsimp only
    rw [ih _ (fun q hq => hf q (List.mem_cons_of_mem _ hq)) (fun q hq => hg q (List.mem_cons_of_mem _ hq))]
    simp only [List.map_cons, List.sum_cons, add_assoc]

theorem nodeLoad_ok {num : Text → Option N} {settings : Values} {kw tested kvar : String} {f g h : Char → N} {phases : List Char}
    (hf : ∀ p ∈ phases, floatAt num settings (columnFor kw [p]) = .ok (f p)) (hg : ∀ p ∈ phases, floatAt num settings (columnFor tested [p]) = .ok (g p))
    (hh : ∀ p ∈ phases, floatAt num settings (columnFor kvar [p]) = .ok (h p)) (name node feeder : Text) :
    nodeLoad num settings kw tested kvar phases name node feeder = .ok (if 0 < (phases.map f).sum ∧ 0 < (phases.map g).sum then
      some { name, node, feeder, phases := phases.map fun p => (p, some (1000 * f p, 1000 * h p)) } else none) := by
  unfold nodeLoad
  rw [loadTotals_ok phases _ hf hg]
  dsimp only
  rw [zero_add, zero_add]
  congr 3
  congr 1
  refine List.map_congr_left fun p hp => ?_
  unfold powersOn
  rw [complexAt_ok (hf p hp) (hh p hp)]

/-- the equivalent of a row -/
def reducedOf (int : Text → Option ℤ) (d : Reduced N) (sec start stop feeder : Text) (ends settings : Values) (phases : List Char) : ReadEquivalent N where
  name := sec ++ "_ne_line".toList
  start := start
  stop := stop
  startIndex := (getEntry "fromnodeindex".toList ends).bind int
  stopIndex := (getEntry "tonodeindex".toList ends).bind int
  feeder := feeder
  nameclass := getEntry "eqid".toList settings
  wires := phases
  impedance := phases.map fun p => phases.map fun q => (d.r p q, d.x p q)
  length := max (max (d.length 'A') (d.length 'B')) (d.length 'C')
  atStart := if 0 < (phases.map d.startKw).sum ∧ 0 < (phases.map d.startKvar).sum then
      some { name := sec ++ "_ne_from_load".toList, node := start, feeder := feeder
             phases := phases.map fun p => (p, some (1000 * d.startKw p, 1000 * d.startKvar p)) } else none
  atStop := if 0 < (phases.map d.stopKw).sum ∧ 0 < (phases.map d.startKvar).sum then
      some { name := sec ++ "_ne_to_load".toList, node := stop, feeder := feeder
             phases := phases.map fun p => (p, some (1000 * d.stopKw p, 1000 * d.stopKvar p)) } else none

theorem build_ok {inp : EquivalentInput N} {key sec start stop feeder : Text} {ends settings : Values} {d : Reduced N} {phases : List Char}
    (hs : EquivalentSection inp.secs inp.feeders key sec start stop feeder ends) (hd : ReducedRow inp.num settings d) (hp : Resistive d phases) :
    buildEquivalent inp key settings = .ok (reducedOf inp.int d sec start stop feeder ends settings phases) := by
  have hsub : ∀ p ∈ phases, p ∈ ['A', 'B', 'C'] := fun p h => hp.1.subset h
  unfold buildEquivalent
  rw [rowSection_of hs.named, hs.section_]
  dsimp only
  rw [hs.start]
  dsimp only
  rw [hs.stop]
  dsimp only
  rw [hs.network]
  dsimp only
  unfold equivalentParts
  rw [presentPhases_ok (f := fun p => d.r p p) _ fun p h => column_two hd.r h h, ← resistive_unique hp]
  dsimp only
  have hm : equivalentMatrix inp.num settings phases = .ok (phases.map fun p => phases.map fun q => (d.r p q, d.x p q)) :=
    Carson.mapM_ok fun p h1 => Carson.mapM_ok fun q h2 =>
      complexAt_ok (column_two hd.r (hsub p h1) (hsub q h2)) (column_two hd.x (hsub p h1) (hsub q h2))
  rw [hm]
  dsimp only
  have hl : equivalentLength inp.num settings = .ok (max (max (d.length 'A') (d.length 'B')) (d.length 'C')) := by
    unfold equivalentLength
    rw [column_one hd.length (by decide), column_one hd.length (by decide), column_one hd.length (by decide)]
  rw [hl]
  dsimp only
  rw [nodeLoad_ok (fun p h => column_one hd.startKw (hsub p h)) (fun p h => column_one hd.startKvar (hsub p h))
    (fun p h => column_one hd.startKvar (hsub p h))]
  dsimp only
  rw [nodeLoad_ok (fun p h => column_one hd.stopKw (hsub p h)) (fun p h => column_one hd.startKvar (hsub p h))
    (fun p h => column_one hd.stopKvar (hsub p h))]
  rfl

omit [LinearOrder N] in
theorem powers_map (phases : List Char) (kw kvar : Char → N) : PowersOf phases kw kvar (phases.map fun p => (p, some (1000 * kw p, 1000 * kvar p))) := by
  unfold PowersOf
  rw [List.forall₂_map_right_iff, List.forall₂_same]
  exact fun _ _ => rfl

/-- **C118** (partial): A network equivalent of a CYME file gives a line between the nodes of its section, with a wire for each phase that has a
resistance, the impedances between these phases, and the longest of the lengths. If the loads of these phases take active power and reactive power
at the beginning, there is a load at the first node with the powers of each phase; if they do so at both ends, there is one at the second node as
well. Partial: see the theorems below for loads that are lost, and for phases without a resistance. -/
theorem C118_lines_partial (inp : EquivalentInput N) (key sec start stop feeder : Text) (ends settings : Values) (d : Reduced N)
    (hs : EquivalentSection inp.secs inp.feeders key sec start stop feeder ends) (hd : ReducedRow inp.num settings d) (phases : List Char)
    (hp : Resistive d phases) :
    ∃ l, buildEquivalent inp key settings = .ok l ∧ EquivalentLine d sec start stop feeder phases l ∧
      l.startIndex = (getEntry "fromnodeindex".toList ends).bind inp.int ∧ l.stopIndex = (getEntry "tonodeindex".toList ends).bind inp.int ∧
      (0 < (phases.map d.startKw).sum → 0 < (phases.map d.startKvar).sum → ∃ a, l.atStart = some a ∧ a.name = sec ++ "_ne_from_load".toList ∧
        a.node = start ∧ a.feeder = feeder ∧ PowersOf phases d.startKw d.startKvar a.phases) ∧
      (0 < (phases.map d.stopKw).sum → 0 < (phases.map d.startKvar).sum → ∃ a, l.atStop = some a ∧ a.name = sec ++ "_ne_to_load".toList ∧
        a.node = stop ∧ a.feeder = feeder ∧ PowersOf phases d.stopKw d.stopKvar a.phases) ∧
      ((phases.map d.startKw).sum ≤ 0 → l.atStart = none) ∧ ((phases.map d.stopKw).sum ≤ 0 → l.atStop = none) := by
  refine ⟨_, build_ok hs hd hp, ⟨rfl, rfl, rfl, rfl, rfl, ?_, ?_, ?_⟩, rfl, rfl, ?_, ?_, ?_, ?_⟩
  · show List.Forall₂ _ phases (phases.map _)
    rw [List.forall₂_map_right_iff, List.forall₂_same]
    intro p _
    rw [List.forall₂_map_right_iff, List.forall₂_same]
    exact fun _ _ => rfl
  · show ∃ p ∈ _, max (max (d.length 'A') (d.length 'B')) (d.length 'C') = _
    rcases max_choice (max (d.length 'A') (d.length 'B')) (d.length 'C') with h | h
    · rcases max_choice (d.length 'A') (d.length 'B') with h' | h'
      · exact ⟨'A', by decide, by rw [h, h']⟩
      · exact ⟨'B', by decide, by rw [h, h']⟩
    · exact ⟨'C', by decide, h⟩
  · intro p h
    show _ ≤ max (max (d.length 'A') (d.length 'B')) (d.length 'C')
    simp only [List.mem_cons, List.not_mem_nil, or_false] at h
    rcases h with rfl | rfl | rfl
    · exact le_trans (le_max_left _ _) (le_max_left _ _)
    · exact le_trans (le_max_right _ _) (le_max_left _ _)
    · exact le_max_right _ _
  · intro h1 h2
    exact ⟨_, if_pos ⟨h1, h2⟩, rfl, rfl, rfl, powers_map phases d.startKw d.startKvar⟩
  · intro h1 h2
    exact ⟨_, if_pos ⟨h1, h2⟩, rfl, rfl, rfl, powers_map phases d.stopKw d.stopKvar⟩
  · intro h
    exact if_neg fun hh => absurd hh.1 (not_lt.mpr h)
  · intro h
    exact if_neg fun hh => absurd hh.1 (not_lt.mpr h)

/-- **C118** (violated): A load at the beginning that takes no reactive power, or gives it, is lost, whatever active power it takes. -/
theorem C118_reactive_violated (inp : EquivalentInput N) (key sec start stop feeder : Text) (ends settings : Values) (d : Reduced N)
    (hs : EquivalentSection inp.secs inp.feeders key sec start stop feeder ends) (hd : ReducedRow inp.num settings d) (phases : List Char)
    (hp : Resistive d phases) (hq : (phases.map d.startKvar).sum ≤ 0) :
    ∃ l, buildEquivalent inp key settings = .ok l ∧ l.atStart = none :=
  ⟨_, build_ok hs hd hp, if_neg (c := 0 < (phases.map d.startKw).sum ∧ 0 < (phases.map d.startKvar).sum) fun hh => absurd hh.2 (not_lt.mpr hq)⟩

/-- **C118** (violated): Whether there is a load at the end depends on the reactive power at the beginning. Without reactive power there the load at
the end is lost, whatever it takes. With reactive power there the load at the end is kept, also if it takes no reactive power. -/
theorem C118_end_violated (inp : EquivalentInput N) (key sec start stop feeder : Text) (ends settings : Values) (d : Reduced N)
    (hs : EquivalentSection inp.secs inp.feeders key sec start stop feeder ends) (hd : ReducedRow inp.num settings d) (phases : List Char)
    (hp : Resistive d phases) : ∃ l, buildEquivalent inp key settings = .ok l ∧
      ((phases.map d.startKvar).sum ≤ 0 → l.atStop = none) ∧
      (0 < (phases.map d.startKvar).sum → 0 < (phases.map d.stopKw).sum → l.atStop ≠ none) := by
  refine ⟨_, build_ok hs hd hp, ?_, ?_⟩
  · intro hq
    exact if_neg fun hh => absurd hh.2 (not_lt.mpr hq)
  · intro h1 h2
    simp only [reducedOf]
    rw [if_pos ⟨h2, h1⟩]
    exact Option.some_ne_none _

/-- **C118** (violated): A phase without a resistance has no wire and no impedances, and its loads are lost, whatever reactances and loads it has. -/
theorem C118_resistance_violated (inp : EquivalentInput N) (key sec start stop feeder : Text) (ends settings : Values) (d : Reduced N)
    (hs : EquivalentSection inp.secs inp.feeders key sec start stop feeder ends) (hd : ReducedRow inp.num settings d) (p : Char)
    (hp : p ∈ ['A', 'B', 'C']) (hr : d.r p p = 0) : ∃ l, buildEquivalent inp key settings = .ok l ∧ p ∉ l.wires ∧ l.impedance.length < 3 ∧
      ∀ a, l.atStart = some a ∨ l.atStop = some a → p ∉ a.phases.map (·.1) := by
  have hres : Resistive d (['A', 'B', 'C'].filter fun p => d.r p p ≠ 0) := by
    refine ⟨List.filter_sublist, fun q hq => ?_⟩
    rw [List.mem_filter]
    exact ⟨fun h => by simpa using h.2, fun h => ⟨hq, by simpa using h⟩⟩
  have hno : p ∉ ['A', 'B', 'C'].filter fun p => d.r p p ≠ 0 := fun h => (hres.2 p hp).mp h hr
  generalize ['A', 'B', 'C'].filter (fun p => d.r p p ≠ 0) = phases at hres hno
  refine ⟨_, build_ok hs hd hres, hno, ?_, ?_⟩
  · show (phases.map _).length < 3
    rw [List.length_map]
    rcases Nat.lt_or_ge phases.length 3 with h | h
    · exact h
    · exact absurd (hres.1.eq_of_length_le h ▸ hp) hno
  · intro a ha hmem
    have hph : a.phases.map (·.1) = phases := by
      rcases ha with ha | ha
      · simp only [reducedOf] at ha
        split at ha
        · rw [← Option.some.inj ha, List.map_map]
          exact List.map_id'' (fun _ => rfl) phases
        · cases ha
      · simp only [reducedOf] at ha
        split at ha
        · rw [← Option.some.inj ha, List.map_map]
          exact List.map_id'' (fun _ => rfl) phases
        · cases ha
    rw [hph] at hmem
    exact hno hmem

/-- **C118** (violated): The class of the line is the equipment of a regulator: it is what `parse_regulators` has left for the section, since the rows
of network equivalents have no column `eqid`. -/
theorem C118_nameclass_violated (inp : EquivalentInput N) (key sec start stop feeder : Text) (ends : Values) (v w : Values) (d : Reduced N)
    (hs : EquivalentSection inp.secs inp.feeders key sec start stop feeder ends) (eq : Text)
    (hv : getEntry "eqid".toList v = some eq) (hw : (w.map (·.1)).Nodup) (hn : getEntry "eqid".toList w = none)
    (ht : getEntry "type".toList w = some "network_equivalent".toList)
    (hd : ∀ u, (∀ k x, getEntry k w = some x → getEntry k u = some x) → ReducedRow inp.num u d) (phases : List Char) (hp : Resistive d phases) :
    ∃ u l, getEntry key (updateDict [(key, v)] [(key, w)]) = some u ∧ getEntry "type".toList u = some "network_equivalent".toList ∧
      buildEquivalent inp key u = .ok l ∧ l.nameclass = some eq := by
  have hk : getEntry key [(key, v)] = some v := by
    rw [getEntry, if_pos rfl]
  obtain ⟨u, h1, h2⟩ := (C115_joined [(key, v)] [(key, w)] (by simp) key).2.2 v w List.mem_cons_self hk hw
  have hu : ReducedRow inp.num u d := hd u fun k x hx => by rw [h2, hx]
  refine ⟨u, _, h1, by rw [h2, ht], build_ok hs hu hp, ?_⟩
  show getEntry "eqid".toList u = _
  rw [h2, hn]
  exact hv

/-- **C118**: The equivalents are those of the entries that came from the table of network equivalents, in their order; the other entries give none. -/
theorem C118_all (inp : EquivalentInput N) (entries : List (Text × Values)) (ls : List (ReadEquivalent N)) :
    allEquivalents inp entries = .ok ls ↔
      List.Forall₂ (fun e l => buildEquivalent inp e.1 e.2 = .ok l)
        (entries.filter fun e => getEntry "type".toList e.2 = some "network_equivalent".toList) ls := by
  induction entries generalizing ls with
  | nil =>
    rw [allEquivalents, List.filter_nil, List.forall₂_nil_left_iff]
    exact ⟨fun h => (Except.ok.inj h).symm, fun h => by rw [h]⟩
  | cons e es ih =>
    rw [allEquivalents]
    by_cases ht : getEntry "type".toList e.2 = some "network_equivalent".toList
    · rw [if_pos ht, List.filter_cons_of_pos (p := fun e : Text × Values => decide (getEntry "type".toList e.2 = some "network_equivalent".toList)) (decide_eq_true ht)]
      cases hb : buildEquivalent inp e.1 e.2 with
      | error x =>
        refine ⟨(fun h => nomatch h), fun h => ?_⟩
        cases h with
        | cons h1 h2 => rw [hb] at h1; cases h1
      | ok r =>
        cases hr : allEquivalents inp es with
        | error x =>
          refine ⟨(fun h => nomatch h), fun h => ?_⟩
          cases h with
          | cons h1 h2 =>
            rw [(ih _).mpr h2] at hr
            cases hr
        | ok rs =>
          constructor
          · intro h
            rw [← Except.ok.inj h]
            exact .cons hb ((ih rs).mp hr)
          · intro h
            cases h with
            | cons h1 h2 =>
              rw [(ih _).mpr h2] at hr
              rw [hb] at h1
              rw [Except.ok.inj h1, Except.ok.inj hr]
    · rw [if_neg ht, List.filter_cons_of_neg (p := fun e : Text × Values => decide (getEntry "type".toList e.2 = some "network_equivalent".toList)) (fun h => ht (of_decide_eq_true h)), ih]

/-- **C118**: Reading raises `KeyError` if the section of an equivalent is not known or has no network, and `KeyError` or `ValueError` if one of the
resistances of the phases with themselves, or one of the lengths, is missing or is no number. -/
theorem C118_errors (inp : EquivalentInput N) (key sec : Text) (settings : Values) (hk : SectionOf key sec) :
    (getEntry sec inp.secs = none → buildEquivalent inp key settings = .error .keyError) ∧
    (getEntry sec inp.feeders = none → buildEquivalent inp key settings = .error .keyError) ∧
    (∀ p ∈ threePhases, numberIn inp.num settings ("zr".toList ++ [p.2, p.2]) = none →
      ∃ e, buildEquivalent inp key settings = .error e ∧ (e = .keyError ∨ e = .valueError)) ∧
    (∀ p ∈ threePhases, numberIn inp.num settings ("totallength".toList ++ [p.2]) = none →
      ∃ e, buildEquivalent inp key settings = .error e ∧ (e = .keyError ∨ e = .valueError)) := by
  have hfl : ∀ k : Text, (∃ x, floatAt inp.num settings k = .ok x) ∨ floatAt inp.num settings k = .error .keyError ∨
      floatAt inp.num settings k = .error .valueError := by
    intro k
    unfold floatAt
    cases getEntry k settings with
    | none => exact .inr (.inl rfl)
    | some t =>
      dsimp only
      cases inp.num t with
      | none => exact .inr (.inr rfl)
      | some x => exact .inl ⟨x, rfl⟩
  have hfe : ∀ k : Text, ∀ e, floatAt inp.num settings k = .error e → e = .keyError ∨ e = .valueError := by
    intro k e he
    rcases hfl k with ⟨x, hx⟩ | hx | hx <;> rw [hx] at he <;> cases he
    · exact .inl rfl
    · exact .inr rfl
  have hno : ∀ k : Text, numberIn inp.num settings k = none → ∃ e, floatAt inp.num settings k = .error e ∧ (e = .keyError ∨ e = .valueError) := by
    intro k hk
    rcases hfl k with ⟨x, hx⟩ | hx | hx
    · have := valueAt_in inp.num settings k
      unfold valueAt at this
      rw [hx, hk] at this
      cases this
    · exact ⟨_, hx, .inl rfl⟩
    · exact ⟨_, hx, .inr rfl⟩
  have hpre : ∀ ps : List Char, ∀ e, presentPhases inp.num settings ps = .error e → e = .keyError ∨ e = .valueError := by
    intro ps
    induction ps with
    | nil => intro e h; cases h
    | cons p ps ih =>
      intro e h
      rw [presentPhases] at h
      cases hx : floatAt inp.num settings (columnFor "zr" [p, p]) with
      | error x =>
        rw [hx] at h
        cases h
        exact hfe _ _ hx
      | ok x =>
        rw [hx] at h
        dsimp only at h
        cases hr : presentPhases inp.num settings ps with
        | error y =>
          rw [hr] at h
          cases h
          exact ih _ hr
        | ok l => rw [hr] at h; cases h
  have hpm : ∀ ps : List Char, (∃ p ∈ ps, ∃ e, floatAt inp.num settings (columnFor "zr" [p, p]) = .error e) →
      ∃ e, presentPhases inp.num settings ps = .error e := by
    intro ps
    induction ps with
    | nil => rintro ⟨p, hp, -⟩; cases hp
    | cons p ps ih =>
      rintro ⟨q, hq, e, he⟩
      rw [presentPhases]
      cases hx : floatAt inp.num settings (columnFor "zr" [p, p]) with
      | error x => exact ⟨x, rfl⟩
      | ok x =>
        rcases List.mem_cons.mp hq with rfl | hq
        · rw [hx] at he; cases he
        · obtain ⟨y, hy⟩ := ih ⟨q, hq, e, he⟩
          dsimp only
          rw [hy]
          exact ⟨y, rfl⟩
  have hca : ∀ a b : Text, ∀ e, complexAt inp.num settings a b = .error e → e = .keyError ∨ e = .valueError := by
    intro a b e h
    unfold complexAt at h
    cases hx : floatAt inp.num settings a with
    | error x => rw [hx] at h; cases h; exact hfe _ _ hx
    | ok x =>
      rw [hx] at h
      dsimp only at h
      cases hy : floatAt inp.num settings b with
      | error y => rw [hy] at h; cases h; exact hfe _ _ hy
      | ok y => rw [hy] at h; cases h
  have hmm : ∀ {β : Type} (f : Char → Py β) (ps : List Char), (∀ p e, f p = .error e → e = .keyError ∨ e = .valueError) →
      ∀ e, ps.mapM f = .error e → e = .keyError ∨ e = .valueError := by
    intro β f ps hf
    induction ps with
    | nil => intro e h; cases h
    | cons p ps ih =>
      intro e h
      rw [List.mapM_cons] at h
      cases hx : f p with
      | error x => rw [hx] at h; cases h; exact hf _ _ hx
      | ok x =>
        rw [hx] at h
        cases hy : ps.mapM f with
        | error y => rw [hy] at h; cases h; exact ih _ hy
        | ok y => rw [hy] at h; cases h
  have hmat : ∀ ps e, equivalentMatrix inp.num settings ps = .error e → e = .keyError ∨ e = .valueError := by
    intro ps e h
    exact hmm _ ps (fun p e h => hmm _ ps (fun q e h => hca _ _ e h) e h) e h
  -- whatever the section is, the numbers decide
  have hany : (∀ start stop feeder ends, ∃ e, equivalentParts inp (rowSection key) start stop feeder ends settings = .error e ∧
      (e = .keyError ∨ e = .valueError)) → ∃ e, buildEquivalent inp key settings = .error e ∧ (e = .keyError ∨ e = .valueError) := by
    intro h
    unfold buildEquivalent
    cases getEntry (rowSection key) inp.secs with
    | none => exact ⟨_, rfl, .inl rfl⟩
    | some ends =>
      dsimp only
      cases getEntry "fromnodeid".toList ends with
      | none => exact ⟨_, rfl, .inl rfl⟩
      | some start =>
        dsimp only
        cases getEntry "tonodeid".toList ends with
        | none => exact ⟨_, rfl, .inl rfl⟩
        | some stop =>
          dsimp only
          cases getEntry (rowSection key) inp.feeders with
          | none => exact ⟨_, rfl, .inl rfl⟩
          | some feeder => exact h start stop feeder ends
  refine ⟨?_, ?_, ?_, ?_⟩
  · intro h
    unfold buildEquivalent
    rw [rowSection_of hk, h]
  · intro h
    unfold buildEquivalent
    rw [rowSection_of hk, h]
    cases getEntry sec inp.secs with
    | none => rfl
    | some ends =>
      dsimp only
      cases getEntry "fromnodeid".toList ends with
      | none => rfl
      | some start =>
        dsimp only
        cases getEntry "tonodeid".toList ends with
        | none => rfl
        | some stop => rfl
  · intro p hp h
    refine hany fun start stop feeder ends => ?_
    obtain ⟨e, he, -⟩ := hno _ h
    have hcol : ∃ q ∈ ['A', 'B', 'C'], ∃ e, floatAt inp.num settings (columnFor "zr" [q, q]) = .error e := by
      simp only [threePhases, List.mem_cons, List.not_mem_nil, or_false] at hp
      rcases hp with rfl | rfl | rfl
      · exact ⟨'A', by decide, e, he⟩
      · exact ⟨'B', by decide, e, he⟩
      · exact ⟨'C', by decide, e, he⟩
    obtain ⟨y, hy⟩ := hpm _ hcol
    refine ⟨y, ?_, hpre _ _ hy⟩
    unfold equivalentParts
    rw [hy]
  · intro p hp h
    refine hany fun start stop feeder ends => ?_
    obtain ⟨e, he, -⟩ := hno _ h
    have hlen : ∃ x, equivalentLength inp.num settings = .error x ∧ (x = .keyError ∨ x = .valueError) := by
      have hcol : ∃ q ∈ ['A', 'B', 'C'], ∃ e, floatAt inp.num settings (columnFor "totallength" [q]) = .error e := by
        simp only [threePhases, List.mem_cons, List.not_mem_nil, or_false] at hp
        rcases hp with rfl | rfl | rfl
        · exact ⟨'A', by decide, e, he⟩
        · exact ⟨'B', by decide, e, he⟩
        · exact ⟨'C', by decide, e, he⟩
      obtain ⟨q, hq, x, hx⟩ := hcol
      unfold equivalentLength
      cases ha : floatAt inp.num settings (columnFor "totallength" ['A']) with
      | error y => exact ⟨y, rfl, hfe _ _ ha⟩
      | ok a =>
        dsimp only
        cases hb : floatAt inp.num settings (columnFor "totallength" ['B']) with
        | error y => exact ⟨y, rfl, hfe _ _ hb⟩
        | ok b =>
          dsimp only
          cases hc : floatAt inp.num settings (columnFor "totallength" ['C']) with
          | error y => exact ⟨y, rfl, hfe _ _ hc⟩
          | ok c =>
            simp only [List.mem_cons, List.not_mem_nil, or_false] at hq
            rcases hq with rfl | rfl | rfl
            · rw [ha] at hx; cases hx
            · rw [hb] at hx; cases hx
            · rw [hc] at hx; cases hx
    obtain ⟨x, hx, hxe⟩ := hlen
    unfold equivalentParts
    cases hps : presentPhases inp.num settings ['A', 'B', 'C'] with
    | error y => exact ⟨y, rfl, hpre _ _ hps⟩
    | ok phases =>
      dsimp only
      cases hma : equivalentMatrix inp.num settings phases with
      | error y => exact ⟨y, rfl, hmat _ _ hma⟩
      | ok m =>
        dsimp only
        rw [hx]
        exact ⟨x, rfl, hxe⟩

end

/-! ### examples -/

/-- a file with two equivalents: the first takes power at both ends; the second has no reactive power at the beginning and no resistance of `B` -/
def reducedFile : List Text :=
  ["[NETWORK EQUIVALENT SETTING]\n", "FORMAT_NETWORKEQUIVALENTSETTING=SectionID,DeviceNumber,ZRAA,ZRAB,ZRAC,ZRBA,ZRBB,ZRBC,ZRCA,ZRCB,ZRCC,ZXAA,ZXAB,ZXAC,ZXBA,ZXBB,ZXBC,ZXCA,ZXCB,ZXCC,LoadFromKWA,LoadFromKWB,LoadFromKWC,LoadFromKVARA,LoadFromKVARB,LoadFromKVARC,LoadToKWA,LoadToKWB,LoadToKWC,LoadToKVARA,LoadToKVARB,LoadToKVARC,TotalLengthA,TotalLengthB,TotalLengthC\n",
    "E1,d1,1,2,3,2,4,5,3,5,6,7,8,9,8,1,2,9,2,3,1,2,3,4,5,6,7,8,9,1,2,3,4,6,5\n", "E2,d2,1,0,0,0,0,0,0,0,2,3,0,0,0,4,0,0,0,5,1,2,3,0,0,0,7,8,9,1,2,3,4,3,5\n", "\n",
    "[SECTION]\n", "FORMAT_SECTION=SectionID,FromNodeID,ToNodeID,Phase\n", "E1,n1,n2,ABC\n", "E2,n2,n3,ABC\n", "E3,n3,n4,ABC\n"].map String.toList

def reducedSections : List (Text × Values) :=
  [("e1".toList, [("fromnodeid".toList, "n1".toList), ("tonodeid".toList, "n2".toList), ("fromnodeindex".toList, "3".toList)]),
    ("e2".toList, [("fromnodeid".toList, "n2".toList), ("tonodeid".toList, "n3".toList)])]

def reducedInput : EquivalentInput ℚ where
  num := fractionOf
  int := indexOfText
  secs := reducedSections
  feeders := [("e1".toList, "f".toList), ("e2".toList, "f".toList)]

/-- the first equivalent -/
def firstReduced : ReadEquivalent ℚ where
  name := "e1_ne_line".toList
  start := "n1".toList
  stop := "n2".toList
  startIndex := some 3
  stopIndex := none
  feeder := "f".toList
  nameclass := some "reg".toList
  wires := ['A', 'B', 'C']
  impedance := [[(1, 7), (2, 8), (3, 9)], [(2, 8), (4, 1), (5, 2)], [(3, 9), (5, 2), (6, 3)]]
  length := 6
  atStart := some { name := "e1_ne_from_load".toList, node := "n1".toList, feeder := "f".toList
                    phases := [('A', some (1000, 4000)), ('B', some (2000, 5000)), ('C', some (3000, 6000))] }
  atStop := some { name := "e1_ne_to_load".toList, node := "n2".toList, feeder := "f".toList
                   phases := [('A', some (7000, 1000)), ('B', some (8000, 2000)), ('C', some (9000, 3000))] }

/-- the second equivalent -/
def secondReduced : ReadEquivalent ℚ where
  name := "e2_ne_line".toList
  start := "n2".toList
  stop := "n3".toList
  startIndex := none
  stopIndex := none
  feeder := "f".toList
  nameclass := none
  wires := ['A', 'C']
  impedance := [[(1, 3), (0, 0)], [(0, 0), (2, 5)]]
  length := 5
  atStart := none
  atStop := none

/-- what a regulator of the section `E1` has left -/
def reducedLeft : List (Text × Values) := [("E1".toList, [("sectionid".toList, "E1".toList), ("eqid".toList, "reg".toList)])]

/-- what is read of the file -/
example : (parseEquivalents reducedInput reducedLeft reducedFile).toOption = some [firstReduced, secondReduced] := by decide +kernel

/-- the row of the first equivalent -/
def reducedRow : Values :=
  [("zraa".toList, "1".toList), ("zrab".toList, "2".toList), ("zrac".toList, "2".toList), ("zrba".toList, "2".toList), ("zrbb".toList, "1".toList),
    ("zrbc".toList, "2".toList), ("zrca".toList, "2".toList), ("zrcb".toList, "2".toList), ("zrcc".toList, "0".toList),
    ("zxaa".toList, "4".toList), ("zxab".toList, "3".toList), ("zxac".toList, "3".toList), ("zxba".toList, "3".toList), ("zxbb".toList, "4".toList),
    ("zxbc".toList, "3".toList), ("zxca".toList, "3".toList), ("zxcb".toList, "3".toList), ("zxcc".toList, "4".toList),
    ("loadfromkwa".toList, "5".toList), ("loadfromkwb".toList, "5".toList), ("loadfromkwc".toList, "5".toList),
    ("loadfromkvara".toList, "1".toList), ("loadfromkvarb".toList, "1".toList), ("loadfromkvarc".toList, "1".toList),
    ("loadtokwa".toList, "6".toList), ("loadtokwb".toList, "6".toList), ("loadtokwc".toList, "6".toList),
    ("loadtokvara".toList, "0".toList), ("loadtokvarb".toList, "0".toList), ("loadtokvarc".toList, "0".toList),
    ("totallengtha".toList, "7".toList), ("totallengthb".toList, "8".toList), ("totallengthc".toList, "9".toList)]

/-- its numbers -/
def reducedData : Reduced ℚ where
  r := fun p q => if p = q then (if p = 'C' then 0 else 1) else 2
  x := fun p q => if p = q then 4 else 3
  startKw := fun _ => 5
  startKvar := fun _ => 1
  stopKw := fun _ => 6
  stopKvar := fun _ => 0
  length := fun p => if p = 'A' then 7 else if p = 'B' then 8 else 9

theorem reducedRow_read : ReducedRow fractionOf reducedRow reducedData :=
  ⟨by decide +kernel, by decide +kernel, by decide +kernel, by decide +kernel, by decide +kernel, by decide +kernel, by decide +kernel⟩

theorem reducedSection_of : EquivalentSection reducedSections reducedInput.feeders "E1**".toList "e1".toList "n1".toList "n2".toList "f".toList
    [("fromnodeid".toList, "n1".toList), ("tonodeid".toList, "n2".toList), ("fromnodeindex".toList, "3".toList)] :=
  ⟨⟨"E1".toList, 2, by decide, by decide, by decide⟩, by decide, by decide, by decide, by decide⟩

theorem reducedPhases : Resistive reducedData ['A', 'B'] := by
  refine ⟨by decide, by decide +kernel⟩

/-- the hypotheses of the theorems are met; the load at the end is kept, though it takes no reactive power -/
example : ∃ l, buildEquivalent reducedInput "E1**".toList reducedRow = .ok l ∧
    EquivalentLine reducedData "e1".toList "n1".toList "n2".toList "f".toList ['A', 'B'] l ∧ l.atStop ≠ none := by
  obtain ⟨l, h1, h2, -⟩ := C118_lines_partial reducedInput _ _ _ _ _ _ _ _ reducedSection_of reducedRow_read _ reducedPhases
  obtain ⟨m, h3, -, h4⟩ := C118_end_violated reducedInput _ _ _ _ _ _ _ _ reducedSection_of reducedRow_read _ reducedPhases
  rw [h1] at h3
  cases h3
  exact ⟨l, h1, h2, h4 (by decide +kernel) (by decide +kernel)⟩

/-- the phase `C` has no resistance, but a reactance and loads -/
example : ∃ l, buildEquivalent reducedInput "E1**".toList reducedRow = .ok l ∧ 'C' ∉ l.wires := by
  obtain ⟨l, h1, h2, -⟩ := C118_resistance_violated reducedInput _ _ _ _ _ _ _ _ reducedSection_of reducedRow_read 'C' (by decide) (by decide +kernel)
  exact ⟨l, h1, h2⟩

/-- without a length -/
example : ∃ e, buildEquivalent reducedInput "E1**".toList (reducedRow.take 30) = .error e ∧ (e = .keyError ∨ e = .valueError) :=
  (C118_errors reducedInput _ _ _ reducedSection_of.named).2.2.2 ('B', 'b') (by decide) (by decide +kernel)

/-- Without a format the columns are at their positions: the cell of column `i` has the digits of `i`. -/
def reducedCells : Text := "E1".toList ++ ((List.range 42).map fun i => ',' :: (Nat.repr (i + 1)).toList).flatten ++ ['\n']

/-- the columns with their positions -/
def reducedPositions : List (String × Nat) :=
  (["devicenumber", "coordx", "coordy"].zip [2, 6, 7]) ++
    (["zraa", "zrab", "zrac", "zrba", "zrbb", "zrbc", "zrca", "zrcb", "zrcc", "zxaa", "zxab", "zxac", "zxba", "zxbb", "zxbc", "zxca", "zxcb", "zxcc",
      "loadfromkwa", "loadfromkwb", "loadfromkwc", "loadfromkvara", "loadfromkvarb", "loadfromkvarc", "loadtokwa", "loadtokwb", "loadtokwc",
      "loadtokvara", "loadtokvarb", "loadtokvarc", "totallengtha", "totallengthb", "totallengthc"].zipIdx 9)

/-- the texts of the columns -/
example : ((readJoined reducedQueries ["[NETWORK EQUIVALENT SETTING]\n".toList, reducedCells]).toOption.map fun l =>
    l.map fun e => (e.1, reducedPositions.map fun c => getEntry c.1.toList e.2)) =
      some [("E1".toList, reducedPositions.map fun c => some (Nat.repr c.2).toList)] := by decide +kernel

end Ditto.Cyme
