import Verif.Spec.SynNodes
import Verif.Lemmas.SynLoads
import Verif.Props.SynCaps

/-! C95: sources and nodes of Synergi databases. -/
namespace Ditto.Syn
open Ditto Glm Syn.Spec

/-! ### The order of texts -/

theorem textLe_refl : ∀ a : Text, textLe a a = true
  | [] => rfl
  | a :: x => by
    unfold textLe
    rw [if_neg (Nat.lt_irrefl _), if_neg (Nat.lt_irrefl _)]
    exact textLe_refl x

theorem textLe_total : ∀ a b : Text, textLe a b = true ∨ textLe b a = true
  | [], _ => .inl rfl
  | _ :: _, [] => .inr rfl
  | a :: x, b :: y => by
    unfold textLe
    rcases Nat.lt_trichotomy a.toNat b.toNat with h | h | h
    · exact .inl (if_pos h)
    · rw [if_neg (by omega), if_neg (by omega), if_neg (by omega), if_neg (by omega)]
      exact textLe_total x y
    · exact .inr (if_pos h)

theorem textLe_cons {a b : Char} {x y : Text} : textLe (a :: x) (b :: y) = true ↔ a.toNat < b.toNat ∨ (a = b ∧ textLe x y = true) := by
  conv_lhs => unfold textLe
  by_cases h : a.toNat < b.toNat
  · simp [h]
  · rw [if_neg h]
    by_cases h2 : b.toNat < a.toNat
    · rw [if_pos h2]
      constructor
      · intro h3; cases h3
      · rintro (h3 | ⟨rfl, -⟩)
        · omega
        · omega
    · rw [if_neg h2]
      have e : a = b := char_nat (by omega)
      simp [e]

theorem textLe_trans : ∀ {a b c : Text}, textLe a b = true → textLe b c = true → textLe a c = true
  | [], _, _, _, _ => rfl
  | _ :: _, [], _, h, _ => by cases h
  | _ :: _, _ :: _, [], _, h => by cases h
  | a :: x, b :: y, c :: z, h1, h2 => by
    rw [textLe_cons] at h1 h2 ⊢
    rcases h1 with h1 | ⟨rfl, h1⟩
    · rcases h2 with h2 | ⟨rfl, h2⟩
      · exact .inl (Nat.lt_trans h1 h2)
      · exact .inl h1
    · rcases h2 with h2 | ⟨rfl, h2⟩
      · exact .inl h2
      · exact .inr ⟨rfl, textLe_trans h1 h2⟩

theorem textLe_antisymm : ∀ {a b : Text}, textLe a b = true → textLe b a = true → a = b
  | [], [], _, _ => rfl
  | [], _ :: _, _, h => by cases h
  | _ :: _, [], h, _ => by cases h
  | a :: x, b :: y, h1, h2 => by
    rw [textLe_cons] at h1 h2
    rcases h1 with h1 | ⟨rfl, h1⟩
    · rcases h2 with h2 | ⟨rfl, h2⟩
      · omega
      · omega
    · rcases h2 with h2 | ⟨-, h2⟩
      · omega
      · rw [textLe_antisymm h1 h2]

/-- the sorted list of a set of texts is the only sorted list with its members -/
theorem sorted_eq {l m : List Text} (hm : m.Pairwise fun a b => textLe a b = true) (hn : m.Nodup) (h : ∀ t, t ∈ l ↔ t ∈ m) :
    (l.dedup.insertionSort fun a b => textLe a b = true) = m := by
  have : Std.Total fun a b : Text => textLe a b = true := ⟨textLe_total⟩
  have : IsTrans Text fun a b => textLe a b = true := ⟨fun _ _ _ => textLe_trans⟩
  refine List.Perm.eq_of_pairwise (le := fun a b => textLe a b = true) (fun a b _ _ => textLe_antisymm) (List.pairwise_insertionSort _ _) hm ?_
  refine (List.perm_insertionSort _ _).trans ?_
  rw [List.perm_ext_iff_of_nodup (List.nodup_dedup _) hn]
  intro t
  rw [List.mem_dedup]
  exact h t

theorem lower_upper_inj {t u : Text} (h : t.map Char.toLower = u.map Char.toLower) : t.map Char.toUpper = u.map Char.toUpper := by
  have := congrArg upper (show lower t = lower u from h)
  rwa [upper_lower, upper_lower] at this

section
variable {K : Type} {db : HeadDb K}

/-! ### Nodes -/

theorem readNodes_ok {ns : List (SynNode K)} (h : readNodes db = .ok ns) : ∃ feeders, sectionFeeders (db.secs.map lowerSec) = .ok feeders ∧
    List.Forall₂ (fun r n => n = readNode feeders (feederSubstations (db.feeders.map fun r => (lower r.id, lower r.substation))) (db.secs.map lowerSec)
      (lowerNode r)) db.nodes ns := by
  unfold readNodes at h
  cases hf : sectionFeeders (db.secs.map lowerSec) with
  | error e => rw [hf] at h; cases h
  | ok feeders =>
    rw [hf] at h
    injection h with h
    subst h
    refine ⟨feeders, rfl, ?_⟩
    rw [List.map_map, List.forall₂_map_right_iff]
    exact List.forall₂_same.mpr fun _ _ => rfl

theorem mem_phases (secs : List SecRow) (r : NodeRow K) (t : Text) :
    t ∈ (((secs.map lowerSec).filter fun s => decide ((lowerNode r).id = s.fromNode ∨ (lowerNode r).id = s.toNode)).map (·.phases)) ↔
      ∃ s ∈ secs, Meets s r ∧ t = lower s.phases := by
  rw [List.mem_map]
  constructor
  · rintro ⟨s', hs', rfl⟩
    obtain ⟨h1, h2⟩ := List.mem_filter.mp hs'
    obtain ⟨s, hs, rfl⟩ := List.mem_map.mp h1
    refine ⟨s, hs, ?_, rfl⟩
    rcases of_decide_eq_true h2 with h | h
    · exact .inl h.symm
    · exact .inr h.symm
  · rintro ⟨s, hs, hm, rfl⟩
    refine ⟨lowerSec s, List.mem_filter.mpr ⟨List.mem_map_of_mem hs, decide_eq_true ?_⟩, rfl⟩
    rcases hm with h | h
    · exact .inl (Eq.symm h)
    · exact .inr (Eq.symm h)

theorem mem_nodePhases (secs : List SecRow) (r : NodeRow K) (t : Text) :
    t ∈ nodePhases (secs.map lowerSec) (lowerNode r).id ↔ ∃ s ∈ secs, Meets s r ∧ t = s.phases.map Char.toUpper := by
  unfold nodePhases
  rw [List.mem_map]
  constructor
  · rintro ⟨u, hu, rfl⟩
    rw [List.mem_insertionSort, List.mem_dedup, mem_phases] at hu
    obtain ⟨s, hs, hm, rfl⟩ := hu
    exact ⟨s, hs, hm, upper_lower _⟩
  · rintro ⟨s, hs, hm, rfl⟩
    refine ⟨lower s.phases, ?_, upper_lower _⟩
    rw [List.mem_insertionSort, List.mem_dedup, mem_phases]
    exact ⟨s, hs, hm, rfl⟩

/-- the phases that a section with one phase can have -/
def single : List (Char × Char) := [('a', 'A'), ('b', 'B'), ('c', 'C'), ('n', 'N')]

theorem single_phases {secs : List SecRow} {r : NodeRow K}
    (h : ∀ s ∈ secs, Meets s r → s.phases.map Char.toUpper ∈ [['A'], ['B'], ['C'], ['N']]) :
    nodePhases (secs.map lowerSec) (lowerNode r).id = (lettersAt secs r).map fun c => [c] := by
  have key : (((((secs.map lowerSec).filter fun s => decide ((lowerNode r).id = s.fromNode ∨ (lowerNode r).id = s.toNode)).map (·.phases)).dedup).insertionSort
      fun a b => textLe a b = true) = (single.filter fun p => decide (p.2 ∈ lettersAt secs r)).map fun p => [p.1] := by
    apply sorted_eq
    · refine List.Pairwise.map _ (fun a b hab => hab) (List.Pairwise.filter _ ?_)
      unfold single
      decide
    · refine List.Nodup.map_on ?_ (List.Nodup.filter _ (by unfold single; decide))
      intro a ha b hb e
      have key : ∀ a ∈ single, ∀ b ∈ single, [a.1] = [b.1] → a = b := by unfold single; decide
      exact key a (List.mem_filter.mp ha).1 b (List.mem_filter.mp hb).1 e
    · intro t
      rw [mem_phases, List.mem_map]
      constructor
      · rintro ⟨s, hs, hm, rfl⟩
        have h1 := h s hs hm
        match e : s.phases with
        | [] => rw [e] at h1; exact absurd h1 (by decide)
        | c :: d :: x => rw [e] at h1; simp at h1
        | [c] =>
          rw [e] at h1
          have h2 : c.toUpper ∈ ['A', 'B', 'C', 'N'] := by simpa using h1
          have h3 : (c.toLower, c.toUpper) ∈ single := by
            have hn := lower_nat c
            have hu := upper_nat c
            simp only [List.mem_cons, List.not_mem_nil, or_false] at h2
            unfold single
            have low : ∀ d l : Char, c.toUpper = d → l.toNat = d.toNat + 32 → 65 ≤ d.toNat ∧ d.toNat ≤ 90 → c.toLower = l := by
              intro d l h5 h6 h7
              apply char_nat
              have h8 := congrArg Char.toNat h5
              rw [hu] at h8
              rw [hn, h6]
              split at h8 <;> split <;> omega
            rcases h2 with h4 | h4 | h4 | h4
            · rw [h4, low 'A' 'a' h4 (by decide) (by decide)]; decide
            · rw [h4, low 'B' 'b' h4 (by decide) (by decide)]; decide
            · rw [h4, low 'C' 'c' h4 (by decide) (by decide)]; decide
            · rw [h4, low 'N' 'n' h4 (by decide) (by decide)]; decide
          refine ⟨(c.toLower, c.toUpper), List.mem_filter.mpr ⟨h3, decide_eq_true ?_⟩, by rfl⟩
          refine List.mem_filter.mpr ⟨h2, decide_eq_true ⟨s, hs, hm, ?_⟩⟩
          unfold phasesOf
          rw [e]
          refine List.mem_map.mpr ⟨c, List.mem_filter.mpr ⟨List.mem_singleton.mpr rfl, decide_eq_true ?_⟩, rfl⟩
          rintro rfl
          revert h2
          decide
      · rintro ⟨p, hp, rfl⟩
        obtain ⟨hp1, hp2⟩ := List.mem_filter.mp hp
        obtain ⟨-, hp3⟩ := List.mem_filter.mp (of_decide_eq_true hp2)
        obtain ⟨s, hs, hm, hc⟩ := of_decide_eq_true hp3
        refine ⟨s, hs, hm, ?_⟩
        have h1 := h s hs hm
        have h5 : s.phases.map Char.toUpper = [p.2] := by
          unfold phasesOf at hc
          obtain ⟨d, hd, e⟩ := List.mem_map.mp hc
          have hd := (List.mem_filter.mp hd).1
          match e2 : s.phases with
          | [] => rw [e2] at hd; cases hd
          | c :: d :: x => rw [e2] at h1; simp at h1
          | [c] =>
            rw [e2] at hd
            rw [List.mem_singleton.mp hd] at e
            rw [List.map_singleton, e]
        have h6 : lower (s.phases.map Char.toUpper) = lower s.phases := by
          unfold lower
          rw [List.map_map]
          refine List.map_congr_left fun c _ => ?_
          apply char_nat
          show (c.toUpper.toLower).toNat = _
          rw [lower_nat, lower_nat, upper_nat]
          split <;> split <;> (try split) <;> omega
        rw [← h6, h5]
        revert hp1
        unfold single
        have : ∀ q ∈ single, [q.1] = lower [q.2] := by decide
        exact this p
  unfold nodePhases
  rw [key, List.map_map]
  unfold lettersAt
  have e1 : ∀ (f : Char → Bool), ((single.filter fun p => decide (p.2 ∈ ['A', 'B', 'C', 'N'].filter f)).map (upper ∘ fun p => [p.1])) =
      (['A', 'B', 'C', 'N'].filter f).map fun c => [c] := by
    intro f
    cases hA : f 'A' <;> cases hB : f 'B' <;> cases hC : f 'C' <;> cases hN : f 'N' <;> simp [single, hA, hB, hC, hN, upper] <;> decide
  exact e1 _

/-- Each row is one node with its name; its phases are the ones of the sections at it, if each of those has only one phase. Missing: more phases
(`C95_phases_violated`), the position (`C95_position_violated`), the feeder (`C95_feeder_violated`). -/
theorem C95_nodes_partial {ns : List (SynNode K)} (h : readNodes db = .ok ns) : List.Forall₂ (fun r n => n.name = shown r.id ∧
    ((∀ s ∈ db.secs, Meets s r → s.phases.map Char.toUpper ∈ [['A'], ['B'], ['C'], ['N']]) → n.phases = (lettersAt db.secs r).map fun c => [c]) ∧
    ∀ t, t ∈ n.phases ↔ ∃ s ∈ db.secs, Meets s r ∧ t = s.phases.map Char.toUpper) db.nodes ns := by
  obtain ⟨feeders, hf, hall⟩ := readNodes_ok h
  refine hall.imp fun r n hn => ?_
  subst hn
  exact ⟨clean_lower_eq _, fun hs => single_phases hs, mem_nodePhases db.secs r⟩

/-- The nodes can be read if the names of sections are different. -/
theorem C95_nodes_read (hs : db.secs.Pairwise fun s t => ¬Same s.id t.id) : ∃ ns, readNodes db = .ok ns := by
  obtain ⟨feeders, hf⟩ := sectionFeeders_of (ids_nodup hs)
  unfold readNodes
  rw [hf]
  exact ⟨_, rfl⟩

/-- The property is false: a node at a section with several phases has a phase that is the whole text of the section. -/
theorem C95_phases_violated {ns : List (SynNode K)} (h : readNodes db = .ok ns) {r : NodeRow K} (hr : r ∈ db.nodes) {s : SecRow} (hs : s ∈ db.secs)
    (hm : Meets s r) (hl : s.phases.length ≠ 1) : ∃ n ∈ ns, n.name = shown r.id ∧ ∃ t ∈ n.phases, t.length ≠ 1 := by
  obtain ⟨n, hn, h1, -, h3⟩ := found_right (C95_nodes_partial h) hr
  exact ⟨n, hn, h1, _, (h3 _).mpr ⟨s, hs, hm, rfl⟩, by rw [List.length_map]; exact hl⟩

/-- The property is false: the longitude of each node is Y and the latitude is X. -/
theorem C95_position_violated {ns : List (SynNode K)} (h : readNodes db = .ok ns) : List.Forall₂ (fun r n => n.long = r.y ∧ n.lat = r.x) db.nodes ns := by
  obtain ⟨feeders, hf, hall⟩ := readNodes_ok h
  refine hall.imp fun r n hn => ?_
  subst hn
  exact ⟨rfl, rfl⟩

/-- The property is false: a node has the feeder of the section that is named like it; so it has none if there is no such section, whatever the
sections that meet it. -/
theorem C95_feeder_violated {ns : List (SynNode K)} (h : readNodes db = .ok ns) : List.Forall₂ (fun r n =>
    (∀ s ∈ db.secs, Same s.id r.id → n.feeder = some (shown s.feeder)) ∧
    ((∀ s ∈ db.secs, ¬Same s.id r.id) → n.feeder = none ∧ n.substation = none)) db.nodes ns := by
  obtain ⟨feeders, hf, hall⟩ := readNodes_ok h
  refine hall.imp fun r n hn => ?_
  subst hn
  refine ⟨fun s hs e => feeder_of hf hs e, fun hno => ?_⟩
  have h1 : find feeders (lowerNode r).id = none := by
    refine sectionFeeders_keys hf fun s hs e => ?_
    obtain ⟨s', hs', rfl⟩ := List.mem_map.mp hs
    exact hno s' hs' e
  refine ⟨h1, ?_⟩
  show substationOf _ (find feeders (lowerNode r).id) = none
  rw [h1]
  rfl

/-! ### Sources -/

section
variable [Field K] {ss : List (SynSource K)} {extra : List Text}

theorem sourcesFrom_ok {rows : List (FeederRow K)} {trans : List (SubtransRow K)} : ∀ {i : Nat} {ids : List Text} {l : List (SynSource K)},
    sourcesFrom rows trans i ids = .ok l → l.length = ids.length ∧ ∀ j t, ids[j]? = some t → ∃ s, l[j]? = some s ∧ readSource rows trans (i + j) t = .ok s
  | i, [], l, h => by
    injection h with h
    subst h
    exact ⟨rfl, fun j t ht => by simp at ht⟩
  | i, id :: ids, l, h => by
    unfold sourcesFrom at h
    cases hs : readSource rows trans i id with
    | error e => rw [hs] at h; cases h
    | ok s =>
      rw [hs] at h
      dsimp only at h
      cases hr : sourcesFrom rows trans (i + 1) ids with
      | error e => rw [hr] at h; cases h
      | ok l' =>
        rw [hr] at h
        injection h with h
        subst h
        obtain ⟨h1, h2⟩ := sourcesFrom_ok hr
        refine ⟨by rw [List.length_cons, List.length_cons, h1], fun j t ht => ?_⟩
        cases j with
        | zero =>
          rw [List.getElem?_cons_zero] at ht
          injection ht with ht
          subst ht
          exact ⟨s, rfl, hs⟩
        | succ j =>
          rw [List.getElem?_cons_succ] at ht
          obtain ⟨s', hs', e⟩ := h2 j t ht
          exact ⟨s', by rw [List.getElem?_cons_succ]; exact hs', by rw [← e]; congr 1; omega⟩

theorem readSource_cases (rows : List (FeederRow K)) (trans : List (SubtransRow K)) (i : Nat) (id : Text) :
    (i < rows.length + trans.length → ∃ s, readSource rows trans i id = .ok s) ∧
      (rows.length + trans.length ≤ i → readSource rows trans i id = .error .keyError) := by
  unfold readSource
  constructor
  · intro h
    rw [List.getElem?_eq_getElem (by simpa using h)]
    exact ⟨_, rfl⟩
  · intro h
    rw [List.getElem?_eq_none (by simpa using h)]

theorem sourcesFrom_of {rows : List (FeederRow K)} {trans : List (SubtransRow K)} : ∀ {i : Nat} {ids : List Text},
    i + ids.length ≤ rows.length + trans.length → ∃ l, sourcesFrom rows trans i ids = .ok l
  | i, [], _ => ⟨[], rfl⟩
  | i, id :: ids, h => by
    rw [List.length_cons] at h
    obtain ⟨l, hl⟩ := sourcesFrom_of (rows := rows) (trans := trans) (i := i + 1) (ids := ids) (by omega)
    obtain ⟨s, hs⟩ := (readSource_cases rows trans i id).1 (by omega)
    unfold sourcesFrom
    rw [hs]
    dsimp only
    rw [hl]
    exact ⟨_, rfl⟩

theorem sourcesFrom_error {rows : List (FeederRow K)} {trans : List (SubtransRow K)} : ∀ {i : Nat} {ids : List Text},
    i ≤ rows.length + trans.length → rows.length + trans.length < i + ids.length → sourcesFrom rows trans i ids = .error .keyError
  | i, [], h, h2 => by rw [List.length_nil] at h2; omega
  | i, id :: ids, h, h2 => by
    rw [List.length_cons] at h2
    unfold sourcesFrom
    by_cases hi : i < rows.length + trans.length
    · obtain ⟨s, hs⟩ := (readSource_cases rows trans i id).1 hi
      rw [hs]
      dsimp only
      rw [sourcesFrom_error (by omega) (by omega)]
    · rw [(readSource_cases rows trans i id).2 (by omega)]

theorem readSources_ok (h : readSources db extra = .ok ss) :
    sourcesFrom (db.feeders.map lowerFeeder) db.trans 0 ((db.feeders.map lowerFeeder).map (·.id) ++ extra) = .ok ss := by
  unfold readSources at h
  cases hf : sectionFeeders (db.secs.map lowerSec) with
  | error e => rw [hf] at h; cases h
  | ok feeders => rw [hf] at h; exact h

theorem readSource_name {rows : List (FeederRow K)} {trans : List (SubtransRow K)} {i : Nat} {id : Text} {s : SynSource K}
    (h : readSource rows trans i id = .ok s) : s.name = clean id := by
  unfold readSource at h
  split at h
  · cases h
  · injection h with h
    subst h
    rfl

theorem source_at {r : FeederRow K} {i : Nat} (hr : db.feeders[i]? = some r) {s : SynSource K}
    (h : readSource (db.feeders.map lowerFeeder) db.trans i (lowerFeeder r).id = .ok s) : SourceAt db r s := by
  have hi : i < db.feeders.length := (List.getElem?_eq_some_iff.mp hr).1
  have e1 : (db.feeders.map lowerFeeder)[i]? = some (lowerFeeder r) := by rw [List.getElem?_map, hr]; rfl
  unfold readSource at h
  rw [List.getElem?_append_left (by simpa using hi), List.getElem?_map, e1] at h
  injection h with h
  subst h
  have e2 : clean (lowerFeeder r).id = shown r.id := clean_lower_eq _
  refine ⟨e2, e2, ?_, mul_comm _ _, rfl, rfl, rfl, ?_, rfl, ⟨rfl, rfl⟩⟩
  · intro hu
    show find (feederSubstations ((db.feeders.map lowerFeeder).map fun r => (r.id, r.substation))) (clean (lowerFeeder r).id) = _
    rw [e2]
    have h2 := substation_of (tab := db.feeders.map fun r => (r.id, r.substation)) (f := shown r.id) (p := (r.id, r.substation)) (by
      intro p hp q hq e
      obtain ⟨p', hp', rfl⟩ := List.mem_map.mp hp
      obtain ⟨q', hq', rfl⟩ := List.mem_map.mp hq
      exact hu p' hp' q' hq' e) (List.mem_map_of_mem (f := fun r => (r.id, r.substation)) (List.mem_of_getElem? hr)) rfl
    rw [List.map_map] at h2 ⊢
    exact h2
  · show upper ((lower r.connection).take 1) = _
    unfold upper
    rw [List.map_take]
    exact congrArg (List.take 1) (upper_lower _)

/-- The first sources are the ones of the rows of the table of feeders; the other ones are named like the other feeders of sections. Missing: their values
(`C95_order_violated`) and that they can always be read (`C95_source_violated`). -/
theorem C95_sources_partial (h : readSources db extra = .ok ss) : ∃ a b, ss = a ++ b ∧ List.Forall₂ (SourceAt db) db.feeders a ∧
    b.map (·.name) = extra.map shown := by
  obtain ⟨h1, h2⟩ := sourcesFrom_ok (readSources_ok h)
  rw [List.length_append, List.length_map, List.length_map] at h1
  refine ⟨ss.take db.feeders.length, ss.drop db.feeders.length, (List.take_append_drop _ _).symm, ?_, ?_⟩
  · rw [List.forall₂_iff_get]
    refine ⟨by rw [List.length_take]; omega, fun i hi hi2 => ?_⟩
    have hr : db.feeders[i]? = some db.feeders[i] := List.getElem?_eq_getElem hi
    obtain ⟨s, hs, e⟩ := h2 i (lowerFeeder db.feeders[i]).id (by
      rw [List.getElem?_append_left (by simpa using hi), List.map_map, List.getElem?_map, hr]
      rfl)
    rw [Nat.zero_add] at e
    have e2 : (ss.take db.feeders.length).get ⟨i, hi2⟩ = s := by
      rw [List.get_eq_getElem, List.getElem_take]
      exact (List.getElem?_eq_some_iff.mp hs).2
    rw [e2]
    exact source_at hr e
  · apply List.ext_getElem?
    intro j
    rw [List.getElem?_map, List.getElem?_map, List.getElem?_drop]
    cases hj : extra[j]? with
    | none =>
      have : extra.length ≤ j := List.getElem?_eq_none_iff.mp hj
      rw [List.getElem?_eq_none (by omega)]
      rfl
    | some t =>
      obtain ⟨s, hs, e⟩ := h2 (db.feeders.length + j) t (by
        rw [List.getElem?_append_right (by simp)]
        simpa using hj)
      rw [hs]
      show some s.name = some (shown t)
      rw [readSource_name e, clean_eq]

/-- The sources can be read exactly if there are as many substation transformers as other feeders. -/
theorem C95_sources_read (hs : db.secs.Pairwise fun s t => ¬Same s.id t.id) : (∃ ss, readSources db extra = .ok ss) ↔ extra.length ≤ db.trans.length := by
  obtain ⟨feeders, hf⟩ := sectionFeeders_of (ids_nodup hs)
  unfold readSources
  rw [hf]
  dsimp only
  by_cases h : extra.length ≤ db.trans.length
  · exact ⟨fun _ => h, fun _ => sourcesFrom_of (by simp; omega)⟩
  · refine ⟨?_, fun h2 => absurd h2 h⟩
    rintro ⟨ss, hss⟩
    rw [sourcesFrom_error (Nat.zero_le _) (by simp; omega)] at hss
    cases hss

/-- The property is false: without substation transformers no section may have a feeder that is not in the table. -/
theorem C95_source_violated (hs : db.secs.Pairwise fun s t => ¬Same s.id t.id) (ho : Others db extra) (ht : db.trans = []) {s : SecRow}
    (hsec : s ∈ db.secs) (hno : ∀ r ∈ db.feeders, ¬Same s.feeder r.id) : readSources db extra = .error .keyError := by
  obtain ⟨feeders, hf⟩ := sectionFeeders_of (ids_nodup hs)
  unfold readSources
  rw [hf]
  dsimp only
  have hmem := (ho.members (s.feeder.map Char.toLower)).mpr ⟨⟨s, hsec, rfl⟩, hno⟩
  have : 0 < extra.length := List.length_pos_of_mem hmem
  exact sourcesFrom_error (Nat.zero_le _) (by simp [ht]; omega)

theorem extra_source (h : readSources db extra = .ok ss) {j : Nat} {t : Text} {tr : SubtransRow K} (ht : extra[j]? = some t) (htr : db.trans[j]? = some tr) :
    ∃ s ∈ ss, s.name = shown t ∧ s.voltage = 1000 * tr.kv ∧ s.z1 = (1 / 100, 1 / 100) ∧ s.z0 = (1 / 100, 1 / 100) ∧ s.connection = ['Y'] := by
  obtain ⟨-, h2⟩ := sourcesFrom_ok (readSources_ok h)
  obtain ⟨s, hs, e⟩ := h2 (db.feeders.length + j) t (by
    rw [List.getElem?_append_right (by simp)]
    simpa using ht)
  refine ⟨s, List.mem_of_getElem? hs, ?_⟩
  rw [Nat.zero_add] at e
  have hname := readSource_name e
  unfold readSource at e
  have e1 : (db.feeders.map lowerFeeder)[db.feeders.length + j]? = none := List.getElem?_eq_none (by simp)
  rw [List.getElem?_append_right (by simp), e1] at e
  have e2 : (db.trans.map fun t => (t.kv, t.level, t.angle))[db.feeders.length + j - ((db.feeders.map lowerFeeder).map fun r => (r.kv, r.level, r.angle)).length]?
      = some (tr.kv, tr.level, tr.angle) := by
    rw [List.length_map, List.length_map, Nat.add_sub_cancel_left, List.getElem?_map, htr]
    rfl
  rw [e2] at e
  injection e with e
  subst e
  exact ⟨by rw [hname, clean_eq], mul_comm _ _, rfl, rfl, rfl⟩

/-- The property is false: the voltages of the other feeders depend on the order of a set, which is arbitrary, and their impedances and connections are constants. -/
theorem C95_order_violated {a b : Text} {rest : List Text} {ss' : List (SynSource K)} {s t : SubtransRow K} {more : List (SubtransRow K)}
    (ht : db.trans = s :: t :: more) (h : readSources db (a :: b :: rest) = .ok ss) (h' : readSources db (b :: a :: rest) = .ok ss') :
    (∃ x ∈ ss, x.name = shown a ∧ x.voltage = 1000 * s.kv) ∧ ∃ x ∈ ss', x.name = shown a ∧ x.voltage = 1000 * t.kv := by
  obtain ⟨x, hx, h1, h2, -⟩ := extra_source h (j := 0) (t := a) (tr := s) rfl (by rw [ht]; rfl)
  obtain ⟨y, hy, h3, h4, -⟩ := extra_source h' (j := 1) (t := a) (tr := t) rfl (by rw [ht]; rfl)
  exact ⟨⟨x, hx, h1, h2⟩, y, hy, h3, h4⟩

/-- The values of the other feeders are constants except voltage and angle. -/
theorem C95_constants_violated (h : readSources db extra = .ok ss) {t : Text} (ht : t ∈ extra) :
    ∃ s ∈ ss, s.name = shown t ∧ s.z1 = (1 / 100, 1 / 100) ∧ s.z0 = (1 / 100, 1 / 100) ∧ s.connection = ['Y'] := by
  obtain ⟨j, hj, rfl⟩ := List.getElem_of_mem ht
  obtain ⟨h1, h2⟩ := sourcesFrom_ok (readSources_ok h)
  have hlen : j < db.trans.length := by
    by_contra hc
    obtain ⟨s, -, e⟩ := h2 (db.feeders.length + j) extra[j] (by
      rw [List.getElem?_append_right (by simp)]
      simp)
    rw [(readSource_cases _ _ _ _).2 (by simp; omega)] at e
    cases e
  obtain ⟨s, hs, e1, -, e2⟩ := extra_source h (j := j) (List.getElem?_eq_getElem hj) (List.getElem?_eq_getElem hlen)
  exact ⟨s, hs, e1, e2⟩

end
end

/-! ### Examples -/

def exSec (id feeder phases f t : Text) : SecRow := ⟨id, feeder, phases, f, t, []⟩

def exHead : HeadDb ℚ where
  feeders := [⟨"Feeder 1".toList, "Main Sub".toList, 12, "Yg".toList, 126, (1, 2), (3, 4), 30⟩]
  trans := [⟨33, 120, 0⟩, ⟨66, 120, 15⟩]
  secs := [exSec "S1".toList "feeder 1".toList "A".toList "N1".toList "N2".toList, exSec "S2".toList "West".toList "c".toList "N2".toList "N3".toList,
    exSec "S3".toList "East".toList "ABC".toList "N3".toList "N4".toList]
  nodes := [⟨"N2".toList, 5, 7⟩, ⟨"n4".toList, 6, 8⟩, ⟨"S1".toList, 1, 1⟩]

def exHeadSource (name : Text) (kv angle pu : ℚ) (sub : Option Text) (c : Char) (z1 z0 : ℚ × ℚ) : SynSource ℚ :=
  ⟨name, sub, kv * 1000, pu, ['A', 'B', 'C'], true, [c], angle, z1, z0, name⟩

theorem exSources (a b : Text) (ha : clean a = a) (hb : clean b = b) (h1 : a ≠ "feeder_1".toList) (h2 : b ≠ "feeder_1".toList) : readSources exHead [a, b] = .ok
    [exHeadSource "feeder_1".toList 12 30 (21 / 20) (some "main_sub".toList) 'Y' (1, 2) (3, 4), exHeadSource a 33 0 1 none 'Y' (1 / 100, 1 / 100) (1 / 100, 1 / 100),
     exHeadSource b 66 15 1 none 'Y' (1 / 100, 1 / 100) (1 / 100, 1 / 100)] := by
  have hf : sectionFeeders (exHead.secs.map lowerSec) = .ok [("s1".toList, "feeder_1".toList), ("s2".toList, "west".toList), ("s3".toList, "east".toList)] := by
    decide +kernel
  have hsub : feederSubstations ((exHead.feeders.map lowerFeeder).map fun r => (r.id, r.substation)) = [("feeder_1".toList, "main_sub".toList)] := by decide +kernel
  have h3 : readSource (exHead.feeders.map lowerFeeder) exHead.trans 0 "feeder 1".toList =
      .ok (exHeadSource "feeder_1".toList 12 30 (21 / 20) (some "main_sub".toList) 'Y' (1, 2) (3, 4)) := by decide +kernel
  have h4 : ∀ t, clean t = t → t ≠ "feeder_1".toList → readSource (exHead.feeders.map lowerFeeder) exHead.trans 1 t =
      .ok (exHeadSource t 33 0 1 none 'Y' (1 / 100, 1 / 100) (1 / 100, 1 / 100)) := by
    intro t ht hne
    unfold readSource
    rw [hsub, ht, find_cons, if_neg (fun e => hne e.symm)]
    show Except.ok _ = _
    congr 1
    unfold exHeadSource
    congr 1
    decide +kernel
  have h5 : ∀ t, clean t = t → t ≠ "feeder_1".toList → readSource (exHead.feeders.map lowerFeeder) exHead.trans 2 t =
      .ok (exHeadSource t 66 15 1 none 'Y' (1 / 100, 1 / 100) (1 / 100, 1 / 100)) := by
    intro t ht hne
    unfold readSource
    rw [hsub, ht, find_cons, if_neg (fun e => hne e.symm)]
    show Except.ok _ = _
    congr 1
    unfold exHeadSource
    congr 1
    decide +kernel
  unfold readSources
  rw [hf]
  show sourcesFrom _ _ 0 ["feeder 1".toList, a, b] = _
  unfold sourcesFrom
  rw [h3]
  dsimp only
  unfold sourcesFrom
  rw [h4 a ha h1]
  dsimp only
  unfold sourcesFrom
  rw [h5 b hb h2]
  rfl

theorem exOthers : Others exHead ["west".toList, "east".toList] where
  nodup := by decide
  members := by
    intro t
    show t ∈ ["west".toList, "east".toList] ↔ (∃ s ∈ [_, _, _], _) ∧ ∀ r ∈ [_], _
    simp only [List.mem_cons, List.not_mem_nil, or_false, exists_eq_or_imp, exists_eq_left, forall_eq]
    constructor
    · rintro (rfl | rfl)
      · exact ⟨.inr (.inl (by decide)), by decide⟩
      · exact ⟨.inr (.inr (by decide)), by decide⟩
    · rintro ⟨rfl | rfl | rfl, h⟩
      · exact absurd (by decide) h
      · exact .inl (by decide)
      · exact .inr (by decide)

/-- the voltage of the western feeder is 33 kV or 66 kV -/
example : (∃ ss, readSources exHead ["west".toList, "east".toList] = .ok ss ∧ ∃ x ∈ ss, x.name = "west".toList ∧ x.voltage = 1000 * 33) ∧
    ∃ ss, readSources exHead ["east".toList, "west".toList] = .ok ss ∧ ∃ x ∈ ss, x.name = "west".toList ∧ x.voltage = 1000 * 66 := by
  have h := exSources "west".toList "east".toList (by decide) (by decide) (by decide) (by decide)
  have h' := exSources "east".toList "west".toList (by decide) (by decide) (by decide) (by decide)
  obtain ⟨h1, h2⟩ := C95_order_violated (db := exHead) (more := []) rfl h h'
  exact ⟨⟨_, h, h1⟩, _, h', h2⟩

example : ∃ a, ∃ b : List (SynSource ℚ), List.Forall₂ (SourceAt exHead) exHead.feeders a ∧ b.map (·.name) = ["west".toList, "east".toList] := by
  obtain ⟨a, b, -, h1, h2⟩ := C95_sources_partial (exSources "west".toList "east".toList (by decide) (by decide) (by decide) (by decide))
  exact ⟨a, b, h1, h2⟩

example : ∃ ss, readSources exHead ["west".toList, "east".toList] = .ok ss := (C95_sources_read (by decide)).mpr (by decide)

def exNoTrans : HeadDb ℚ := { exHead with trans := [] }

example : readSources exNoTrans ["west".toList, "east".toList] = .error .keyError :=
  C95_source_violated (db := exNoTrans) (s := exSec "S2".toList "West".toList "c".toList "N2".toList "N3".toList) (by decide)
    ⟨exOthers.nodup, exOthers.members⟩ rfl (.tail _ (.head _)) (by decide)

def exHeadNodes : List (SynNode ℚ) :=
  [⟨"n2".toList, none, none, 7, 5, ["A".toList, "C".toList]⟩, ⟨"n4".toList, none, none, 8, 6, ["ABC".toList]⟩,
   ⟨"s1".toList, some "feeder_1".toList, some "main_sub".toList, 1, 1, []⟩]

theorem exNodes : readNodes exHead = .ok exHeadNodes := by decide +kernel

example : lettersAt exHead.secs exHead.nodes[0] = ['A', 'C'] := by decide
example : ∀ s ∈ exHead.secs, Meets s exHead.nodes[0] → s.phases.map Char.toUpper ∈ [['A'], ['B'], ['C'], ['N']] := by decide
example : ∃ n ∈ exHeadNodes, n.name = "n4".toList ∧ ∃ t ∈ n.phases, t.length ≠ 1 :=
  C95_phases_violated exNodes (r := ⟨"n4".toList, 6, 8⟩) (s := exSec "S3".toList "East".toList "ABC".toList "N3".toList "N4".toList) (.tail _ (.head _))
    (.tail _ (.tail _ (.head _))) (.inr (by decide)) (by decide)
example : List.Forall₂ (fun r n => n.long = r.y ∧ n.lat = r.x) exHead.nodes exHeadNodes := C95_position_violated exNodes

end Ditto.Syn
