import Verif.Spec.CymeSourceWrite
import Mathlib.Data.List.Forall2
import Mathlib.Data.List.Nodup
import Mathlib.Data.List.Induction
import Mathlib.Data.Rat.Defs
import Mathlib.Algebra.Field.Rat

/-! C123: power sources written to CYME files -/
namespace Ditto.Cyme
open Ditto Glm Spec

section
variable {N : Type} [Field N]

theorem kiloCell_of (v : Option N) : KiloCell v (numberCell (v.map (· / 1000))) := by
  cases v with
  | none => exact .inl ⟨rfl, rfl⟩
  | some x => exact .inr ⟨x, rfl, rfl⟩

theorem equivRow_of (voltageOf : Text → Option N) (s : PowerRec N) (e : Text) : EquivOf voltageOf s e (equivRow voltageOf s e) := by
  refine ⟨rfl, ?_⟩
  have hv : writtenVoltage voltageOf s e = if s.voltage = none then voltageOf e else s.voltage := by
    unfold writtenVoltage
    cases h : s.voltage with
    | none => rw [if_pos rfl]
    | some x => rw [if_neg (fun hh => nomatch hh)]
  unfold equivRow
  rw [hv]
  have ha : ∃ c₁ c₂ c₃, angleCells s.angle = [c₁, c₂, c₃] ∧ AnglesIn s.angle c₁ c₂ c₃ := by
    cases s.angle with
    | none => exact ⟨_, _, _, rfl, .inl ⟨rfl, rfl, rfl, rfl⟩⟩
    | some a => exact ⟨_, _, _, rfl, .inr ⟨a, rfl, rfl, rfl, rfl⟩⟩
  have hi : ∀ z : Option (N × N), ∃ c₁ c₂, impedanceCells z = [c₁, c₂] ∧ ImpedanceCells z c₁ c₂ := by
    intro z
    rcases z with _ | ⟨a, b⟩
    · exact ⟨_, _, rfl, .inl ⟨rfl, rfl, rfl⟩⟩
    · exact ⟨_, _, rfl, .inr ⟨a, b, rfl, rfl, rfl⟩⟩
  obtain ⟨a1, a2, a3, h1, h1'⟩ := ha
  obtain ⟨p1, p2, h2, h2'⟩ := hi s.positive
  obtain ⟨z1, z2, h3, h3'⟩ := hi s.zero
  rw [h1, h2, h3]
  exact ⟨_, a1, a2, a3, p1, p2, z1, z2, z1, z2, _, rfl, kiloCell_of _, h1', h2', h3', h3', kiloCell_of _⟩

theorem sourceStep_at (voltageOf : Text → Option N) (st : SourceState N) {s : PowerRec N} {e : Text} (h : SourceAt s e) :
    sourceStep voltageOf st s =
      { keys := if e ∈ st.keys then st.keys else st.keys ++ [e]
        subs := st.subs ++ [{ element := some e, kvll := (writtenVoltage voltageOf s e).map (· / 1000), angle := s.angle, positive := s.positive
                              zero := s.zero, mva := s.power.map (· / 1000000) }]
        rows := st.rows ++ [equivRow voltageOf s e] } := by
  obtain ⟨h1, h2, h3⟩ := h
  unfold sourceStep
  rw [h1, h2, h3]
  rfl

theorem sourceStep_loose (voltageOf : Text → Option N) (st : SourceState N) {s : PowerRec N} (h : Loose s) :
    sourceStep voltageOf st s = { st with subs := st.subs ++ [{}] } := by
  obtain ⟨h1, h2, h3⟩ := h
  unfold sourceStep
  rw [h1, h2, h3]
  rfl

theorem sourceStep_other (voltageOf : Text → Option N) (st : SourceState N) {s : PowerRec N} (h : s.dropped = true ∨ s.sourcebus = false) :
    sourceStep voltageOf st s = st := by
  unfold sourceStep
  rcases h with h | h
  · rw [h]
    rfl
  · rw [h]
    cases s.dropped <;> rfl

omit [Field N] in
theorem sourceKind_of (s : PowerRec N) : (∃ e, SourceAt s e) ∨ Loose s ∨ s.dropped = true ∨ s.sourcebus = false := by
  cases h1 : s.dropped with
  | true => exact .inr (.inr (.inl rfl))
  | false =>
    cases h2 : s.sourcebus with
    | false => exact .inr (.inr (.inr rfl))
    | true =>
      cases h3 : s.element with
      | none => exact .inr (.inl ⟨h1, h2, h3⟩)
      | some e => exact .inl ⟨e, h1, h2, h3⟩

omit [Field N] in
theorem not_at_of {s : PowerRec N} (h : s.dropped = true ∨ s.sourcebus = false) (e : Text) : ¬SourceAt s e := by
  rintro ⟨h1, h2, -⟩
  rcases h with h | h
  · rw [h] at h1
    cases h1
  · rw [h] at h2
    cases h2

/-- **C123**, source equivalents: one row for each power source at a node, in their order and with their data; nothing for others. -/
theorem C123_rows (voltageOf : Text → Option N) (ss : List (PowerRec N)) :
    ∃ found : List (PowerRec N × Text), (∀ p ∈ found, p.1 ∈ ss ∧ SourceAt p.1 p.2) ∧ (found.map (·.1)).Sublist ss ∧
      (∀ s ∈ ss, ∀ e, SourceAt s e → (s, e) ∈ found) ∧
      (found.length = (ss.filter fun s => !s.dropped && s.sourcebus && s.element.isSome).length) ∧
      List.Forall₂ (fun p row => EquivOf voltageOf p.1 p.2 row) found (sourceRun voltageOf ss).rows ∧
      ∀ e, e ∈ (sourceRun voltageOf ss).keys ↔ ∃ s ∈ ss, SourceAt s e := by
  induction ss using List.reverseRecOn with
  | nil =>
    refine ⟨[], fun p hp => (List.not_mem_nil hp).elim, .slnil, fun s hs => (List.not_mem_nil hs).elim, rfl, .nil, fun e => ?_⟩
    constructor
    · intro h
      exact (List.not_mem_nil h).elim
    · rintro ⟨s, hs, -⟩
      exact (List.not_mem_nil hs).elim
  | append_singleton ss s ih =>
    obtain ⟨found, h1, h2, h3, h4, h5, h6⟩ := ih
    have hrun : sourceRun voltageOf (ss ++ [s]) = sourceStep voltageOf (sourceRun voltageOf ss) s := by
      unfold sourceRun
      rw [List.foldl_append]
      rfl
    rw [hrun]
    have same : (∀ e, ¬SourceAt s e) → (sourceStep voltageOf (sourceRun voltageOf ss) s).rows = (sourceRun voltageOf ss).rows →
        (sourceStep voltageOf (sourceRun voltageOf ss) s).keys = (sourceRun voltageOf ss).keys → (!s.dropped && s.sourcebus && s.element.isSome) = false →
        ∃ found : List (PowerRec N × Text), (∀ p ∈ found, p.1 ∈ ss ++ [s] ∧ SourceAt p.1 p.2) ∧ (found.map (·.1)).Sublist (ss ++ [s]) ∧
          (∀ t ∈ ss ++ [s], ∀ e, SourceAt t e → (t, e) ∈ found) ∧
          (found.length = ((ss ++ [s]).filter fun s => !s.dropped && s.sourcebus && s.element.isSome).length) ∧
          List.Forall₂ (fun p row => EquivOf voltageOf p.1 p.2 row) found (sourceStep voltageOf (sourceRun voltageOf ss) s).rows ∧
          ∀ e, e ∈ (sourceStep voltageOf (sourceRun voltageOf ss) s).keys ↔ ∃ t ∈ ss ++ [s], SourceAt t e := by
      intro hno hr hk hf
      refine ⟨found, fun p hp => ⟨List.mem_append_left _ (h1 p hp).1, (h1 p hp).2⟩, h2.trans (List.sublist_append_left _ _), ?_, ?_, ?_, ?_⟩
      · intro t ht e hte
        rcases List.mem_append.mp ht with ht | ht
        · exact h3 t ht e hte
        · rw [List.mem_singleton.mp ht] at hte
          exact (hno e hte).elim
      · rw [List.filter_append, List.filter_cons_of_neg (by rw [hf]; decide), List.filter_nil, List.append_nil, h4]
      · rw [hr]
        exact h5
      · intro e
        rw [hk, h6 e]
        constructor
        · rintro ⟨t, ht, hte⟩
          exact ⟨t, List.mem_append_left _ ht, hte⟩
        · rintro ⟨t, ht, hte⟩
          rcases List.mem_append.mp ht with ht | ht
          · exact ⟨t, ht, hte⟩
          · rw [List.mem_singleton.mp ht] at hte
            exact (hno e hte).elim
    rcases sourceKind_of s with ⟨e, he⟩ | hl | ho
    · rw [sourceStep_at voltageOf _ he]
      refine ⟨found ++ [(s, e)], ?_, ?_, ?_, ?_, ?_, ?_⟩
      · intro p hp
        rcases List.mem_append.mp hp with hp | hp
        · exact ⟨List.mem_append_left _ (h1 p hp).1, (h1 p hp).2⟩
        · rw [List.mem_singleton.mp hp]
          exact ⟨List.mem_append_right _ (.head _), he⟩
      · rw [List.map_append]
        exact h2.append (List.Sublist.refl _)
      · intro t ht e' hte
        rcases List.mem_append.mp ht with ht | ht
        · exact List.mem_append_left _ (h3 t ht e' hte)
        · have hts := List.mem_singleton.mp ht
          subst hts
          have : e' = e := Option.some.inj (hte.2.2.symm.trans he.2.2)
          rw [this]
          exact List.mem_append_right _ (.head _)
      · rw [List.length_append, List.filter_append, List.length_append, h4, List.filter_cons_of_pos (by rw [he.1, he.2.1, he.2.2]; rfl)]
        rfl
      · exact List.rel_append h5 (.cons (equivRow_of voltageOf s e) .nil)
      · intro e'
        dsimp only
        have hmem : (e' ∈ if e ∈ (sourceRun voltageOf ss).keys then (sourceRun voltageOf ss).keys else (sourceRun voltageOf ss).keys ++ [e]) ↔
            e' ∈ (sourceRun voltageOf ss).keys ∨ e' = e := by
          by_cases hm : e ∈ (sourceRun voltageOf ss).keys
          · rw [if_pos hm]
            constructor
            · exact .inl
            · rintro (h | rfl)
              · exact h
              · exact hm
          · rw [if_neg hm, List.mem_append, List.mem_singleton]
        rw [hmem, h6 e']
        constructor
        · rintro (⟨t, ht, hte⟩ | rfl)
          · exact ⟨t, List.mem_append_left _ ht, hte⟩
          · exact ⟨s, List.mem_append_right _ (.head _), he⟩
        · rintro ⟨t, ht, hte⟩
          rcases List.mem_append.mp ht with ht | ht
          · exact .inl ⟨t, ht, hte⟩
          · have hts := List.mem_singleton.mp ht
            subst hts
            exact .inr (Option.some.inj (hte.2.2.symm.trans he.2.2))
    · refine same (fun e he => ?_) ?_ ?_ ?_
      · have := he.2.2
        rw [hl.2.2] at this
        cases this
      · rw [sourceStep_loose voltageOf _ hl]
      · rw [sourceStep_loose voltageOf _ hl]
      · rw [hl.2.2]
        cases s.dropped <;> cases s.sourcebus <;> rfl
    · refine same (not_at_of ho) ?_ ?_ ?_
      · rw [sourceStep_other voltageOf _ ho]
      · rw [sourceStep_other voltageOf _ ho]
      · rcases ho with ho | ho
        · rw [ho]
          rfl
        · rw [ho]
          cases s.dropped <;> rfl

/-! ### the table of the sources -/

/-- the element of `self.substations` of a source -/
def subFor (voltageOf : Text → Option N) (s : PowerRec N) (e : Text) : SubRec N :=
  { element := some e, kvll := (writtenVoltage voltageOf s e).map (· / 1000), angle := s.angle, positive := s.positive
    zero := s.zero, mva := s.power.map (· / 1000000) }

theorem subs_of (voltageOf : Text → Option N) (ss : List (PowerRec N)) (hl : ∀ s ∈ ss, ¬Loose s) :
    (sourceRun voltageOf ss).keys.Nodup ∧
    (∀ sub ∈ (sourceRun voltageOf ss).subs, ∃ s ∈ ss, ∃ e, SourceAt s e ∧ sub = subFor voltageOf s e) ∧
    (∀ s ∈ ss, ∀ e, SourceAt s e → subFor voltageOf s e ∈ (sourceRun voltageOf ss).subs) := by
  induction ss using List.reverseRecOn with
  | nil =>
    exact ⟨.nil, fun p hp => (List.not_mem_nil hp).elim, fun s hs => (List.not_mem_nil hs).elim⟩
  | append_singleton ss s ih =>
    obtain ⟨h1, h2, h3⟩ := ih (fun t ht => hl t (List.mem_append_left _ ht))
    have hrun : sourceRun voltageOf (ss ++ [s]) = sourceStep voltageOf (sourceRun voltageOf ss) s := by
      unfold sourceRun
      rw [List.foldl_append]
      rfl
    rw [hrun]
    rcases sourceKind_of s with ⟨e, he⟩ | hlo | ho
    · rw [sourceStep_at voltageOf _ he]
      refine ⟨?_, ?_, ?_⟩
      · dsimp only
        by_cases hm : e ∈ (sourceRun voltageOf ss).keys
        · rw [if_pos hm]
          exact h1
        · rw [if_neg hm]
          refine List.nodup_append.mpr ⟨h1, List.nodup_singleton _, ?_⟩
          intro a ha b hb hab
          rw [List.mem_singleton.mp hb] at hab
          rw [hab] at ha
          exact hm ha
      · intro sub hsub
        rcases List.mem_append.mp hsub with hsub | hsub
        · obtain ⟨t, ht, x, hx⟩ := h2 sub hsub
          exact ⟨t, List.mem_append_left _ ht, x, hx⟩
        · exact ⟨s, List.mem_append_right _ (.head _), e, he, List.mem_singleton.mp hsub⟩
      · intro t ht x hx
        rcases List.mem_append.mp ht with ht | ht
        · exact List.mem_append_left _ (h3 t ht x hx)
        · have hts := List.mem_singleton.mp ht
          subst hts
          rw [Option.some.inj (hx.2.2.symm.trans he.2.2)]
          exact List.mem_append_right _ (.head _)
    · exact (hl s (List.mem_append_right _ (.head _)) hlo).elim
    · rw [sourceStep_other voltageOf _ ho]
      refine ⟨h1, ?_, ?_⟩
      · intro sub hsub
        obtain ⟨t, ht, x, hx⟩ := h2 sub hsub
        exact ⟨t, List.mem_append_left _ ht, x, hx⟩
      · intro t ht x hx
        rcases List.mem_append.mp ht with ht | ht
        · exact h3 t ht x hx
        · rw [List.mem_singleton.mp ht] at hx
          exact (not_at_of ho x hx).elim

omit [Field N] in
theorem numberSubs_of (e : Text) (k : Nat) (subs : List (SubRec N)) (h : ∀ s ∈ subs, s.element ≠ none) :
    numberSubs e k subs = .ok (subs.map fun s => if s.element = some e then { s with id := some k } else s) := by
  induction subs with
  | nil => rfl
  | cons s ss ih =>
    rw [numberSubs]
    cases hs : s.element with
    | none => exact (h s (.head _) hs).elim
    | some x =>
      dsimp only
      rw [ih (fun t ht => h t (.tail _ ht)), List.map_cons, hs]
      dsimp only
      by_cases hx : x = e
      · rw [if_pos hx, if_pos (congrArg some hx)]
      · rw [if_neg hx, if_neg (fun hh => hx (Option.some.inj hh))]

theorem feederOf_of (feeders : List (Text × Option Text)) (last : Option (Text × Text)) (e : Text) :
    (∃ f, (f, some e) ∈ feeders ∧ feederOf feeders last e = some (e, f)) ∨ ((∀ f, (f, some e) ∉ feeders) ∧ feederOf feeders last e = last) := by
  unfold feederOf
  induction feeders using List.reverseRecOn with
  | nil => exact .inr ⟨fun f hf => List.not_mem_nil hf, rfl⟩
  | append_singleton fs g ih =>
    rw [List.foldl_append]
    obtain ⟨gn, gh⟩ := g
    by_cases hg : gh = some e
    · refine .inl ⟨gn, List.mem_append_right _ (by rw [hg]; exact .head _), ?_⟩
      rw [List.foldl_cons, if_pos hg]
      rfl
    · rw [List.foldl_cons, if_neg hg, List.foldl_nil]
      rcases ih with ⟨f, hf, he⟩ | ⟨hn, he⟩
      · exact .inl ⟨f, List.mem_append_left _ hf, he⟩
      · refine .inr ⟨fun f hf => ?_, he⟩
        rcases List.mem_append.mp hf with hf | hf
        · exact hn f hf
        · exact hg (congrArg Prod.snd (List.mem_singleton.mp hf)).symm

omit [Field N] in
theorem sourceLoop_of (feeders : List (Text × Option Text)) (es : List Text) : ∀ (k : Nat) (last : Option (Text × Text)) (subs : List (SubRec N)),
    (∀ s ∈ subs, s.element ≠ none) → (∀ e ∈ es, ∃ f, (f, some e) ∈ feeders) → es.Nodup →
    ∃ rows subs', sourceLoop feeders k last subs es = .ok (rows, subs') ∧ rows.length = es.length ∧
      (∀ (i : Nat) e, es[i]? = some e → ∃ f, rows[i]? = some (k + i + 1, e, f) ∧ (f, some e) ∈ feeders) ∧
      List.Forall₂ (fun s s' => (∀ (i : Nat) e, es[i]? = some e → s.element = some e → s' = { s with id := some (k + i + 1) }) ∧
        ((∀ e ∈ es, s.element ≠ some e) → s' = s)) subs subs' := by
  induction es with
  | nil =>
    intro k last subs _ _ _
    refine ⟨[], subs, rfl, rfl, fun i e h => ?_, ?_⟩
    · rw [List.getElem?_nil] at h
      cases h
    · refine List.forall₂_same.mpr fun s _ => ⟨fun i e h => ?_, fun _ => rfl⟩
      rw [List.getElem?_nil] at h
      cases h
  | cons e es ih =>
    intro k last subs hs hf hn
    have hn' := List.nodup_cons.mp hn
    rw [sourceLoop, numberSubs_of e (k + 1) subs hs]
    dsimp only
    obtain ⟨f, hfm, hff⟩ : ∃ f, (f, some e) ∈ feeders ∧ feederOf feeders last e = some (e, f) := by
      rcases feederOf_of feeders last e with h | ⟨h, -⟩
      · exact h
      · obtain ⟨f, hfm⟩ := hf e (.head _)
        exact (h f hfm).elim
    rw [hff]
    dsimp only
    have hs' : ∀ s ∈ subs.map (fun s => if s.element = some e then { s with id := some (k + 1) } else s), s.element ≠ none := by
      intro s hm
      obtain ⟨t, ht, rfl⟩ := List.mem_map.mp hm
      by_cases h : t.element = some e
      · rw [if_pos h]
        exact hs t ht
      · rw [if_neg h]
        exact hs t ht
    obtain ⟨rows, subs', h1, h2, h3, h4⟩ := ih (k + 1) (some (e, f)) _ hs' (fun x hx => hf x (.tail _ hx)) hn'.2
    rw [h1]
    refine ⟨(k + 1, e, f) :: rows, subs', rfl, by rw [List.length_cons, List.length_cons, h2], ?_, ?_⟩
    · intro i x hx
      cases i with
      | zero =>
        have : e = x := Option.some.inj hx
        rw [← this]
        exact ⟨f, rfl, hfm⟩
      | succ i =>
        obtain ⟨g, hg, hgm⟩ := h3 i x hx
        refine ⟨g, ?_, hgm⟩
        rw [List.getElem?_cons_succ, hg]
        congr 2
        omega
    · rw [List.forall₂_map_left_iff] at h4
      refine h4.imp ?_
      rintro s s' ⟨ha, hb⟩
      by_cases h : s.element = some e
      · rw [if_pos h] at ha hb
        have hne : ∀ x ∈ es, s.element ≠ some x := by
          intro x hx hh
          rw [h] at hh
          exact hn'.1 (Option.some.inj hh ▸ hx)
        have hs'' := hb hne
        refine ⟨fun i x hx hsx => ?_, fun hall => (hall e (.head _) h).elim⟩
        cases i with
        | zero => exact hs''
        | succ i => exact (hne x (List.mem_of_getElem? hx) hsx).elim
      · rw [if_neg h] at ha hb
        refine ⟨fun i x hx hsx => ?_, fun hall => hb (fun x hx => hall x (.tail _ hx))⟩
        cases i with
        | zero =>
          have : e = x := Option.some.inj hx
          rw [← this] at hsx
          exact (h hsx).elim
        | succ i =>
          rw [ha i x hx hsx]
          congr 2
          omega

theorem forall₂_mem_left {α β : Type} {R : α → β → Prop} {as : List α} {bs : List β} (h : List.Forall₂ R as bs) {a : α} (ha : a ∈ as) : ∃ b ∈ bs, R a b := by
  induction h with
  | nil => exact (List.not_mem_nil ha).elim
  | cons hab _ ih =>
    rcases List.mem_cons.mp ha with rfl | ha
    · exact ⟨_, .head _, hab⟩
    · obtain ⟨b, hb, hr⟩ := ih ha
      exact ⟨b, .tail _ hb, hr⟩

theorem substation_cells (voltageOf : Text → Option N) (s : PowerRec N) (e : Text) :
    SubstationOf voltageOf s e ([numberCell (subFor voltageOf s e).mva, numberCell (subFor voltageOf s e).kvll, numberCell (subFor voltageOf s e).kvll] ++
      defaultCells s.positive ++ defaultCells s.zero ++ defaultCells s.zero ++ [numberCell s.angle]) := by
  have hi : ∀ z : Option (N × N), ∃ c₁ c₂, defaultCells z = [c₁, c₂] ∧ ImpedanceOrDefault z c₁ c₂ := by
    intro z
    rcases z with _ | ⟨a, b⟩
    · exact ⟨_, _, rfl, .inl ⟨rfl, rfl, rfl⟩⟩
    · exact ⟨_, _, rfl, .inr ⟨a, b, rfl, rfl, rfl⟩⟩
  obtain ⟨p1, p2, h2, h2'⟩ := hi s.positive
  obtain ⟨z1, z2, h3, h3'⟩ := hi s.zero
  have hv : writtenVoltage voltageOf s e = if s.voltage = none then voltageOf e else s.voltage := by
    unfold writtenVoltage
    cases h : s.voltage with
    | none => rw [if_pos rfl]
    | some x => rw [if_neg (fun hh => nomatch hh)]
  rw [h2, h3]
  refine ⟨_, _, p1, p2, z1, z2, _, rfl, ?_, ?_, h2', h3', ?_⟩
  · unfold subFor
    cases s.power with
    | none => exact .inl ⟨rfl, rfl⟩
    | some x => exact .inr ⟨x, rfl, rfl⟩
  · unfold subFor
    rw [hv]
    exact kiloCell_of _
  · cases s.angle with
    | none => exact .inl ⟨rfl, rfl⟩
    | some x => exact .inr ⟨x, rfl, rfl⟩

/-- **C123**, sources: if each source is at the head node of a feeder, each of these nodes has exactly one row with its own number and such a feeder, and for each
source the row of the equipment file with this number and its data is there. -/
theorem C123_sources_partial (voltageOf : Text → Option N) (feeders : List (Text × Option Text)) (ss : List (PowerRec N)) (hl : ∀ s ∈ ss, ¬Loose s)
    (hf : ∀ s ∈ ss, ∀ e, SourceAt s e → ∃ f, (f, some e) ∈ feeders) :
    ∃ rows subs, sourceTable feeders (sourceRun voltageOf ss) = .ok (rows, subs) ∧ (rows.map (·.1)).Nodup ∧ (rows.map (·.2.1)).Nodup ∧
      (∀ r ∈ rows, (r.2.2, some r.2.1) ∈ feeders ∧ ∃ s ∈ ss, SourceAt s r.2.1) ∧
      (∀ s ∈ ss, ∀ e, SourceAt s e → ∃ k f cells, (k, e, f) ∈ rows ∧ (k, cells) ∈ substationRows subs ∧ SubstationOf voltageOf s e cells) := by
  obtain ⟨hn, hsub, hin⟩ := subs_of voltageOf ss hl
  obtain ⟨-, -, -, -, -, -, hk⟩ := C123_rows voltageOf ss
  obtain ⟨rows, subs, h1, h2, h3, h4⟩ := sourceLoop_of feeders (sourceRun voltageOf ss).keys 0 none (sourceRun voltageOf ss).subs
    (fun sub h => by
      obtain ⟨s, _, e, _, rfl⟩ := hsub sub h
      exact fun hh => nomatch hh)
    (fun e he => by
      obtain ⟨s, hs, hse⟩ := (hk e).mp he
      exact hf s hs e hse) hn
  have hrow : ∀ (i : Nat) r, rows[i]? = some r → ∃ e, (sourceRun voltageOf ss).keys[i]? = some e ∧ ∃ f, r = (i + 1, e, f) ∧ (f, some e) ∈ feeders := by
    intro i r hr
    have hlt : i < (sourceRun voltageOf ss).keys.length := by
      rw [← h2]
      exact (List.getElem?_eq_some_iff.mp hr).1
    refine ⟨_, List.getElem?_eq_getElem hlt, ?_⟩
    obtain ⟨f, hfr, hfm⟩ := h3 i _ (List.getElem?_eq_getElem hlt)
    refine ⟨f, ?_, hfm⟩
    rw [hr] at hfr
    rw [Option.some.inj hfr]
    congr 1
    omega
  have hkeys : rows.map (·.2.1) = (sourceRun voltageOf ss).keys := by
    refine List.ext_getElem? fun i => ?_
    rw [List.getElem?_map]
    cases hr : rows[i]? with
    | none =>
      have : (sourceRun voltageOf ss).keys.length ≤ i := by
        rw [← h2]
        exact List.getElem?_eq_none_iff.mp hr
      rw [List.getElem?_eq_none this]
      rfl
    | some r =>
      obtain ⟨e, he, f, rfl, -⟩ := hrow i r hr
      rw [he]
      rfl
  have hnums : rows.map (·.1) = (List.range rows.length).map (· + 1) := by
    refine List.ext_getElem? fun i => ?_
    rw [List.getElem?_map, List.getElem?_map]
    cases hr : rows[i]? with
    | none =>
      rw [List.getElem?_eq_none (by rw [List.length_range]; exact List.getElem?_eq_none_iff.mp hr)]
      rfl
    | some r =>
      obtain ⟨e, he, f, rfl, -⟩ := hrow i r hr
      rw [List.getElem?_range (List.getElem?_eq_some_iff.mp hr).1]
      rfl
  refine ⟨rows, subs, h1, ?_, ?_, ?_, ?_⟩
  · rw [hnums]
    exact List.nodup_range.map (fun a b h => Nat.succ.inj h)
  · rw [hkeys]
    exact hn
  · intro r hr
    obtain ⟨i, hi⟩ := List.mem_iff_getElem?.mp hr
    obtain ⟨e, he, f, rfl, hfm⟩ := hrow i r hi
    exact ⟨hfm, (hk e).mp (List.mem_of_getElem? he)⟩
  · intro s hs e hse
    obtain ⟨i, hi⟩ := List.mem_iff_getElem?.mp ((hk e).mpr ⟨s, hs, hse⟩)
    obtain ⟨f, hr, -⟩ := h3 i e hi
    obtain ⟨sub, hsm, hss⟩ := forall₂_mem_left h4 (hin s hs e hse)
    have hsub' := hss.1 i e hi rfl
    refine ⟨0 + i + 1, f, _, List.mem_of_getElem? hr, ?_, substation_cells voltageOf s e⟩
    unfold substationRows
    refine List.mem_filterMap.mpr ⟨sub, hsm, ?_⟩
    rw [hsub']
    rfl

/-- **C123**, sources that are not at a head node: the row of the second one repeats the node and the feeder of the first one, and its own node is missing. -/
theorem C123_stale_violated (voltageOf : Text → Option N) {s t : PowerRec N} {e x f : Text} (hs : SourceAt s e) (ht : SourceAt t x) (hx : x ≠ e) :
    ∃ subs, sourceTable [(f, some e)] (sourceRun voltageOf [s, t]) = .ok ([(1, e, f), (2, e, f)], subs) := by
  unfold sourceTable sourceRun
  rw [List.foldl_cons, List.foldl_cons, List.foldl_nil, sourceStep_at voltageOf _ hs, sourceStep_at voltageOf _ ht]
  dsimp only
  rw [if_neg List.not_mem_nil, if_neg (by rw [List.nil_append, List.mem_singleton]; exact hx)]
  refine ⟨[{ subFor voltageOf s e with id := some 1 }, { subFor voltageOf t x with id := some 2 }], ?_⟩
  rw [List.nil_append, List.nil_append, show [e] ++ [x] = [e, x] from rfl, sourceLoop]
  rw [numberSubs_of _ _ _ (by
    intro u hu
    rcases List.mem_cons.mp hu with rfl | hu
    · exact fun hh => nomatch hh
    · rw [List.mem_singleton.mp hu]
      exact fun hh => nomatch hh)]
  dsimp only
  rw [show feederOf [(f, some e)] none e = some (e, f) from if_pos rfl]
  dsimp only
  rw [List.map_append, List.map_singleton, List.map_singleton, if_pos rfl, if_neg (fun hh => hx (Option.some.inj hh)), sourceLoop]
  rw [numberSubs_of _ _ _ (by
    intro u hu
    rcases List.mem_cons.mp hu with rfl | hu
    · exact fun hh => nomatch hh
    · rw [List.mem_singleton.mp hu]
      exact fun hh => nomatch hh)]
  dsimp only
  rw [show feederOf [(f, some e)] (some (e, f)) x = some (e, f) from if_neg (fun hh => hx (Option.some.inj hh).symm)]
  dsimp only
  rw [List.map_append, List.map_singleton, List.map_singleton, if_pos rfl, if_neg (fun hh => hx (Option.some.inj hh).symm), sourceLoop]
  rfl

/-- **C123**, the first source is not at a head node: the writer stops with an `UnboundLocalError`. -/
theorem C123_first_violated (voltageOf : Text → Option N) {s : PowerRec N} {e : Text} (hs : SourceAt s e) (feeders : List (Text × Option Text))
    (hf : ∀ f, (f, some e) ∉ feeders) : sourceTable feeders (sourceRun voltageOf [s]) = .error .unboundLocalError := by
  unfold sourceTable sourceRun
  rw [List.foldl_cons, List.foldl_nil, sourceStep_at voltageOf _ hs]
  dsimp only
  rw [if_neg List.not_mem_nil, List.nil_append, List.nil_append, sourceLoop]
  rw [numberSubs_of _ _ _ (by
    intro u hu
    rw [List.mem_singleton.mp hu]
    exact fun hh => nomatch hh)]
  dsimp only
  rcases feederOf_of feeders none e with ⟨f, h, -⟩ | ⟨-, h⟩
  · exact (hf f h).elim
  · rw [h]

/-- **C123**, a source that is connected to nothing, beside another one: the writer stops with a `KeyError`. -/
theorem C123_loose_violated (voltageOf : Text → Option N) {s t : PowerRec N} {e : Text} (hs : Loose s) (ht : SourceAt t e) (feeders : List (Text × Option Text)) :
    sourceTable feeders (sourceRun voltageOf [s, t]) = .error .keyError := by
  unfold sourceTable sourceRun
  rw [List.foldl_cons, List.foldl_cons, List.foldl_nil, sourceStep_loose voltageOf _ hs, sourceStep_at voltageOf _ ht]
  rfl

/-- alone it is left out -/
theorem C123_loose_alone (voltageOf : Text → Option N) {s : PowerRec N} (hs : Loose s) (feeders : List (Text × Option Text)) :
    ∃ subs, sourceTable feeders (sourceRun voltageOf [s]) = .ok ([], subs) ∧ substationRows subs = [] := by
  unfold sourceTable sourceRun
  rw [List.foldl_cons, List.foldl_nil, sourceStep_loose voltageOf _ hs]
  exact ⟨_, rfl, rfl⟩

/-- **C123**, two sources at one node: the equipment file has two rows with the same number. -/
theorem C123_same_violated (voltageOf : Text → Option N) {s t : PowerRec N} {e f : Text} (hs : SourceAt s e) (ht : SourceAt t e) :
    ∃ subs, sourceTable [(f, some e)] (sourceRun voltageOf [s, t]) = .ok ([(1, e, f)], subs) ∧ (substationRows subs).map (·.1) = [1, 1] := by
  unfold sourceTable sourceRun
  rw [List.foldl_cons, List.foldl_cons, List.foldl_nil, sourceStep_at voltageOf _ hs, sourceStep_at voltageOf _ ht]
  dsimp only
  rw [if_neg List.not_mem_nil, List.nil_append, List.nil_append, if_pos (List.mem_singleton.mpr rfl)]
  refine ⟨[{ subFor voltageOf s e with id := some 1 }, { subFor voltageOf t e with id := some 1 }], ?_, rfl⟩
  rw [sourceLoop]
  rw [numberSubs_of _ _ _ (by
    intro u hu
    rcases List.mem_cons.mp hu with rfl | hu
    · exact fun hh => nomatch hh
    · rw [List.mem_singleton.mp hu]
      exact fun hh => nomatch hh)]
  dsimp only
  rw [show feederOf [(f, some e)] none e = some (e, f) from if_pos rfl]
  dsimp only
  rw [List.map_append, List.map_singleton, List.map_singleton, if_pos rfl, if_pos rfl, sourceLoop]
  rfl

/-- **C123**, a source with the voltage of its node: the voltage is written, but no operating voltages. -/
theorem C123_voltage_violated (voltageOf : Text → Option N) {s : PowerRec N} {e : Text} {v : N} (hs : SourceAt s e) (hv : s.voltage = none)
    (he : voltageOf e = some v) :
    ∃ row, (sourceRun voltageOf [s]).rows = [row] ∧ row.cells[0]? = some (.num (v / 1000)) ∧ row.cells[10]? = some .blank ∧
      row.cells[11]? = some .blank ∧ row.cells[12]? = some .blank := by
  unfold sourceRun
  rw [List.foldl_cons, List.foldl_nil, sourceStep_at voltageOf _ hs]
  refine ⟨_, rfl, ?_⟩
  obtain ⟨-, v', a1, a2, a3, r1, x1, r0, x0, r2, x2, o, hc, h1, -, -, -, -, h2⟩ := equivRow_of voltageOf s e
  rw [hc]
  rw [if_pos hv, he] at h1
  rw [hv] at h2
  rcases h1 with ⟨h, -⟩ | ⟨x, hx, rfl⟩
  · cases h
  · rw [← Option.some.inj hx]
    rcases h2 with ⟨-, rfl⟩ | ⟨y, hy, -⟩
    · exact ⟨rfl, rfl, rfl, rfl⟩
    · cases hy

/-! ### head nodes and feeders -/

omit [Field N] in
/-- **C123**, head nodes: if all networks are feeders, there is one row for each of them with a name, with its head node. -/
theorem C123_heads (find : Text → Option (NamedObj N)) (names : List Text) (h : ∀ n ∈ names, n ≠ [] → ∃ f, find n = some (.feeder f)) :
    ∃ rows, headRows find names = .ok rows ∧ rows.map (·.2) = names.filter (· ≠ []) ∧
      ∀ r ∈ rows, ∃ f, find r.2 = some (.feeder f) ∧ r.1 = f.headnode := by
  induction names with
  | nil => exact ⟨[], rfl, rfl, fun r hr => (List.not_mem_nil hr).elim⟩
  | cons n ns ih =>
    obtain ⟨rows, h1, h2, h3⟩ := ih (fun x hx => h x (.tail _ hx))
    rw [headRows]
    by_cases hn : n = []
    · rw [if_pos hn]
      refine ⟨rows, h1, ?_, h3⟩
      rw [List.filter_cons_of_neg (by rw [hn]; decide), h2]
    · rw [if_neg hn]
      obtain ⟨f, hf⟩ := h n (.head _) hn
      unfold headOf
      rw [hf]
      dsimp only
      rw [h1]
      refine ⟨(f.headnode, n) :: rows, rfl, ?_, ?_⟩
      · rw [List.filter_cons_of_pos (p := fun x => decide (x ≠ [])) (decide_eq_true hn), List.map_cons, h2]
      · intro r hr
        rcases List.mem_cons.mp hr with rfl | hr
        · exact ⟨f, hf, rfl⟩
        · exact h3 r hr

omit [Field N] in
/-- **C123**, networks that are not in the model, or that are the names of other objects, stop the writer. -/
theorem C123_head_errors (find : Text → Option (NamedObj N)) (n : Text) (names : List Text) (hn : n ≠ []) :
    (find n = none → headRows find (n :: names) = .error .keyError) ∧
    (∀ v, find n = some (.other v) → headRows find (n :: names) = .error .attributeError) := by
  rw [headRows, if_neg hn]
  unfold headOf
  constructor
  · intro h
    rw [h]
  · intro v h
    rw [h]

theorem feeders_ids (find : Text → Option (NamedObj N)) (st : SourceState N) (names : List Text)
    (h : ∀ n ∈ names, plainNetwork n = true → ∃ f v e, find n = some (.feeder f) ∧ f.voltage = some v ∧ f.headnode = some e) :
    ∃ rows, equivTable find st names = .ok (st.rows ++ rows) ∧
      (∀ r ∈ rows, ∃ n ∈ names, plainNetwork n = true ∧ ∃ f v e, find n = some (.feeder f) ∧ f.voltage = some v ∧ f.headnode = some e ∧ e ∉ idsOf st.rows ∧
        r.node = some e ∧ r.cells = .num (v / 1000) :: (f.data.map textCell ++ [.num (v / 1000), .num (v / 1000), .num (v / 1000)])) ∧
      (∀ n ∈ names, plainNetwork n = true → ∀ f e, find n = some (.feeder f) → f.headnode = some e → e ∈ idsOf st.rows ∨ ∃ r ∈ rows, r.node = some e) := by
  have key : ∃ rows, feederRows find (idsOf st.rows) names = .ok rows ∧
      (∀ r ∈ rows, ∃ n ∈ names, plainNetwork n = true ∧ ∃ f v e, find n = some (.feeder f) ∧ f.voltage = some v ∧ f.headnode = some e ∧ e ∉ idsOf st.rows ∧
        r.node = some e ∧ r.cells = .num (v / 1000) :: (f.data.map textCell ++ [.num (v / 1000), .num (v / 1000), .num (v / 1000)])) ∧
      (∀ n ∈ names, plainNetwork n = true → ∀ f e, find n = some (.feeder f) → f.headnode = some e → e ∈ idsOf st.rows ∨ ∃ r ∈ rows, r.node = some e) := by
    induction names with
    | nil => exact ⟨[], rfl, fun r hr => (List.not_mem_nil hr).elim, fun n hn => (List.not_mem_nil hn).elim⟩
    | cons n ns ih =>
      obtain ⟨rows, h1, h2, h3⟩ := ih (fun x hx => h x (.tail _ hx))
      have h2' : ∀ r ∈ rows, ∃ m ∈ n :: ns, plainNetwork m = true ∧ ∃ f v e, find m = some (.feeder f) ∧ f.voltage = some v ∧ f.headnode = some e ∧
          e ∉ idsOf st.rows ∧ r.node = some e ∧
          r.cells = .num (v / 1000) :: (f.data.map textCell ++ [.num (v / 1000), .num (v / 1000), .num (v / 1000)]) := by
        intro r hr
        obtain ⟨m, hm, hx⟩ := h2 r hr
        exact ⟨m, .tail _ hm, hx⟩
      rw [feederRows]
      by_cases hp : plainNetwork n = true
      · rw [if_pos hp]
        obtain ⟨f, v, e, hf, hv, he⟩ := h n (.head _) hp
        rw [hf]
        dsimp only
        rw [show feederVoltage find f = .ok (v / 1000) by unfold feederVoltage; rw [hv]]
        dsimp only
        rw [h1, he]
        dsimp only
        by_cases hm : e ∈ idsOf st.rows
        · rw [if_pos hm]
          refine ⟨rows, rfl, h2', ?_⟩
          intro m hmm hpm g x hg hx
          rcases List.mem_cons.mp hmm with rfl | hmm
          · rw [hf] at hg
            cases hg
            rw [he] at hx
            exact .inl (Option.some.inj hx ▸ hm)
          · exact h3 m hmm hpm g x hg hx
        · rw [if_neg hm]
          refine ⟨_, rfl, ?_, ?_⟩
          · intro r hr
            rcases List.mem_cons.mp hr with rfl | hr
            · exact ⟨n, .head _, hp, f, v, e, hf, hv, he, hm, he, rfl⟩
            · exact h2' r hr
          · intro m hmm hpm g x hg hx
            rcases List.mem_cons.mp hmm with rfl | hmm
            · rw [hf] at hg
              cases hg
              exact .inr ⟨_, .head _, hx⟩
            · rcases h3 m hmm hpm g x hg hx with h | ⟨r, hr, hrx⟩
              · exact .inl h
              · exact .inr ⟨r, .tail _ hr, hrx⟩
      · rw [if_neg hp]
        refine ⟨rows, h1, h2', ?_⟩
        intro m hmm hpm g x hg hx
        rcases List.mem_cons.mp hmm with rfl | hmm
        · exact (hp hpm).elim
        · exact h3 m hmm hpm g x hg hx
  obtain ⟨rows, h1, h2⟩ := key
  refine ⟨rows, ?_, h2⟩
  unfold equivTable
  rw [h1]

theorem upToComma_self {e : Text} (h : ',' ∉ e) : upToComma e = e := by
  unfold upToComma
  induction e with
  | nil => rfl
  | cons c cs ih =>
    rw [List.takeWhile_cons_of_pos (by simpa using fun hh : c = ',' => h (hh ▸ List.mem_cons_self)), ih (fun hh => h (.tail _ hh))]

theorem mem_idsOf {rows : List (EquivRow N)} (hc : ∀ r ∈ rows, ∀ e, r.node = some e → ',' ∉ e) {e : Text} :
    e ∈ idsOf rows ↔ ∃ r ∈ rows, r.node = some e := by
  unfold idsOf
  rw [List.mem_filterMap]
  constructor
  · rintro ⟨r, hr, h⟩
    obtain ⟨x, hx, rfl⟩ := Option.map_eq_some_iff.mp h
    exact ⟨r, hr, by rw [hx, upToComma_self (hc r hr x hx)]⟩
  · rintro ⟨r, hr, h⟩
    exact ⟨r, hr, by rw [h, Option.map_some, upToComma_self (hc r hr e h)]⟩

/-- **C123**, equivalents of feeders: with a voltage and a head node for each of them, and no commas in the nodes of sources, the rows of the sources are followed by
rows for feeders whose head node has no source; in the end each head node has a row. -/
theorem C123_feeders_partial (find : Text → Option (NamedObj N)) (st : SourceState N) (names : List Text)
    (hc : ∀ r ∈ st.rows, ∀ e, r.node = some e → ',' ∉ e)
    (h : ∀ n ∈ names, plainNetwork n = true → ∃ f v e, find n = some (.feeder f) ∧ f.voltage = some v ∧ f.headnode = some e) :
    ∃ rows, equivTable find st names = .ok (st.rows ++ rows) ∧
      (∀ r ∈ rows, ∃ n ∈ names, plainNetwork n = true ∧ ∃ f v e, find n = some (.feeder f) ∧ f.voltage = some v ∧ f.headnode = some e ∧
        (∀ s ∈ st.rows, s.node ≠ some e) ∧
        r.node = some e ∧ r.cells = .num (v / 1000) :: (f.data.map textCell ++ [.num (v / 1000), .num (v / 1000), .num (v / 1000)])) ∧
      (∀ n ∈ names, plainNetwork n = true → ∀ f e, find n = some (.feeder f) → f.headnode = some e → ∃ r ∈ st.rows ++ rows, r.node = some e) := by
  obtain ⟨rows, h1, h2, h3⟩ := feeders_ids find st names h
  refine ⟨rows, h1, fun r hr => ?_, fun n hn hp f e hf he => ?_⟩
  · obtain ⟨n, hn, hp, f, v, e, hf, hv, he, hm, hx⟩ := h2 r hr
    exact ⟨n, hn, hp, f, v, e, hf, hv, he, fun s hs hse => hm ((mem_idsOf hc).mpr ⟨s, hs, hse⟩), hx⟩
  · rcases h3 n hn hp f e hf he with hm | ⟨r, hr, hre⟩
    · obtain ⟨r, hr, hre⟩ := (mem_idsOf hc).mp hm
      exact ⟨r, List.mem_append_left _ hr, hre⟩
    · exact ⟨r, List.mem_append_right _ hr, hre⟩

/-- **C123**, two feeders with the same head node, which has no source: there are two rows for this node. -/
theorem C123_twice_violated (find : Text → Option (NamedObj N)) {f g : Text} {a b : FeederData N} {v w : N} {e : Text} (hp : plainNetwork f = true)
    (hq : plainNetwork g = true) (hf : find f = some (.feeder a)) (hg : find g = some (.feeder b)) (hv : a.voltage = some v) (hw : b.voltage = some w)
    (ha : a.headnode = some e) (hb : b.headnode = some e) :
    ∃ rows, equivTable find {} [f, g] = .ok rows ∧ rows.map (·.node) = [some e, some e] := by
  unfold equivTable
  rw [show idsOf ({} : SourceState N).rows = [] from rfl, feederRows, if_pos hp, hf]
  dsimp only
  rw [show feederVoltage find a = .ok (v / 1000) by unfold feederVoltage; rw [hv], feederRows, if_pos hq, hg]
  dsimp only
  rw [show feederVoltage find b = .ok (w / 1000) by unfold feederVoltage; rw [hw], feederRows, ha, hb]
  refine ⟨_, rfl, ?_⟩
  show [a.headnode, b.headnode] = _
  rw [ha, hb]

/-- **C123**, a feeder without impedances: the text None is written for each of them. -/
theorem C123_none_violated (find : Text → Option (NamedObj N)) {f : Text} {a : FeederData N} {v : N} {e : Text} (hp : plainNetwork f = true)
    (hf : find f = some (.feeder a)) (hv : a.voltage = some v) (ha : a.headnode = some e) (n : Nat) (hd : a.data = List.replicate n none) :
    ∃ row, equivTable find {} [f] = .ok [row] ∧ row.cells = .num (v / 1000) :: (List.replicate n .noneText ++ [.num (v / 1000), .num (v / 1000), .num (v / 1000)]) := by
  obtain ⟨rows, h1, h2, h3⟩ := feeders_ids find {} [f] (fun m hm _ => ⟨a, v, e, by rw [List.mem_singleton.mp hm]; exact hf, hv, ha⟩)
  refine ⟨feederRow a (v / 1000), ?_, ?_⟩
  · unfold equivTable
    rw [feederRows, if_pos hp, hf]
    dsimp only
    rw [show feederVoltage find a = .ok (v / 1000) by unfold feederVoltage; rw [hv], feederRows, ha]
    rfl
  · unfold feederRow
    rw [hd, List.map_replicate]
    rfl

/-- **C123**, feeders without a voltage have that of their head node; without it the writer stops. -/
theorem C123_head_voltage (find : Text → Option (NamedObj N)) {a : FeederData N} (hv : a.voltage = none) :
    (∀ e v, a.headnode = some e → find e = some (.other (some (some v))) → feederVoltage find a = .ok (v / 1000)) ∧
    (a.headnode = none → feederVoltage find a = .error .keyError) ∧
    (∀ e, a.headnode = some e → find e = none → feederVoltage find a = .error .keyError) ∧
    (∀ e, a.headnode = some e → find e = some (.other (some none)) → feederVoltage find a = .error .typeError) ∧
    (∀ e, a.headnode = some e → find e = some (.other none) → feederVoltage find a = .error .attributeError) := by
  unfold feederVoltage headVoltage
  rw [hv]
  dsimp only
  refine ⟨?_, ?_, ?_, ?_, ?_⟩
  · intro e v he hf
    rw [he]
    dsimp only
    rw [hf]
  · intro he
    rw [he]
  · intro e he hf
    rw [he]
    dsimp only
    rw [hf]
  · intro e he hf
    rw [he]
    dsimp only
    rw [hf]
  · intro e he hf
    rw [he]
    dsimp only
    rw [hf]

end

/-! ### examples -/

/-- two sources, one of them at a node with a voltage, and a dropped one -/
def sourcesEx : List (PowerRec ℚ) :=
  [⟨false, true, some "a".toList, some 12470, some 30, some (1, 2), none, some 5000000⟩, ⟨true, true, some "c".toList, none, none, none, none, none⟩,
    ⟨false, true, some "b".toList, none, none, none, some (3, 4), none⟩, ⟨false, false, none, none, none, none, none, none⟩]

example : ∀ s ∈ sourcesEx, ¬Loose s := by
  intro s hs
  unfold sourcesEx at hs
  unfold Loose
  simp only [List.mem_cons, List.not_mem_nil, or_false] at hs
  rcases hs with rfl | rfl | rfl | rfl <;> decide

example : (sourceRun (fun _ => some 4000) sourcesEx).rows =
    [⟨some "a".toList, [.num (12470 / 1000), .num 30, .num (-90), .num 150, .num 1, .num 2, .blank, .blank, .blank, .blank, .num (12470 / 1000),
        .num (12470 / 1000), .num (12470 / 1000)]⟩,
      ⟨some "b".toList, [.num 4, .blank, .blank, .blank, .blank, .blank, .num 3, .num 4, .num 3, .num 4, .blank, .blank, .blank]⟩] := by decide +kernel

/-- the feeders -/
def headsEx : List (Text × Option Text) := [("f".toList, some "a".toList), ("g".toList, some "b".toList), ("h".toList, none)]

example : (sourceTable headsEx (sourceRun (fun _ => some 4000) sourcesEx)).toOption.map (·.1) =
    some [(1, "a".toList, "f".toList), (2, "b".toList, "g".toList)] := by decide +kernel

example : (sourceTable headsEx (sourceRun (fun _ => some 4000) sourcesEx)).toOption.map (fun r => (substationRows r.2).map (·.2)) =
    some [[.num 5, .num (12470 / 1000), .num (12470 / 1000), .num 1, .num 2, .default, .default, .default, .default, .num 30],
      [.blank, .num 4, .num 4, .default, .default, .num 3, .num 4, .num 3, .num 4, .blank]] := by decide +kernel

example : (sourceTable headsEx (sourceRun (fun _ => some 4000) sourcesEx)).toOption.map (fun r => (substationRows r.2).map (·.1)) = some [1, 2] := by
  decide +kernel

example : (equivTable (fun n => if n = "f".toList then some (.feeder ⟨some "a".toList, none, [some (1 : ℚ), none]⟩) else
      if n = "a".toList then some (.other (some (some 4000))) else none) {} ["subtransmission".toList, "f".toList, "substation_1".toList]).toOption =
    some [⟨some "a".toList, [.num 4, .num 1, .noneText, .num 4, .num 4, .num 4]⟩] := by decide +kernel

/-- the node n_1 has a source, so that there is no row for the feeder f; g has another head node -/
example : (∀ r ∈ [(⟨some "n_1".toList, [.blank]⟩ : EquivRow ℚ)], ∀ e, r.node = some e → ',' ∉ e) ∧
    (equivTable (fun n => if n = "f".toList then some (.feeder ⟨some "n_1".toList, some (4000 : ℚ), [none]⟩) else
      if n = "g".toList then some (.feeder ⟨some "n_2".toList, some 8000, []⟩) else none) { rows := [⟨some "n_1".toList, [.blank]⟩] }
      ["f".toList, "g".toList]).toOption =
    some [⟨some "n_1".toList, [.blank]⟩, ⟨some "n_2".toList, [.num 8, .num 8, .num 8, .num 8]⟩] := by
  refine ⟨?_, by decide +kernel⟩
  intro r hr e he
  simp only [List.mem_singleton] at hr
  subst hr
  cases he
  decide +kernel

example : plainNetwork "f".toList = true ∧ plainNetwork "substation_1".toList = false ∧ plainNetwork "subtransmission".toList = false := by decide +kernel

end Ditto.Cyme
