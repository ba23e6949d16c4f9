import Verif.Spec.CymeSubnets
import Verif.Props.CymeNodeWrite
import Verif.Props.CymeSectionWrite
import Mathlib.Tactic.FieldSimp
import Mathlib.Tactic.NormNum

/-! C126: substations written to CYME files -/
namespace Ditto.Cyme
open Ditto Glm Spec

theorem ofSubnet_iff (s : Text) (n : SubNode) : ofSubnet s n = true ↔ Connects s n := by
  unfold ofSubnet Connects
  rw [Bool.and_eq_true, decide_eq_true_iff]

/-! ### networks -/

theorem subnetName_ok {s : Text} (ha : ¬"ation_".toList <:+: s) : subnetName ("substation_".toList ++ s) = .ok s := by
  unfold subnetName
  rw [show cutAt "ation_".toList ("substation_".toList ++ s) = some ("subst".toList, s) from rfl]
  dsimp only
  rw [cutAt_none s ha]

theorem subnetNames_ok {nets : List Text} {ss : List Text} (hn : (nets.filter fun n => inText "substation".toList n) = ss.map ("substation_".toList ++ ·))
    (ha : ∀ s ∈ ss, ¬"ation_".toList <:+: s) : subnetNames nets = .ok ss := by
  induction nets generalizing ss with
  | nil =>
    cases ss with
    | nil => rfl
    | cons s ss => cases hn
  | cons net nets ih =>
    rw [subnetNames]
    by_cases h : inText "substation".toList net = true
    · rw [List.filter_cons_of_pos h] at hn
      cases ss with
      | nil => cases hn
      | cons s ss =>
        rw [List.map_cons, List.cons.injEq] at hn
        obtain ⟨rfl, hn⟩ := hn
        rw [if_pos h, subnetName_ok (ha s (.head _)), ih hn fun x hx => ha x (.tail _ hx)]
    · rw [List.filter_cons_of_neg h] at hn
      rw [if_neg h]
      exact ih hn ha

/-! ### positions -/

/-- the positions of a voltage -/
def groupAt (v : ℚ) (gs : List (ℚ × List (ℚ × ℚ))) : List (ℚ × ℚ) :=
  match gs.find? fun g => g.1 = v with
  | none => []
  | some g => g.2

theorem groupAt_add (v w : ℚ) (p : ℚ × ℚ) (gs : List (ℚ × List (ℚ × ℚ))) :
    groupAt w (addPoint v p gs) = groupAt w gs ++ if v = w then [p] else [] := by
  induction gs with
  | nil =>
    unfold addPoint groupAt
    by_cases h : v = w
    · rw [List.find?_cons_of_pos (by simpa using h), if_pos h]
      rfl
    · rw [List.find?_cons_of_neg (by simpa using h), if_neg h]
      rfl
  | cons g gs ih =>
    rw [addPoint]
    by_cases hg : g.1 = v
    · rw [if_pos hg]
      unfold groupAt
      by_cases h : v = w
      · rw [List.find?_cons_of_pos (by simpa using hg.trans h), List.find?_cons_of_pos (by simpa using hg.trans h), if_pos h]
      · rw [List.find?_cons_of_neg (by simpa using fun hh : g.1 = w => h (hg.symm.trans hh)),
          List.find?_cons_of_neg (by simpa using fun hh : g.1 = w => h (hg.symm.trans hh)), if_neg h, List.append_nil]
    · rw [if_neg hg]
      unfold groupAt at ih ⊢
      by_cases h : g.1 = w
      · rw [List.find?_cons_of_pos (by simpa using h), List.find?_cons_of_pos (by simpa using h), if_neg fun hh => hg (h.trans hh.symm), List.append_nil]
      · rw [List.find?_cons_of_neg (by simpa using h), List.find?_cons_of_neg (by simpa using h)]
        exact ih

theorem keys_add (v w : ℚ) (p : ℚ × ℚ) (gs : List (ℚ × List (ℚ × ℚ))) :
    w ∈ (addPoint v p gs).map (·.1) ↔ w ∈ gs.map (·.1) ∨ w = v := by
  induction gs with
  | nil => simp [addPoint]
  | cons g gs ih =>
    rw [addPoint]
    by_cases hg : g.1 = v
    · rw [if_pos hg]
      simp only [List.map_cons, List.mem_cons]
      constructor
      · exact Or.inl
      · rintro (h | h)
        · exact h
        · exact Or.inl (h.trans hg.symm)
    · rw [if_neg hg, List.map_cons, List.mem_cons, ih, List.map_cons, List.mem_cons, or_assoc]

theorem places_snoc (P : SubNode → Prop) [DecidablePred P] (ns : List SubNode) (n : SubNode) :
    places P (ns ++ [n]) = places P ns ++ if P n then n.points.head?.toList else [] := by
  unfold places
  rw [List.filter_append, List.filterMap_append]
  by_cases h : P n
  · rw [List.filter_cons_of_pos (p := fun n => decide (P n)) (decide_eq_true h), if_pos h, List.filter_nil]
    cases hh : n.points.head? with
    | none => rw [List.filterMap_cons_none (f := fun n : SubNode => n.points.head?) hh]; rfl
    | some p => rw [List.filterMap_cons_some (f := fun n : SubNode => n.points.head?) hh]; rfl
  · rw [List.filter_cons_of_neg (by simpa using h), if_neg h]
    rfl

theorem gather_snoc (s : Text) (ns : List SubNode) (n : SubNode) : gatherPoints s (ns ++ [n]) = pointStep s (gatherPoints s ns) n := by
  unfold gatherPoints
  rw [List.foldl_append]
  rfl

theorem gather_spec (s : Text) (ns : List SubNode) :
    (gatherPoints s ns).all = places (fun _ => True) ns ∧
    (gatherPoints s ns).defaults = places (fun n => Connects s n ∧ n.voltage = none) ns ∧
    (∀ v, groupAt v (gatherPoints s ns).groups = places (fun n => Connects s n ∧ n.voltage = some v) ns) ∧
    ∀ v, v ∈ (gatherPoints s ns).groups.map (·.1) ↔ ∃ n ∈ ns, Connects s n ∧ n.points ≠ [] ∧ n.voltage = some v := by
  induction ns using List.reverseRecOn with
  | nil =>
    refine ⟨rfl, rfl, fun _ => rfl, fun v => ⟨fun h => (List.not_mem_nil h).elim, ?_⟩⟩
    rintro ⟨n, hn, -⟩
    exact (List.not_mem_nil hn).elim
  | append_singleton ns n ih =>
    obtain ⟨h1, h2, h3, h4⟩ := ih
    rw [gather_snoc]
    simp only [places_snoc]
    have hex : ∀ v, (∃ m ∈ ns ++ [n], Connects s m ∧ m.points ≠ [] ∧ m.voltage = some v) ↔
        (∃ m ∈ ns, Connects s m ∧ m.points ≠ [] ∧ m.voltage = some v) ∨ (Connects s n ∧ n.points ≠ [] ∧ n.voltage = some v) := by
      intro v
      simp only [List.mem_append, List.mem_singleton, or_and_right, exists_or, exists_eq_left]
    simp only [hex]
    unfold pointStep
    cases hp : n.points with
    | nil =>
      simp only [List.head?_nil, Option.toList_none, ite_self, List.append_nil, ne_eq, not_true_eq_false, false_and, and_false, or_false]
      exact ⟨h1, h2, h3, h4⟩
    | cons p ps =>
      simp only [List.head?_cons, Option.toList_some, if_true]
      by_cases hc : Connects s n
      · rw [if_pos ((ofSubnet_iff s n).mpr hc)]
        cases hv : n.voltage with
        | none =>
          dsimp only
          refine ⟨by rw [h1], ?_, ?_, ?_⟩
          · rw [h2, if_pos ⟨hc, rfl⟩]
          · intro v
            rw [h3 v, if_neg (fun hh => nomatch hh.2), List.append_nil]
          · intro v
            rw [h4 v]
            exact ⟨Or.inl, fun hh => hh.resolve_right fun x => nomatch x.2.2⟩
        | some w =>
          dsimp only
          refine ⟨by rw [h1], ?_, ?_, ?_⟩
          · rw [h2, if_neg (fun hh => nomatch hh.2), List.append_nil]
          · intro v
            rw [groupAt_add, h3 v]
            congr 1
            by_cases h : w = v
            · rw [if_pos h, if_pos ⟨hc, congrArg some h⟩]
            · rw [if_neg h, if_neg fun hh => h (Option.some.inj hh.2)]
          · intro v
            rw [keys_add, h4 v]
            refine or_congr Iff.rfl ⟨fun h => ⟨hc, List.cons_ne_nil _ _, congrArg some h.symm⟩, fun h => (Option.some.inj h.2.2).symm⟩
      · rw [if_neg fun hh => hc ((ofSubnet_iff s n).mp hh)]
        dsimp only
        refine ⟨by rw [h1], ?_, ?_, ?_⟩
        · rw [h2, if_neg fun hh => hc hh.1, List.append_nil]
        · intro v
          rw [h3 v, if_neg fun hh => hc hh.1, List.append_nil]
        · intro v
          rw [h4 v]
          exact ⟨Or.inl, fun hh => hh.resolve_right fun x => hc x.1⟩

theorem mean_centre {ps : List (ℚ × ℚ)} (h : ps ≠ []) : Centre ps (meanOf (ps.map (·.1)), meanOf (ps.map (·.2))) := by
  have hl : (ps.length : ℚ) ≠ 0 := Nat.cast_ne_zero.mpr fun hh => h (List.length_eq_zero_iff.mp hh)
  unfold meanOf
  rw [List.length_map, List.length_map]
  exact ⟨h, div_mul_cancel₀ _ hl, div_mul_cancel₀ _ hl⟩

theorem chosen_lowest {s : Text} {ns : List SubNode} {v : ℚ} (h : Lowest s ns v) :
    chosenPoints (gatherPoints s ns) = places (fun n => Connects s n ∧ n.voltage = some v) ns := by
  obtain ⟨-, -, h3, h4⟩ := gather_spec s ns
  have hmin : ((gatherPoints s ns).groups.map (·.1)).min? = some v := by
    rw [List.min?_eq_some_iff]
    refine ⟨(h4 v).mpr h.1, fun w hw => ?_⟩
    obtain ⟨n, hn, g1, g2, g3⟩ := (h4 w).mp hw
    exact h.2 n hn g1 g2 w g3
  unfold chosenPoints
  rw [hmin]
  exact h3 v

theorem chosen_default {s : Text} {ns : List SubNode} (h : ∀ n ∈ ns, Connects s n → n.points ≠ [] → n.voltage = none) :
    chosenPoints (gatherPoints s ns) = places (fun n => Connects s n ∧ n.voltage = none) ns := by
  obtain ⟨-, h2, -, h4⟩ := gather_spec s ns
  have hk : (gatherPoints s ns).groups.map (·.1) = [] := by
    refine List.eq_nil_iff_forall_not_mem.mpr fun v hv => ?_
    obtain ⟨n, hn, g1, g2, g3⟩ := (h4 v).mp hv
    rw [h n hn g1 g2] at g3
    exact nomatch g3
  unfold chosenPoints
  rw [hk]
  exact h2

theorem places_ne {P : SubNode → Prop} [DecidablePred P] {ns : List SubNode} : places P ns ≠ [] ↔ ∃ n ∈ ns, P n ∧ n.points ≠ [] := by
  unfold places
  constructor
  · intro h
    obtain ⟨p, hp⟩ := List.exists_mem_of_ne_nil _ h
    obtain ⟨n, hn, hq⟩ := List.mem_filterMap.mp hp
    obtain ⟨h1, h2⟩ := List.mem_filter.mp hn
    refine ⟨n, h1, of_decide_eq_true h2, fun hh => ?_⟩
    rw [hh] at hq
    exact nomatch hq
  · rintro ⟨n, hn, hp, hq⟩
    obtain ⟨p, ps, hpp⟩ := List.exists_cons_of_ne_nil hq
    exact List.ne_nil_of_mem (List.mem_filterMap.mpr ⟨n, List.mem_filter.mpr ⟨hn, decide_eq_true hp⟩, by rw [hpp]; rfl⟩)

/-- **C126**, where a substation is drawn: 25 above the centre of its connections of the lowest nominal voltage; if no connection has a voltage,
above that of its connections; if these have no positions, at the centre of all nodes; if no node has a position, at the origin. -/
theorem C126_position (s : Text) (ns : List SubNode) :
    (∀ v, Lowest s ns v → ∃ c, Centre (places (fun n => Connects s n ∧ n.voltage = some v) ns) c ∧ subnetPoint s ns = some (c.1, c.2 + 25)) ∧
    ((∀ n ∈ ns, Connects s n → n.points ≠ [] → n.voltage = none) → (∃ n ∈ ns, Connects s n ∧ n.points ≠ []) →
      ∃ c, Centre (places (Connects s) ns) c ∧ subnetPoint s ns = some (c.1, c.2 + 25)) ∧
    ((∀ n ∈ ns, Connects s n → n.points = []) → (∃ n ∈ ns, n.points ≠ []) →
      ∃ c, Centre (places (fun _ => True) ns) c ∧ subnetPoint s ns = some c) ∧
    ((∀ n ∈ ns, n.points = []) → subnetPoint s ns = none) := by
  have h25 : (50 : ℚ) / 2 = 25 := by norm_num
  refine ⟨?_, ?_, ?_, ?_⟩
  · intro v hv
    have hne : places (fun n => Connects s n ∧ n.voltage = some v) ns ≠ [] := by
      obtain ⟨n, hn, g1, g2, g3⟩ := hv.1
      exact places_ne.mpr ⟨n, hn, ⟨g1, g3⟩, g2⟩
    refine ⟨_, mean_centre hne, ?_⟩
    unfold subnetPoint
    rw [chosen_lowest hv, if_pos hne, h25]
  · rintro hall ⟨n, hn, g1, g2⟩
    have heq : places (fun n => Connects s n ∧ n.voltage = none) ns = places (Connects s) ns := by
      clear n hn g1 g2
      induction ns using List.reverseRecOn with
      | nil => rfl
      | append_singleton ns n ih =>
        rw [places_snoc, places_snoc, ih fun m hm => hall m (List.mem_append_left _ hm)]
        congr 1
        cases hp : n.points with
        | nil => simp
        | cons p ps =>
          have hv := hall n (List.mem_append_right _ List.mem_cons_self)
          by_cases hc : Connects s n
          · rw [if_pos hc, if_pos ⟨hc, hv hc (by rw [hp]; exact List.cons_ne_nil _ _)⟩]
          · rw [if_neg hc, if_neg fun hh => hc hh.1]
    have hne : places (Connects s) ns ≠ [] := places_ne.mpr ⟨n, hn, g1, g2⟩
    refine ⟨_, mean_centre hne, ?_⟩
    unfold subnetPoint
    rw [chosen_default hall, heq, if_pos hne, h25]
  · rintro hno ⟨n, hn, g⟩
    have he : chosenPoints (gatherPoints s ns) = [] := by
      rw [chosen_default fun m hm hc hp => absurd (hno m hm hc) hp]
      by_contra hh
      obtain ⟨m, hm, hc, hp⟩ := places_ne.mp hh
      exact hp (hno m hm hc.1)
    have hne : places (fun _ => True) ns ≠ [] := places_ne.mpr ⟨n, hn, trivial, g⟩
    refine ⟨_, mean_centre hne, ?_⟩
    unfold subnetPoint
    rw [he, if_neg (fun hh => hh rfl), (gather_spec s ns).1, if_pos hne]
  · intro hno
    have he : chosenPoints (gatherPoints s ns) = [] := by
      rw [chosen_default fun m hm _ hp => absurd (hno m hm) hp]
      by_contra hh
      obtain ⟨m, hm, -, hp⟩ := places_ne.mp hh
      exact hp (hno m hm)
    have he2 : (gatherPoints s ns).all = [] := by
      rw [(gather_spec s ns).1]
      by_contra hh
      obtain ⟨m, hm, -, hp⟩ := places_ne.mp hh
      exact hp (hno m hm)
    unfold subnetPoint
    rw [he, if_neg (fun hh => hh rfl), he2, if_neg (fun hh => hh rfl)]

/-- **C126**, the tables: each substation has one row with its name and its position, and one row for each of its connections with the name of the node and its
first position; other networks have none. Missing: substations whose names contain "ation_", and networks that are no substations but whose names contain
"substation". -/
theorem C126_rows_partial (pr : ℚ → Text) {nets ss : List Text} (ns : List SubNode)
    (hn : (nets.filter fun n => inText "substation".toList n) = ss.map ("substation_".toList ++ ·)) (ha : ∀ s ∈ ss, ¬"ation_".toList <:+: s) :
    ∃ rows cons, subnetTables pr true nets ns = .ok (rows, cons) ∧
      List.Forall₂ (fun s r => r[0]? = some s ∧ (∀ c, subnetPoint s ns = some c → r[2]? = some (pr c.1) ∧ r[3]? = some (pr c.2)) ∧
        (subnetPoint s ns = none → r[2]? = some "0".toList ∧ r[3]? = some "0".toList) ∧ r.length = 12) ss rows ∧
      (∀ r, r ∈ cons ↔ ∃ s ∈ ss, ∃ n ∈ ns, Connects s n ∧ ((∃ p ps, n.points = p :: ps ∧ r = [s, nameText n.name, pr p.1, pr p.2]) ∨
        (n.points = [] ∧ r = [s, nameText n.name, "0".toList, "0".toList]))) ∧
      cons.length = (ss.map fun s => (ns.filter fun n => decide (Connects s n)).length).sum := by
  refine ⟨ss.map (subnetRow pr ns), ss.flatMap (connectionRows pr ns), ?_, ?_, ?_, ?_⟩
  · unfold subnetTables
    rw [if_pos rfl, subnetNames_ok hn ha]
  · rw [List.forall₂_map_right_iff, List.forall₂_same]
    intro s _
    unfold subnetRow
    refine ⟨rfl, ?_, ?_, ?_⟩
    · intro c hc
      rw [hc]
      exact ⟨rfl, rfl⟩
    · intro hc
      rw [hc]
      exact ⟨rfl, rfl⟩
    · cases subnetPoint s ns <;> rfl
  · intro r
    have hrow : ∀ s n, connectionRow pr s n = r ↔ ((∃ p ps, n.points = p :: ps ∧ r = [s, nameText n.name, pr p.1, pr p.2]) ∨
        (n.points = [] ∧ r = [s, nameText n.name, "0".toList, "0".toList])) := by
      intro s n
      unfold connectionRow
      cases hp : n.points with
      | nil =>
        refine ⟨fun h => Or.inr ⟨rfl, h.symm⟩, ?_⟩
        rintro (⟨p, ps, h, -⟩ | ⟨-, h⟩)
        · exact nomatch h
        · exact h.symm
      | cons p ps =>
        refine ⟨fun h => Or.inl ⟨p, ps, rfl, h.symm⟩, ?_⟩
        rintro (⟨q, qs, h, hr⟩ | ⟨h, -⟩)
        · cases h
          exact hr.symm
        · exact nomatch h
    rw [List.mem_flatMap]
    refine exists_congr fun s => and_congr_right fun _ => ?_
    unfold connectionRows
    rw [List.mem_map]
    refine exists_congr fun n => ?_
    rw [List.mem_filter, ofSubnet_iff, hrow, and_assoc]
  · rw [List.length_flatMap]
    congr 1
    refine List.map_congr_left fun s _ => ?_
    unfold connectionRows
    rw [List.length_map]
    congr 2
    funext n
    exact Bool.eq_iff_iff.mpr ((ofSubnet_iff s n).trans decide_eq_true_iff.symm)

/-- **C126**, without elements in substations there are no such tables. -/
theorem C126_none (pr : ℚ → Text) (nets : List Text) (ns : List SubNode) : subnetTables pr false nets ns = .ok ([], []) := rfl

/-! ### reading -/

def connectionCols : List Text := ["SubNetID".toList, "NodeID".toList, "ConnectorCoordX".toList, "ConnectorCoordY".toList]

theorem connection_format : FormatLine (connectionFormat ++ ['\n']) connectionCols := by
  refine ⟨by decide, ?_, "FORMAT_SUBNETWORKCONNECTIONS".toList, ['\n'], Or.inr (Or.inl rfl), by decide, ⟨[], "_subnetworkconnections".toList, by decide⟩,
    by decide +kernel⟩
  intro c hc
  rw [cellText_iff]
  exact (show ∀ c ∈ connectionCols, c.all (fun x => x ≠ ',' && x ≠ '=' && x ≠ '\n' && x ≠ '\r') = true by decide) c hc

theorem connectionRow_text {pr : ℚ → Text} (hpr : ∀ x, CellText (pr x)) {s : Text} {n : SubNode} (hs : CellText s) (hn : CellText (nameText n.name)) :
    3 ≤ (connectionRow pr s n).length ∧ ∀ c ∈ connectionRow pr s n, CellText c := by
  unfold connectionRow pointCells
  cases n.points.head? with
  | none =>
    refine ⟨by simp, ?_⟩
    simp only [List.cons_append, List.nil_append, List.mem_cons, List.not_mem_nil, or_false]
    rintro c (rfl | rfl | rfl | rfl)
    exacts [hs, hn, zero_text, zero_text]
  | some p =>
    refine ⟨by simp, ?_⟩
    simp only [List.cons_append, List.nil_append, List.mem_cons, List.not_mem_nil, or_false]
    rintro c (rfl | rfl | rfl | rfl)
    exacts [hs, hn, hpr _, hpr _]

/-- the values of a row, with the end of its line -/
def ExactRow (attrs : List Text) (f : Text) (row : List Text) (p : Text × Values) : Prop :=
  ∃ e, p.2 = rowValues attrs (mappingOf attrs f) [] (endCells row e)

theorem exact_rows {attrs more : List Text} {f : Text} {lines : List Text} {rows : List (List Text)}
    (h : List.Forall₂ RowLine lines rows) : ∀ (done : List (Text × Values)) (keys tail : List Text), done.map (·.1) = starred [] keys →
    (∀ k ∈ keys, '*' ∉ k) → (∀ r ∈ rows, '*' ∉ keyOf r) →
    ∃ new, List.Forall₂ (ExactRow attrs f) rows new ∧ (done ++ new).map (·.1) = starred [] (keys ++ rows.map keyOf) ∧
      tableRows [] { attrs := attrs, mapping := mappingOf attrs f, more := more, result := done } (lines ++ tail) =
        tableRows [] { attrs := attrs, mapping := mappingOf attrs f, more := more, result := done ++ new } tail := by
  induction h with
  | nil => intro done keys tail hd _ _; exact ⟨[], .nil, by rw [List.append_nil, hd, List.map_nil, List.append_nil], by rw [List.append_nil]; rfl⟩
  | @cons line row lines rows hl _ ih =>
    intro done keys tail hd hk hr
    obtain ⟨e, he, hstep⟩ := row_step hl { attrs := attrs, mapping := mappingOf attrs f, more := more, result := done } []
    have hlen : done.length = keys.length := by rw [← List.length_map (·.1), hd, starred_length]
    have hfree : freeKey (done.map (·.1)) done.length (keyOf row) = keyOf row ++ List.replicate (keys.count (keyOf row)) '*' := by
      have := freeKey_starred (hr row List.mem_cons_self) hk done.length 0 (Nat.zero_le _) (by rw [Nat.zero_add, hlen]; exact List.count_le_length)
      rw [List.replicate_zero, List.append_nil] at this
      rw [hd]
      exact this
    dsimp only at hstep
    rw [hfree] at hstep
    obtain ⟨new, h1, h2, h3⟩ := ih (done ++ [(keyOf row ++ List.replicate (keys.count (keyOf row)) '*',
        rowValues attrs (mappingOf attrs f) [] (endCells row e))]) (keys ++ [keyOf row]) tail
      (by rw [List.map_append, hd, starred_append, List.nil_append]; rfl)
      (by
        intro k hm
        rcases List.mem_append.mp hm with hm | hm
        · exact hk k hm
        · rw [List.mem_singleton.mp hm]; exact hr row List.mem_cons_self)
      (fun r hm => hr r (List.mem_cons_of_mem _ hm))
    refine ⟨(keyOf row ++ List.replicate (keys.count (keyOf row)) '*', rowValues attrs (mappingOf attrs f) [] (endCells row e)) :: new,
      .cons ⟨e, rfl⟩ h1, ?_, ?_⟩
    · have hsplit : keys ++ (row :: rows).map keyOf = (keys ++ [keyOf row]) ++ rows.map keyOf := by simp
      rw [hsplit, ← h2, List.append_assoc]
      rfl
    · rw [List.cons_append, tableRows, if_pos hl.2.2.1, hstep]
      rw [List.append_assoc] at h3
      exact h3

theorem column_at : IsColumn connectionCols "nodeid".toList 1 := by
  obtain ⟨i, hi, h⟩ : Cell connectionCols [[], "x".toList] "nodeid".toList "x".toList := cell_at 1 (by decide) rfl (by decide)
  match i, h with
  | 1, _ => exact hi

theorem connection_value {s t : Text} {pr : ℚ → Text} {n : SubNode} (ht : n.name = some t) {p : Text × Values}
    (h : ExactRow connectionQuery.attrs (connectionFormat ++ ['\n']) (connectionRow pr s n) p) : getEntry "nodeid".toList p.2 = some t := by
  obtain ⟨e, h⟩ := h
  rw [h]
  unfold rowValues
  change getEntry "nodeid".toList (connectionQuery.attrs.foldl (addCell (mappingOf connectionQuery.attrs (connectionFormat ++ ['\n']))
    (endCells (connectionRow pr s n) e)) []) = _
  rw [cells_get, if_pos (by decide), (cellOf_iff connection_format (by decide) _ t).mpr ⟨1, column_at, ?_⟩]
  · rfl
  · unfold connectionRow
    rw [ht]
    cases n.points.head? <;> rfl

/-- **C126**, reading: the nodes that are marked as connections are those that were written, in the same order, if all of them have names that are in the
model and that can stand in cells. Missing: nodes without names, and tables at the end of the file. -/
theorem C126_back_partial {pr : ℚ → Text} (hpr : ∀ x, CellText (pr x)) {ss names content : List Text} {ns : List SubNode}
    (hs : ∀ s ∈ ss, CellText s ∧ '*' ∉ Net.pyStrip s)
    (hn : ∀ s ∈ ss, ∀ n ∈ ns, Connects s n → ∃ t ∈ names, n.name = some t ∧ CellText t)
    (hf : WrittenConnections (ss.flatMap (connectionRows pr ns)) content) :
    ∃ marked, parseConnections names content = .ok marked ∧
      marked.map some = ss.flatMap fun s => (ns.filter fun n => decide (Connects s n)).map (·.name) := by
  have hrows : ∀ r ∈ ss.flatMap (connectionRows pr ns), ∃ s ∈ ss, ∃ n ∈ ns, Connects s n ∧ r = connectionRow pr s n := by
    intro r hr
    obtain ⟨s, h1, h2⟩ := List.mem_flatMap.mp hr
    obtain ⟨n, h3, rfl⟩ := List.mem_map.mp h2
    obtain ⟨h4, h5⟩ := List.mem_filter.mp h3
    exact ⟨s, h1, n, h4, (ofSubnet_iff s n).mp h5, rfl⟩
  have hlist : (ss.flatMap fun s => (ns.filter fun n => decide (Connects s n)).map (·.name)) =
      (ss.flatMap (connectionRows pr ns)).map fun r => r[1]? := by
    rw [List.map_flatMap]
    refine List.flatMap_congr fun s hsm => ?_
    unfold connectionRows
    rw [List.map_map]
    have hfil : (ns.filter fun n => decide (Connects s n)) = ns.filter (ofSubnet s) := by
      congr 1
      funext n
      exact Bool.eq_iff_iff.mpr (decide_eq_true_iff.trans (ofSubnet_iff s n).symm)
    rw [hfil]
    refine List.map_congr_left fun n hnm => ?_
    obtain ⟨g1, g2⟩ := List.mem_filter.mp hnm
    obtain ⟨t, -, g3, -⟩ := hn s hsm n g1 ((ofSubnet_iff s n).mp g2)
    simp only [Function.comp_apply, connectionRow, g3]
    rfl
  rw [hlist]
  obtain ⟨pre, post, rfl, hno⟩ := hf
  have hnot : ∀ l ∈ pre ++ post, ¬Heads connectionQuery.headers l := by
    rintro l hl ⟨x, hx, hc⟩
    rw [List.mem_singleton.mp hx] at hc
    exact hno l hl hc
  have hstar : ∀ r ∈ ss.flatMap (connectionRows pr ns), '*' ∉ keyOf r := by
    intro r hr
    obtain ⟨s, h1, n, -, -, rfl⟩ := hrows r hr
    exact (hs s h1).2
  have hlines : List.Forall₂ RowLine ((ss.flatMap (connectionRows pr ns)).map fun r => cellsLine r ++ ['\n']) (ss.flatMap (connectionRows pr ns)) := by
    refine rows_lines fun r hr => ?_
    obtain ⟨s, h1, n, h2, h3, rfl⟩ := hrows r hr
    obtain ⟨t, -, h4, h5⟩ := hn s h1 n h2 h3
    exact connectionRow_text hpr (hs s h1).1 (by rw [h4]; exact h5)
  generalize ss.flatMap (connectionRows pr ns) = rows at hrows hstar hlines
  obtain ⟨new, h1, h2, h3⟩ := exact_rows (attrs := connectionQuery.attrs) (f := connectionFormat ++ ['\n']) (more := connectionQuery.more) hlines [] []
    (['\n'] :: post) rfl (fun _ hm => nomatch hm) hstar
  rw [List.nil_append, List.nil_append] at h2
  have hread : readTables connectionQuery (pre ++ "[SUBNETWORK CONNECTIONS]\n".toList :: (connectionFormat ++ ['\n']) ::
      (rows.map (fun r => cellsLine r ++ ['\n']) ++ ['\n'] :: post)) = .ok new := by
    refine readTables_one (fun l hl => hnot l (List.mem_append_left _ hl)) (fun l hl => hnot l (List.mem_append_right _ hl)) ?_
      (helper_header ⟨_, List.mem_singleton.mpr rfl, [], ['\n'], by decide⟩
        (s := { attrs := connectionQuery.attrs, mapping := mappingOf connectionQuery.attrs (connectionFormat ++ ['\n'])
                more := connectionQuery.more, result := new }) ?_)
    · rw [h2]
      exact starred_nodup (by
        intro x hx
        obtain ⟨r, hr, rfl⟩ := List.mem_map.mp hx
        exact hstar r hr) []
    · rw [after_format_more connection_format (by simp), show connectionQuery.info = [] from rfl, h3, tableRows, if_neg (by decide), List.nil_append]
  unfold parseConnections
  rw [hread]
  dsimp only
  clear hread h2 h3 hlines hstar hno hnot hlist
  induction h1 with
  | nil => exact ⟨[], rfl, rfl⟩
  | @cons r p rows new hp _ ih =>
    obtain ⟨marked, g1, g2⟩ := ih fun r hr => hrows r (.tail _ hr)
    obtain ⟨s, h1, n, h2, h3, rfl⟩ := hrows r (.head _)
    obtain ⟨t, h4, h5, -⟩ := hn s h1 n h2 h3
    refine ⟨t :: marked, ?_, ?_⟩
    · rw [markConnections, connection_value h5 hp]
      dsimp only
      rw [if_pos h4, g1]
    · rw [List.map_cons, g2, List.map_cons]
      congr 1
      unfold connectionRow
      rw [h5]
      rfl

/-! ### what is not as expected -/

/-- **C126**, names with "ation_": a substation of such a name, like station_1, is written with the part of its name before it, and its connections are not
written. -/
theorem C126_name_violated (pr : ℚ → Text) {a b : Text} (ha : cutAt "ation_".toList (a ++ "ation_".toList ++ b) = some (a, b)) {ns : List SubNode}
    (hs : ∀ n ∈ ns, ∀ s, n.substation = some s → s = a ++ "ation_".toList ++ b) :
    ∃ row, subnetTables pr true ["substation_".toList ++ (a ++ "ation_".toList ++ b)] ns = .ok ([row], []) ∧ row[0]? = some a := by
  have hin : inText "substation".toList ("substation_".toList ++ (a ++ "ation_".toList ++ b)) = true :=
    (inText_iff _ _).mpr (List.IsPrefix.isInfix ⟨'_' :: (a ++ "ation_".toList ++ b), rfl⟩)
  have hname : subnetName ("substation_".toList ++ (a ++ "ation_".toList ++ b)) = .ok a := by
    unfold subnetName
    rw [show cutAt "ation_".toList ("substation_".toList ++ (a ++ "ation_".toList ++ b)) = some ("subst".toList, a ++ "ation_".toList ++ b) from rfl]
    dsimp only
    rw [ha]
  refine ⟨subnetRow pr ns a, ?_, rfl⟩
  unfold subnetTables
  rw [if_pos rfl, subnetNames, if_pos hin, hname, subnetNames]
  dsimp only
  rw [List.map_singleton, List.flatMap_singleton]
  have hnone : connectionRows pr ns a = [] := by
    unfold connectionRows
    rw [List.map_eq_nil_iff, List.filter_eq_nil_iff]
    intro n hn hc
    have := hs n hn a ((ofSubnet_iff a n).mp hc).1
    have hl := congrArg List.length this
    rw [List.length_append, List.length_append, show "ation_".toList.length = 6 from rfl] at hl
    omega
  rw [hnone]

/-- **C126**, feeders whose names contain "substation" but not "ation_" stop the writer if there is a substation. -/
theorem C126_feeder_violated (pr : ℚ → Text) {nets pre post ss : List Text} {net : Text} (ns : List SubNode) (hnets : nets = pre ++ net :: post)
    (hn : (pre.filter fun n => inText "substation".toList n) = ss.map ("substation_".toList ++ ·)) (ha : ∀ s ∈ ss, ¬"ation_".toList <:+: s)
    (h1 : "substation".toList <:+: net) (h2 : ¬"ation_".toList <:+: net) : subnetTables pr true nets ns = .error .indexError := by
  have key : subnetNames nets = .error .indexError := by
    rw [hnets]
    clear hnets
    induction pre generalizing ss with
    | nil =>
      rw [List.nil_append, subnetNames, if_pos ((inText_iff _ _).mpr h1)]
      unfold subnetName
      rw [cutAt_none net h2]
    | cons x pre ih =>
      rw [List.cons_append, subnetNames]
      by_cases h : inText "substation".toList x = true
      · rw [List.filter_cons_of_pos h] at hn
        cases ss with
        | nil => cases hn
        | cons s ss =>
          rw [List.map_cons, List.cons.injEq] at hn
          obtain ⟨rfl, hn⟩ := hn
          rw [if_pos h, subnetName_ok (ha s (.head _)), ih hn fun x hx => ha x (.tail _ hx)]
      · rw [List.filter_cons_of_neg h] at hn
        rw [if_neg h]
        exact ih hn ha
  unfold subnetTables
  rw [if_pos rfl, key]

/-- **C126**, dropped nodes: a connection of a substation that is dropped from the model is written although the table of nodes does not have it. -/
theorem C126_dropped_violated (pr : ℚ → Text) (m : List ((Text × Int) × Text)) {s t : Text} (ha : ¬"ation_".toList <:+: s) {n : SubNode}
    (hc : Connects s n) (ht : n.name = some t) (hd : n.dropped = true) :
    ∃ rows row, subnetTables pr true ["substation_".toList ++ s] [n] = .ok (rows, [row]) ∧ row[1]? = some t ∧
      nodeRows pr m ([n].map asNode) = {} := by
  have hin : inText "substation".toList ("substation_".toList ++ s) = true := (inText_iff _ _).mpr (List.IsPrefix.isInfix ⟨'_' :: s, rfl⟩)
  refine ⟨[subnetRow pr [n] s], connectionRow pr s n, ?_, ?_, ?_⟩
  · unfold subnetTables
    rw [if_pos rfl, subnetNames, if_pos hin, subnetName_ok ha, subnetNames]
    dsimp only
    rw [List.flatMap_singleton]
    unfold connectionRows
    rw [List.filter_cons_of_pos ((ofSubnet_iff s n).mpr hc)]
    rfl
  · unfold connectionRow
    rw [ht]
    rfl
  · unfold nodeRows
    rw [List.map_singleton, List.foldl_cons, List.foldl_nil]
    unfold nodeStep asNode
    rw [if_pos hd]

/-! ### examples -/

/-- a substation with three connections, one of high and two of low voltage, and a node elsewhere -/
def subNodes : List SubNode :=
  [⟨false, some "hv".toList, some "s1".toList, true, some 69000, [(0, 0)]⟩, ⟨false, some "a".toList, some "s1".toList, true, some 7200, [(10, 20)]⟩,
    ⟨false, some "b".toList, some "s1".toList, true, some 7200, [(20, 40), (1, 1)]⟩, ⟨false, some "far".toList, none, false, some 120, [(500, 500)]⟩]

/-- they are at the centre of the connections of low voltage -/
example : subnetPoint "s1".toList subNodes = some (15, 55) := by decide +kernel

/-- other substations are at the centre of all nodes -/
example : subnetPoint "s2".toList subNodes = some (265 / 2, 140) := by decide +kernel

example : Lowest "s1".toList subNodes 7200 := by
  refine ⟨⟨_, .tail _ (.head _), by decide, by decide, rfl⟩, ?_⟩
  intro n hn hc hp w hw
  simp only [subNodes, List.mem_cons, List.not_mem_nil, or_false] at hn
  rcases hn with rfl | rfl | rfl | rfl
  · cases hw; norm_num
  · cases hw; exact le_rfl
  · cases hw; exact le_rfl
  · exact absurd hc.2 (by decide)

/-- the networks of the theorem about rows -/
example : (["f1".toList, "substation_s1".toList].filter fun n => inText "substation".toList n) = ["s1".toList].map ("substation_".toList ++ ·) ∧
    ∀ s ∈ ["s1".toList], ¬"ation_".toList <:+: s := by
  refine ⟨by decide, ?_⟩
  decide

/-- the connections are read again -/
example : parseConnections ["hv".toList, "a".toList, "b".toList] (["[SUBNETWORK CONNECTIONS]\n".toList, connectionFormat ++ ['\n']] ++
    (connectionRows (fun _ => "0".toList) subNodes "s1".toList).map (fun r => cellsLine r ++ ['\n']) ++ [['\n']]) =
    .ok ["hv".toList, "a".toList, "b".toList] := by decide +kernel

/-- the substation station_1 becomes st -/
example : cutAt "ation_".toList ("st".toList ++ "ation_".toList ++ "1".toList) = some ("st".toList, "1".toList) := by decide

/-- a feeder of such a name -/
example : "substation".toList <:+: "old substation".toList ∧ ¬"ation_".toList <:+: "old substation".toList := by decide

/-- a dropped connection -/
example : Connects "s1".toList ⟨true, some "x".toList, some "s1".toList, true, none, []⟩ := by decide

end Ditto.Cyme
