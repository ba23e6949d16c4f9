import Verif.Lemmas.CymeSources
import Verif.Props.CymeNodes
import Mathlib.Algebra.Ring.Nat
import Mathlib.Algebra.Ring.Rat
import Mathlib.Tactic.Linarith

/-! C77: sources of CYME files; several kinds of tables in one pass (C73). -/
namespace Ditto.Cyme
open Ditto Glm Spec

/-- C73. A file with tables of several kinds, read in one pass: for each kind, all the rows of its table are read, in order, and nothing else. -/
theorem C73_mixed {qs : List Query} {content : List Text} {ts : List (List Text × Table)} (h : Mixed (qs.map (·.headers)) content ts)
    (hnd : (qs.map (·.headers)).Nodup) (hqs : ∀ q ∈ qs, q.info = [] ∧ q.attrs.Nodup) (hts : (ts.map (·.1)).Nodup)
    (hstar : ∀ t ∈ ts, ∀ r ∈ t.2.rows, '*' ∉ keyOf r) :
    ∃ ds, readMany qs content = .ok ds ∧ List.Forall₂ (fun q d => ∀ cols rows, TableIs ts q.headers cols rows →
      d.map (·.1) = starred [] (rows.map keyOf) ∧ List.Forall₂ (fun r p => Entry q.attrs (cols, r) (keyOf r, p.2)) rows d) qs ds := by
  obtain ⟨ds, h1, h2⟩ := readMany_tables h hnd hqs hts hstar
  refine ⟨ds, h1, h2.imp ?_⟩
  intro q d hd cols rows hT
  obtain ⟨h3, h4⟩ := hd cols rows hT
  exact ⟨h3, h4.imp fun _ _ hr => rowRead_entry hr⟩

/-! ### parts of a source -/

theorem hasCells_read {attrs cols row : List Text} {v : Values} (h : RowRead attrs cols row v) (k : Text) : HasCells attrs cols row (k, v) :=
  rowRead_entry h

theorem floatAt_cell {N : Type} {num : Text → Option N} (hn : BlankFree num) {attrs cols row : List Text} {v : Values} (h : RowRead attrs cols row v)
    {k c : Text} (hk : k ∈ attrs) (hc : Cell cols row k c) : floatAt num v k = match num c with | none => .error .valueError | some x => .ok x := by
  obtain ⟨x, h1, h2⟩ := hasCells_get (hasCells_read h []) hk hc
  unfold floatAt
  rw [show getEntry k v = some x from h1]
  dsimp only
  rw [hn _ _ h2]
  cases num c <;> rfl

theorem thousandAt_cell {N : Type} [Semiring N] {num : Text → Option N} (hn : BlankFree num) {attrs cols row : List Text} {v : Values}
    (h : RowRead attrs cols row v) {k : Text} (hk : k ∈ attrs) : Kilo num cols row k (thousandAt num v k) := by
  constructor
  · intro c hc
    unfold thousandAt
    rw [floatAt_cell hn h hk hc]
    cases num c <;> rfl
  · intro hno
    have : getEntry k v = none := hasCells_none (hasCells_read h []) fun hh => hno hh.2
    unfold thousandAt floatAt
    rw [this]
    rfl

theorem complexAt_point {N : Type} {num : Text → Option N} (hn : BlankFree num) {attrs cols row : List Text} {v : Values} (h : RowRead attrs cols row v)
    {a b : Text} (ha : a ∈ attrs) (hb : b ∈ attrs) {z : N × N} (hz : Point num cols row a b z) : complexAt num v a b = .ok z := by
  obtain ⟨⟨c, hc, hc2⟩, d, hd, hd2⟩ := hz
  unfold complexAt
  rw [floatAt_cell hn h ha hc, hc2]
  dsimp only
  rw [floatAt_cell hn h hb hd, hd2]

theorem read_some {attrs cols row : List Text} {v : Values} (h : RowRead attrs cols row v) {k : Text} (hk : k ∈ attrs) :
    (∃ x, getEntry k v = some x) ↔ ∃ c, Cell cols row k c := by
  constructor
  · rintro ⟨x, hx⟩
    by_contra hno
    rw [show getEntry k v = none from hasCells_none (hasCells_read h []) fun hh => hno hh.2] at hx
    cases hx
  · rintro ⟨c, hc⟩
    obtain ⟨x, hx, -⟩ := hasCells_get (hasCells_read h []) hk hc
    exact ⟨x, hx⟩

theorem positiveOf_cells {N : Type} {num : Text → Option N} (hn : BlankFree num) {cols row : List Text} {v : Values}
    (h : RowRead equivalentQuery.attrs cols row v) {z1 z0 : N × N} (hz : Impedances num cols row z1 z0) :
    positiveOf num v = .ok z1 ∧ zeroOf num v = .ok z0 := by
  obtain ⟨⟨h1, h2⟩, h3, h4⟩ := hz
  constructor
  · unfold positiveOf
    by_cases hc : ∃ c, Cell cols row "positivesequenceresistance".toList c
    · obtain ⟨x, hx⟩ := (read_some h (by decide)).mpr hc
      rw [hx]
      exact complexAt_point hn h (by decide) (by decide) (h1 hc)
    · rw [show getEntry "positivesequenceresistance".toList v = none from hasCells_none (hasCells_read h []) fun hh => hc hh.2]
      exact complexAt_point hn h (by decide) (by decide) (h2 hc)
  · unfold zeroOf
    by_cases hc : ∃ c, Cell cols row "zerosequenceresistance".toList c
    · obtain ⟨x, hx⟩ := (read_some h (by decide)).mpr hc
      rw [hx]
      exact complexAt_point hn h (by decide) (by decide) (h3 hc)
    · rw [show getEntry "zerosequenceresistance".toList v = none from hasCells_none (hasCells_read h []) fun hh => hc hh.2]
      exact complexAt_point hn h (by decide) (by decide) (h4 hc)

/-- the search for the section of a node -/
theorem sectionEnds_found {n : Text} {secs : List (Text × Values)} (hsec : ∀ s ∈ secs, FullSection s.2) : ∀ found : Option (Text × Text),
    ((∃ s ∈ secs, EndsAt s.2 n) → ∃ p, sectionEnds (some n) found secs = .ok (some (n, p))) ∧
    ((∀ s ∈ secs, ¬EndsAt s.2 n) → sectionEnds (some n) found secs = .ok found) := by
  induction secs with
  | nil => intro found; exact ⟨(fun ⟨s, hs, _⟩ => nomatch hs), fun _ => rfl⟩
  | cons s secs ih =>
    intro found
    obtain ⟨⟨a, ha⟩, ⟨b, hb⟩, p, hp⟩ := hsec s List.mem_cons_self
    have ih := ih fun x hx => hsec x (List.mem_cons_of_mem _ hx)
    have hends : EndsAt s.2 n ↔ a = n ∨ b = n := by
      unfold EndsAt
      rw [ha, hb]
      simp only [Option.some.injEq]
    have hstep : sectionEnd (some n) found s.2 = .ok (if a = n ∨ b = n then some (n, p) else found) := by
      unfold sectionEnd
      rw [ha, hb]
      dsimp only
      rw [hp]
      split <;> rfl
    rw [sectionEnds, hstep]
    dsimp only
    by_cases hc : a = n ∨ b = n
    · rw [if_pos hc]
      refine ⟨fun _ => ?_, fun hall => absurd (hends.mpr hc) (hall s List.mem_cons_self)⟩
      by_cases hrest : ∃ s ∈ secs, EndsAt s.2 n
      · exact (ih _).1 hrest
      · exact ⟨p, (ih _).2 fun x hx he => hrest ⟨x, hx, he⟩⟩
    · rw [if_neg hc]
      refine ⟨fun ⟨x, hx, he⟩ => ?_, fun hall => (ih _).2 fun x hx => hall x (List.mem_cons_of_mem _ hx)⟩
      rcases List.mem_cons.mp hx with rfl | hx
      · exact absurd (hends.mp he) hc
      · exact (ih _).1 ⟨x, hx, he⟩

theorem buildSource_ok {N : Type} [Semiring N] {num : Text → Option N} {n p : Text} {voltage power : Option N} {e : Values} {z1 z0 : N × N}
    (h1 : positiveOf num e = .ok z1) (h0 : zeroOf num e = .ok z0) :
    ∃ s, buildSource num (some (n, p)) voltage power (some e) = .ok s ∧ s.name = n ++ "_src".toList ∧ s.element = n ∧ s.voltage = voltage ∧
      s.power = power ∧ s.positive = z1 ∧ s.zero = z0 := by
  unfold buildSource
  dsimp only
  rw [h1, h0]
  exact ⟨_, rfl, rfl, rfl, rfl, rfl, rfl, rfl⟩

/-- the queries of the network file -/
theorem two_reads {network : List Text} {ts : List (List Text × Table)} (h : Mixed [sourceQuery.headers, equivalentQuery.headers] network ts)
    (hts : (ts.map (·.1)).Nodup) (hstar : ∀ t ∈ ts, ∀ r ∈ t.2.rows, '*' ∉ keyOf r) :
    ∃ d e, readMany [sourceQuery, equivalentQuery] network = .ok [d, e] ∧ TableRead sourceQuery ts d ∧ TableRead equivalentQuery ts e := by
  obtain ⟨ds, h1, h2⟩ := readMany_tables (qs := [sourceQuery, equivalentQuery]) h (by decide)
    (by intro q hq; rcases List.mem_cons.mp hq with rfl | hq
        · exact ⟨rfl, by decide⟩
        · rw [List.mem_singleton.mp hq]; exact ⟨rfl, by decide⟩) hts hstar
  rw [List.forall₂_cons_left_iff] at h2
  obtain ⟨d, ds, hd, h2, rfl⟩ := h2
  rw [List.forall₂_cons_left_iff] at h2
  obtain ⟨e, ds, he, h2, rfl⟩ := h2
  obtain rfl := List.forall₂_nil_left_iff.mp h2
  exact ⟨d, e, h1, hd, he⟩

/-! ### files without sources -/

theorem equivalents_run {N : Type} [Semiring N] {num : Text → Option N} (hn : BlankFree num) {secs : List (Text × Values)}
    (hsec : ∀ s ∈ secs, FullSection s.2) {cols : List Text} {isd : List Text → Bool} {rows : List (List Text)} {d : List (Text × Values)}
    (hd : List.Forall₂ (fun r p => RowRead equivalentQuery.attrs cols r p.2) rows d)
    (hisd : ∀ r ∈ rows, ∃ c, Inner cols r "loadmodelname".toList c ∧ (isd r = true ↔ c.map Char.toLower = "default".toList))
    (hrows : ∀ r ∈ rows, isd r = true → (∃ n, Inner cols r "nodeid".toList n ∧ ∃ s ∈ secs, EndsAt s.2 n) ∧ ∃ z1 z0, Impedances num cols r z1 z0) :
    ∀ found, ∃ ss, equivalentSources num secs found d = .ok ss ∧ List.Forall₂ (EquivalentOk num cols) (rows.filter isd) ss := by
  induction hd with
  | nil => intro found; exact ⟨[], rfl, .nil⟩
  | @cons r p rows d hp _ ih =>
    intro found
    have ih := ih (fun x hx => hisd x (List.mem_cons_of_mem _ hx)) fun x hx => hrows x (List.mem_cons_of_mem _ hx)
    obtain ⟨c, hc, hc2⟩ := hisd r List.mem_cons_self
    rw [equivalentSources, rowRead_inner hp (by decide) hc]
    dsimp only
    rw [List.filter_cons]
    by_cases hdef : isd r = true
    · rw [if_pos hdef, if_neg (by rw [not_not]; exact hc2.mp hdef)]
      obtain ⟨⟨n, hn1, hn2⟩, z1, z0, hz⟩ := hrows r List.mem_cons_self hdef
      obtain ⟨ph, hph⟩ := (sectionEnds_found hsec found).1 hn2
      rw [rowRead_inner hp (by decide) hn1, hph]
      dsimp only
      obtain ⟨hz1, hz0⟩ := positiveOf_cells hn hp hz
      obtain ⟨s, hs, hs1, hs2, hs3, -, hs5, hs6⟩ := buildSource_ok (n := n) (p := ph) (voltage := thousandAt num p.2 "voltage".toList)
        (power := thousandAt num p.2 "mva".toList) hz1 hz0
      obtain ⟨ss, hss, hss2⟩ := ih (some (n, ph))
      rw [hs]
      dsimp only
      rw [hss]
      exact ⟨s :: ss, rfl, .cons ⟨n, hn1, hs1, hs2, by rw [hs3]; exact thousandAt_cell hn hp (by decide), by rw [hs5, hs6]; exact hz⟩ hss2⟩
    · rw [if_neg hdef, if_pos (show lower c ≠ "default".toList from fun hh => hdef (hc2.mpr hh))]
      exact ih found

/-- A file without sources: each row of the source equivalents of the default load model, and no other one, gives a source, in order, at its node,
with its voltage and its impedances. The node must be in a section and not in the last column. -/
theorem C77_equivalents_partial {N : Type} [Semiring N] {num : Text → Option N} (hn : BlankFree num) {secs : List (Text × Values)}
    (hsec : ∀ s ∈ secs, FullSection s.2) {network equipment cols : List Text} {rows : List (List Text)} {subs : List (Text × Values)}
    {ts : List (List Text × Table)} (h : Mixed [sourceQuery.headers, equivalentQuery.headers] network ts) (hts : (ts.map (·.1)).Nodup)
    (hstar : ∀ t ∈ ts, ∀ r ∈ t.2.rows, '*' ∉ keyOf r) (hsource : ∀ t ∈ ts, t.1 = sourceQuery.headers → t.2.rows = [])
    (he : TableIs ts equivalentQuery.headers cols rows) (hsubs : readTables substationQuery equipment = .ok subs)
    {isd : List Text → Bool} (hisd : ∀ r ∈ rows, ∃ c, Inner cols r "loadmodelname".toList c ∧ (isd r = true ↔ c.map Char.toLower = "default".toList))
    (hrows : ∀ r ∈ rows, isd r = true → (∃ n, Inner cols r "nodeid".toList n ∧ ∃ s ∈ secs, EndsAt s.2 n) ∧ ∃ z1 z0, Impedances num cols r z1 z0) :
    ∃ ss, parseSources num secs network equipment = .ok ss ∧ List.Forall₂ (EquivalentOk num cols) (rows.filter isd) ss := by
  obtain ⟨d, e, h1, h2, h3⟩ := two_reads h hts hstar
  have hd : d = [] := by
    by_cases hex : ∃ t ∈ ts, t.1 = sourceQuery.headers
    · obtain ⟨⟨hs, t⟩, ht, rfl⟩ := hex
      have hr := hsource _ ht rfl
      obtain ⟨tc, tr⟩ := t
      dsimp only at hr
      subst hr
      have := (h2 tc [] (Or.inl ht)).2
      exact List.forall₂_nil_left_iff.mp this
    · have := (h2 [] [] (Or.inr ⟨fun t ht he => hex ⟨t, ht, he⟩, rfl⟩)).2
      exact List.forall₂_nil_left_iff.mp this
  subst hd
  obtain ⟨ss, h4, h5⟩ := equivalents_run hn hsec (h3 cols rows he).2 hisd hrows none
  refine ⟨ss, ?_, h5⟩
  unfold parseSources
  rw [h1]
  dsimp only
  rw [hsubs]
  dsimp only
  unfold sourcesOf
  rw [if_pos rfl]
  exact h4

/-! ### files with sources -/

theorem sources_run {N : Type} [Semiring N] {num : Text → Option N} (hn : BlankFree num) {secs : List (Text × Values)}
    (hsec : ∀ s ∈ secs, FullSection s.2) {cols ecols scols : List Text} {rows erows srows : List (List Text)} {d e subs : List (Text × Values)}
    (hd : List.Forall₂ (fun r p => RowRead sourceQuery.attrs cols r p.2) rows d) (hk : d.map (·.1) = rows.map keyOf)
    (he : List.Forall₂ (fun r p => RowRead equivalentQuery.attrs ecols r p.2) erows e) (hek : e.map (·.1) = starred [] (erows.map keyOf))
    (hs : List.Forall₂ (fun r p => RowRead substationQuery.attrs scols r p.2) srows subs) (hsk : subs.map (·.1) = starred [] (srows.map keyOf))
    (hst : ∀ r ∈ rows ++ erows ++ srows, '*' ∉ keyOf r)
    (hrows : ∀ r ∈ rows, (∃ sr ∈ srows, keyOf sr = keyOf r) → ∃ n er z1 z0, Inner cols r "nodeid".toList n ∧ (∃ s ∈ secs, EndsAt s.2 n) ∧
      FirstRow erows n er ∧ Impedances num ecols er z1 z0) :
    ∀ found, ∃ ss, namedSources num secs e subs found d = .ok ss ∧
      List.Forall₂ (fun r s => ∃ n er sr, Inner cols r "nodeid".toList n ∧ FirstRow erows n er ∧ FirstRow srows (keyOf r) sr ∧
        SourceOk num cols r ecols er scols sr s) (rows.filter fun r => keyOf r ∈ srows.map keyOf) ss := by
  induction hd with
  | nil => intro found; exact ⟨[], rfl, .nil⟩
  | @cons r p rows d hp _ ih =>
    intro found
    rw [List.map_cons, List.map_cons, List.cons.injEq] at hk
    have ih := ih hk.2 (fun x hx => hst x (by
      rw [List.append_assoc] at hx ⊢
      exact List.mem_cons_of_mem _ hx)) fun x hx => hrows x (List.mem_cons_of_mem _ hx)
    have hrk : '*' ∉ keyOf r := hst r (by simp)
    have hsub := first_starred hs hrk (fun x hx => hst x (by simp [hx])) [] (by simp) hsk
    rw [namedSources, hk.1, List.filter_cons]
    by_cases hin : keyOf r ∈ srows.map keyOf
    · rw [if_pos (decide_eq_true hin)]
      obtain ⟨sr, hsr⟩ : ∃ sr, FirstRow srows (keyOf r) sr := by
        obtain ⟨x, hx, hxe⟩ := List.mem_map.mp hin
        unfold FirstRow
        exact Option.isSome_iff_exists.mp (List.find?_isSome.mpr ⟨x, hx, by simpa using hxe⟩)
      obtain ⟨sv, hsv, hsv2⟩ := hsub.1 sr hsr
      obtain ⟨x, hx, hxe⟩ := List.mem_map.mp hin
      obtain ⟨n, er, z1, z0, hn1, hn2, her, hz⟩ := hrows r List.mem_cons_self ⟨x, hx, hxe⟩
      have hnk : '*' ∉ n := by
        have h1 := List.mem_of_find?_eq_some her
        have h2 := List.find?_some her
        rw [decide_eq_true_iff] at h2
        rw [← h2]
        exact hst er (by simp [h1])
      obtain ⟨ev, hev, hev2⟩ := (first_starred he hnk (fun x hx => hst x (by simp [hx])) [] (by simp) hek).1 er her
      obtain ⟨ph, hph⟩ := (sectionEnds_found hsec found).1 hn2
      have hnode := rowRead_inner hp (by decide) hn1
      have heq : equivalentOf e p.2 = some ev := by
        unfold equivalentOf
        rw [hnode]
        exact hev
      rw [hsv]
      dsimp only
      rw [hnode, hph]
      dsimp only
      rw [heq]
      obtain ⟨hz1, hz0⟩ := positiveOf_cells hn hev2 hz
      obtain ⟨s, hs0, hs1, hs2, hs3, hs4, hs5, hs6⟩ := buildSource_ok (n := n) (p := ph) (voltage := sourceVoltage num p.2 (some ev))
        (power := thousandAt num sv "mva".toList) hz1 hz0
      obtain ⟨ss, hss, hss2⟩ := ih (some (n, ph))
      rw [hs0]
      dsimp only
      rw [hss]
      refine ⟨s :: ss, rfl, .cons ⟨n, er, sr, hn1, her, hsr, n, hn1, hs1, hs2, ?_, ?_, ?_, ?_⟩ hss2⟩
      · intro hc
        obtain ⟨x, hx⟩ := (read_some hp (k := "desiredvoltage".toList) (by decide)).mpr hc
        rw [hs3]
        unfold sourceVoltage
        rw [hx]
        exact thousandAt_cell hn hp (by decide)
      · intro hc
        rw [hs3]
        unfold sourceVoltage
        rw [show getEntry "desiredvoltage".toList p.2 = none from hasCells_none (hasCells_read hp []) fun hh => hc hh.2]
        exact thousandAt_cell hn hev2 (by decide)
      · rw [hs4]
        exact thousandAt_cell hn hsv2 (by decide)
      · rw [hs5, hs6]
        exact hz
    · rw [if_neg (by simpa using hin), hsub.2 fun x hx hxe => hin (List.mem_map.mpr ⟨x, hx, hxe⟩)]
      exact ih found

/-- reading the table of one kind -/
theorem one_read {q : Query} (hq : q.info = [] ∧ q.attrs.Nodup) {equipment scols : List Text} {srows : List (List Text)} {ts : List (List Text × Table)}
    (h : Mixed [q.headers] equipment ts) (hts : (ts.map (·.1)).Nodup) (hstar : ∀ t ∈ ts, ∀ r ∈ t.2.rows, '*' ∉ keyOf r)
    (hs : TableIs ts q.headers scols srows) :
    ∃ subs, readTables q equipment = .ok subs ∧ subs.map (·.1) = starred [] (srows.map keyOf) ∧
      List.Forall₂ (fun r p => RowRead q.attrs scols r p.2) srows subs := by
  obtain ⟨ds, h1, h2⟩ := readMany_tables (qs := [q]) h (List.nodup_singleton _)
    (by intro x hx; rw [List.mem_singleton.mp hx]; exact hq) hts hstar
  rw [List.forall₂_cons_left_iff] at h2
  obtain ⟨d, ds, hd, h2, rfl⟩ := h2
  obtain rfl := List.forall₂_nil_left_iff.mp h2
  have hone : ∀ (fuel : Nat) (d0 : List (Text × Values)) (content : List Text),
      manyLoop fuel [(q, d0)] content = (readLoop q fuel d0 content).map fun x => [(q, x)] := by
    intro fuel
    induction fuel with
    | zero => intro d0 content; cases content <;> rfl
    | succ fuel ih =>
      intro d0 content
      cases content with
      | nil => rfl
      | cons line rest =>
        rw [manyLoop, readLoop, helpers]
        dsimp only
        cases parserHelper q line rest with
        | error err => rfl
        | ok x => exact ih _ _
  unfold readMany at h1
  rw [List.map_cons, List.map_nil, hone] at h1
  refine ⟨d, ?_, hd scols srows hs⟩
  unfold readTables
  cases hr : readLoop q equipment.length [] equipment with
  | error err => rw [hr] at h1; cases h1
  | ok x =>
    rw [hr] at h1
    injection h1 with h1
    injection h1 with h1
    rw [← h1]

/-- reading the table of the substations -/
theorem substations_read {equipment scols : List Text} {srows : List (List Text)} {ts : List (List Text × Table)}
    (h : Mixed [substationQuery.headers] equipment ts) (hts : (ts.map (·.1)).Nodup) (hstar : ∀ t ∈ ts, ∀ r ∈ t.2.rows, '*' ∉ keyOf r)
    (hs : TableIs ts substationQuery.headers scols srows) :
    ∃ subs, readTables substationQuery equipment = .ok subs ∧ subs.map (·.1) = starred [] (srows.map keyOf) ∧
      List.Forall₂ (fun r p => RowRead substationQuery.attrs scols r p.2) srows subs :=
  one_read ⟨rfl, by decide⟩ h hts hstar hs

/-- A file with sources: each source that is a substation of the equipment, and no other one, gives a source, in order, at its node, with the
voltage of the source or of the source equivalent of its node, the power of its substation and the impedances of the source equivalent. -/
theorem C77_sources_partial {N : Type} [Semiring N] {num : Text → Option N} (hn : BlankFree num) {secs : List (Text × Values)}
    (hsec : ∀ s ∈ secs, FullSection s.2) {network equipment cols ecols scols : List Text} {rows erows srows : List (List Text)}
    {ts ts' : List (List Text × Table)} (h : Mixed [sourceQuery.headers, equivalentQuery.headers] network ts) (hts : (ts.map (·.1)).Nodup)
    (h' : Mixed [substationQuery.headers] equipment ts') (hts' : (ts'.map (·.1)).Nodup)
    (hstar : ∀ t ∈ ts ++ ts', ∀ r ∈ t.2.rows, '*' ∉ keyOf r) (hne : rows ≠ [])
    (hsource : TableIs ts sourceQuery.headers cols rows) (he : TableIs ts equivalentQuery.headers ecols erows)
    (hsubs : TableIs ts' substationQuery.headers scols srows) (hkeys : (rows.map keyOf).Nodup)
    (hrows : ∀ r ∈ rows, (∃ sr ∈ srows, keyOf sr = keyOf r) → ∃ n er z1 z0, Inner cols r "nodeid".toList n ∧ (∃ s ∈ secs, EndsAt s.2 n) ∧
      FirstRow erows n er ∧ Impedances num ecols er z1 z0) :
    ∃ ss, parseSources num secs network equipment = .ok ss ∧
      List.Forall₂ (fun r s => ∃ n er sr, Inner cols r "nodeid".toList n ∧ FirstRow erows n er ∧ FirstRow srows (keyOf r) sr ∧
        SourceOk num cols r ecols er scols sr s) (rows.filter fun r => keyOf r ∈ srows.map keyOf) ss := by
  obtain ⟨d, e, h1, h2, h3⟩ := two_reads h hts fun t ht => hstar t (List.mem_append_left _ ht)
  obtain ⟨subs, h4, h5, h6⟩ := substations_read h' hts' (fun t ht => hstar t (List.mem_append_right _ ht)) hsubs
  obtain ⟨hd1, hd2⟩ := h2 cols rows hsource
  obtain ⟨he1, he2⟩ := h3 ecols erows he
  have hst : ∀ {ts : List (List Text × Table)} {hs cols : List Text} {rows : List (List Text)}, TableIs ts hs cols rows →
      (∀ t ∈ ts, ∀ r ∈ t.2.rows, '*' ∉ keyOf r) → ∀ r ∈ rows, '*' ∉ keyOf r := by
    intro ts hs cols rows hT hall r hr
    rcases hT with hT | ⟨-, rfl⟩
    · exact hall _ hT r hr
    · cases hr
  have hs1 := hst hsource fun t ht => hstar t (List.mem_append_left _ ht)
  have hs2 := hst he fun t ht => hstar t (List.mem_append_left _ ht)
  have hs3 := hst hsubs fun t ht => hstar t (List.mem_append_right _ ht)
  rw [starred_fresh hkeys (done := []) (fun _ _ => List.not_mem_nil)] at hd1
  obtain ⟨ss, h7, h8⟩ := sources_run hn hsec hd2 hd1 he2 he1 h6 h5 (by
    intro r hr
    rcases List.mem_append.mp hr with hr | hr
    · rcases List.mem_append.mp hr with hr | hr
      · exact hs1 r hr
      · exact hs2 r hr
    · exact hs3 r hr) hrows none
  refine ⟨ss, ?_, h8⟩
  unfold parseSources
  rw [h1]
  dsimp only
  rw [h4]
  dsimp only
  unfold sourcesOf
  rw [if_neg (by
    rintro rfl
    rw [List.map_nil] at hd1
    exact hne (List.map_eq_nil_iff.mp hd1.symm))]
  exact h7

/-! ### what is not read -/

theorem buildSource_shape {N : Type} [Semiring N] {num : Text → Option N} {found : Option (Text × Text)} {voltage power : Option N} {d : Option Values}
    {s : SourceRec N} (h : buildSource num found voltage power d = .ok s) :
    s.phases = [] ∧ s.angle = 0 ∧ s.power = power ∧ ∃ n p, found = some (n, p) ∧ s.name = n ++ "_src".toList ∧ s.element = n := by
  unfold buildSource at h
  split at h
  · cases h
  · rename_i n p
    split at h
    · cases h
    · rename_i e
      split at h
      · cases h
      · split at h
        · cases h
        · injection h with h
          subst h
          refine ⟨?_, ?_, rfl, n, p, rfl, rfl, rfl⟩
          · show orElse [] (assignPhases _) = []
            unfold assignPhases
            split <;> rfl
          · dsimp only
            cases getEntry "operatingangle1".toList e <;> rfl

theorem equivalents_shape {N : Type} [Semiring N] {num : Text → Option N} {secs : List (Text × Values)} {d : List (Text × Values)} :
    ∀ {found : Option (Text × Text)} {ss : List (SourceRec N)}, equivalentSources num secs found d = .ok ss →
    ∀ s ∈ ss, s.phases = [] ∧ s.angle = 0 ∧ ∃ p ∈ d, s.power = thousandAt num p.2 "mva".toList := by
  induction d with
  | nil => intro found ss h; injection h with h; subst h; intro s hs; cases hs
  | cons p d ih =>
    intro found ss h
    rw [equivalentSources.eq_def] at h
    dsimp only at h
    split at h
    · cases h
    · split at h
      · intro s hs
        obtain ⟨h1, h2, q, hq, h3⟩ := ih h s hs
        exact ⟨h1, h2, q, List.mem_cons_of_mem _ hq, h3⟩
      · split at h
        · cases h
        · split at h
          · cases h
          · rename_i s hs
            split at h
            · cases h
            · rename_i ss' hss
              injection h with h
              subst h
              obtain ⟨h1, h2, h3, -⟩ := buildSource_shape hs
              intro x hx
              rcases List.mem_cons.mp hx with rfl | hx
              · exact ⟨h1, h2, p, List.mem_cons_self, h3⟩
              · obtain ⟨h4, h5, q, hq, h6⟩ := ih hss x hx
                exact ⟨h4, h5, q, List.mem_cons_of_mem _ hq, h6⟩

theorem sources_shape {N : Type} [Semiring N] {num : Text → Option N} {secs e subs : List (Text × Values)} {d : List (Text × Values)} :
    ∀ {found : Option (Text × Text)} {ss : List (SourceRec N)}, namedSources num secs e subs found d = .ok ss →
    ∀ s ∈ ss, s.phases = [] ∧ s.angle = 0 ∧ ∃ k v, getEntry k subs = some v ∧ s.power = thousandAt num v "mva".toList := by
  induction d with
  | nil => intro found ss h; injection h with h; subst h; intro s hs; cases hs
  | cons p d ih =>
    intro found ss h
    rw [namedSources.eq_def] at h
    dsimp only at h
    split at h
    · exact ih h
    · rename_i sub hsub
      split at h
      · cases h
      · split at h
        · cases h
        · rename_i s hs
          split at h
          · cases h
          · rename_i ss' hss
            injection h with h
            subst h
            obtain ⟨h1, h2, h3, -⟩ := buildSource_shape hs
            intro x hx
            rcases List.mem_cons.mp hx with rfl | hx
            · exact ⟨h1, h2, p.1, sub, hsub, h3⟩
            · exact ih hss x hx

/-- the sources come from the dictionaries of the file -/
theorem parseSources_cases {N : Type} [Semiring N] {num : Text → Option N} {secs : List (Text × Values)} {network equipment : List Text}
    {ss : List (SourceRec N)} (h : parseSources num secs network equipment = .ok ss) :
    ∃ d e subs, readMany [sourceQuery, equivalentQuery] network = .ok [d, e] ∧ readTables substationQuery equipment = .ok subs ∧
      ((d = [] ∧ equivalentSources num secs none e = .ok ss) ∨ (d ≠ [] ∧ namedSources num secs e subs none d = .ok ss)) := by
  unfold parseSources at h
  split at h
  · cases h
  · rename_i ds hds
    split at h
    · cases h
    · rename_i subs hsubs
      split at h
      · rename_i d e
        unfold sourcesOf at h
        refine ⟨d, e, subs, hds, hsubs, ?_⟩
        split at h
        · rename_i hd; exact Or.inl ⟨hd, h⟩
        · rename_i hd; exact Or.inr ⟨hd, h⟩
      · cases h

/-- No source of any file has phases, and all angles are zero: both are given as texts, which the traits refuse. -/
theorem C77_phases_angle_violated {N : Type} [Semiring N] {num : Text → Option N} {secs : List (Text × Values)} {network equipment : List Text}
    {ss : List (SourceRec N)} (h : parseSources num secs network equipment = .ok ss) : ∀ s ∈ ss, s.phases = [] ∧ s.angle = 0 := by
  obtain ⟨d, e, subs, -, -, ⟨-, h⟩ | ⟨-, h⟩⟩ := parseSources_cases h
  · intro s hs
    obtain ⟨h1, h2, -⟩ := equivalents_shape h s hs
    exact ⟨h1, h2⟩
  · intro s hs
    obtain ⟨h1, h2, -⟩ := sources_shape h s hs
    exact ⟨h1, h2⟩

/-- The rated power of a source is not in VA, as in other readers: it is a thousand times the number of MVA. -/
theorem C77_power_unit_violated {num : Text → Option ℚ} {secs : List (Text × Values)} {network equipment : List Text} {subs : List (Text × Values)}
    {ss : List (SourceRec ℚ)} (hsubs : readTables substationQuery equipment = .ok subs) (h : parseSources num secs network equipment = .ok ss)
    (hs : ∃ d e, readMany [sourceQuery, equivalentQuery] network = .ok [d, e] ∧ d ≠ []) :
    ∀ s ∈ ss, ∀ w, s.power = some w → ∃ k v t x, getEntry k subs = some v ∧ getEntry "mva".toList v = some t ∧ num t = some x ∧ w = 1000 * x ∧
      (x ≠ 0 → w ≠ 10 ^ 6 * x) := by
  obtain ⟨d, e, h1, hne⟩ := hs
  obtain ⟨d', e', subs', h1', hsubs', hc⟩ := parseSources_cases h
  rw [h1] at h1'
  injection h1' with h1'
  injection h1' with hd _
  rw [hsubs] at hsubs'
  injection hsubs' with hsubs'
  subst hd; subst hsubs'
  rcases hc with ⟨hc, -⟩ | ⟨-, hc⟩
  · exact absurd hc hne
  · intro s hs w hw
    obtain ⟨-, -, k, v, hk, hp⟩ := sources_shape hc s hs
    rw [hw] at hp
    unfold thousandAt floatAt at hp
    cases ht : getEntry "mva".toList v with
    | none => rw [ht] at hp; cases hp
    | some t =>
      rw [ht] at hp
      dsimp only at hp
      cases hx : num t with
      | none => rw [hx] at hp; cases hp
      | some x =>
        rw [hx] at hp
        injection hp with hp
        have hp : w = 1000 * x := hp
        refine ⟨k, v, t, x, hk, ht, hx, hp, fun hx0 he => hx0 ?_⟩
        rw [hp] at he
        linarith

/-- A source equivalent has no rated power, even if the file gives a base power. -/
theorem C77_power_violated {N : Type} [Semiring N] {num : Text → Option N} {secs : List (Text × Values)} {network equipment cols : List Text}
    {rows : List (List Text)} {ts : List (List Text × Table)} (hm : Mixed [sourceQuery.headers, equivalentQuery.headers] network ts)
    (hts : (ts.map (·.1)).Nodup) (hstar : ∀ t ∈ ts, ∀ r ∈ t.2.rows, '*' ∉ keyOf r) (hsource : ∀ t ∈ ts, t.1 ≠ sourceQuery.headers)
    (he : TableIs ts equivalentQuery.headers cols rows) {ss : List (SourceRec N)} (h : parseSources num secs network equipment = .ok ss) :
    ∀ s ∈ ss, s.power = none := by
  obtain ⟨d, e, h1, h2, h3⟩ := two_reads hm hts hstar
  obtain ⟨d', e', subs, h1', -, hc⟩ := parseSources_cases h
  rw [h1] at h1'
  injection h1' with h1'
  injection h1' with hd he'
  injection he' with he' _
  subst hd; subst he'
  obtain rfl : d = [] := List.forall₂_nil_left_iff.mp (h2 [] [] (Or.inr ⟨hsource, rfl⟩)).2
  rcases hc with ⟨-, hc⟩ | ⟨hc, -⟩
  · intro s hs
    obtain ⟨-, -, p, hp, hpow⟩ := equivalents_shape hc s hs
    rw [hpow]
    have hread : ∃ r, RowRead equivalentQuery.attrs cols r p.2 := by
      have hf := (h3 cols rows he).2
      clear h1 h2 h3 hc hs he
      induction hf with
      | nil => cases hp
      | cons hx _ ih =>
        rcases List.mem_cons.mp hp with rfl | hp
        · exact ⟨_, hx⟩
        · exact ih hp
    obtain ⟨r, hr⟩ := hread
    have : getEntry "mva".toList p.2 = none := hasCells_none (hasCells_read hr []) fun hh => absurd hh.1 (by decide)
    unfold thousandAt floatAt
    rw [this]
    rfl
  · exact absurd rfl hc

/-- Sources that are not substations of the equipment are left out: if none of them is, the model has no source, even if there are source equivalents
for their nodes. -/
theorem C77_not_substations_violated {N : Type} [Semiring N] (num : Text → Option N) (secs : List (Text × Values))
    {network equipment cols : List Text} {rows : List (List Text)} {ts ts' : List (List Text × Table)}
    (h : Mixed [sourceQuery.headers, equivalentQuery.headers] network ts) (hts : (ts.map (·.1)).Nodup)
    (h' : Mixed [substationQuery.headers] equipment ts') (hts' : (ts'.map (·.1)).Nodup)
    (hstar : ∀ t ∈ ts ++ ts', ∀ r ∈ t.2.rows, '*' ∉ keyOf r) (hne : rows ≠ []) (hsource : TableIs ts sourceQuery.headers cols rows)
    (hkeys : (rows.map keyOf).Nodup) (hnone : ∀ t ∈ ts', ∀ sr ∈ t.2.rows, ∀ r ∈ rows, keyOf sr ≠ keyOf r) :
    parseSources num secs network equipment = .ok [] := by
  obtain ⟨d, e, h1, h2, h3⟩ := two_reads h hts fun t ht => hstar t (List.mem_append_left _ ht)
  obtain ⟨hd1, hd2⟩ := h2 cols rows hsource
  rw [starred_fresh hkeys (done := []) (fun _ _ => List.not_mem_nil)] at hd1
  have hsubs : ∃ scols srows, TableIs ts' substationQuery.headers scols srows ∧ ∀ sr ∈ srows, ∃ t ∈ ts', sr ∈ t.2.rows := by
    by_cases hex : ∃ t ∈ ts', t.1 = substationQuery.headers
    · obtain ⟨⟨hs, t⟩, ht, rfl⟩ := hex
      exact ⟨t.cols, t.rows, Or.inl ht, fun sr hsr => ⟨_, ht, hsr⟩⟩
    · exact ⟨[], [], Or.inr ⟨fun t ht he => hex ⟨t, ht, he⟩, rfl⟩, fun _ hm => nomatch hm⟩
  obtain ⟨scols, srows, hT, hmem⟩ := hsubs
  obtain ⟨subs, h4, h5, h6⟩ := substations_read h' hts' (fun t ht => hstar t (List.mem_append_right _ ht)) hT
  have hrs : ∀ r ∈ rows, '*' ∉ keyOf r := by
    rcases hsource with hs | ⟨-, rfl⟩
    · exact fun r hr => hstar _ (List.mem_append_left _ hs) r hr
    · exact absurd rfl hne
  have hnosub : ∀ p ∈ d, getEntry p.1 subs = none := by
    intro p hp
    have : p.1 ∈ rows.map keyOf := by rw [← hd1]; exact List.mem_map.mpr ⟨p, hp, rfl⟩
    obtain ⟨r, hr, hre⟩ := List.mem_map.mp this
    rw [← hre]
    refine (first_starred h6 (hrs r hr) ?_ [] (by simp) h5).2 ?_
    · intro sr hsr
      obtain ⟨t, ht, hm⟩ := hmem sr hsr
      exact hstar t (List.mem_append_right _ ht) sr hm
    · intro sr hsr
      obtain ⟨t, ht, hm⟩ := hmem sr hsr
      exact hnone t ht sr hm r hr
  have hrun : ∀ (d : List (Text × Values)) (found : Option (Text × Text)), (∀ p ∈ d, getEntry p.1 subs = none) →
      namedSources num secs e subs found d = .ok [] := by
    intro d
    induction d with
    | nil => intro found _; rfl
    | cons p d ih =>
      intro found hall
      rw [namedSources, hall p List.mem_cons_self]
      exact ih found fun q hq => hall q (List.mem_cons_of_mem _ hq)
  unfold parseSources
  rw [h1]
  dsimp only
  rw [h4]
  dsimp only
  unfold sourcesOf
  rw [if_neg (by
    rintro rfl
    rw [List.map_nil] at hd1
    exact hne (List.map_eq_nil_iff.mp hd1.symm))]
  exact hrun d none hnosub

/-- A source at a node that no section has ends the reading with an error if it is the first one; otherwise it gets the name and the node of the
source before. -/
theorem C77_no_section_violated {N : Type} [Semiring N] {num : Text → Option N} {secs : List (Text × Values)} (hsec : ∀ s ∈ secs, FullSection s.2)
    {p : Text × Values} {n m : Text} (hm : getEntry "loadmodelname".toList p.2 = some m) (hdef : m.map Char.toLower = "default".toList)
    (hnode : getEntry "nodeid".toList p.2 = some n) (hno : ∀ s ∈ secs, ¬EndsAt s.2 n) (d : List (Text × Values)) :
    equivalentSources num secs none (p :: d) = .error .unboundLocalError ∧
    ∀ n' ph ss, equivalentSources num secs (some (n', ph)) (p :: d) = .ok ss → ∃ s rest, ss = s :: rest ∧ s.name = n' ++ "_src".toList ∧ s.element = n' := by
  have hend := fun found => (sectionEnds_found (n := n) hsec found).2 hno
  constructor
  · rw [equivalentSources, hm]
    dsimp only
    rw [if_neg (by rw [not_not]; exact hdef), hnode, hend]
    rfl
  · intro n' ph ss h
    rw [equivalentSources, hm] at h
    dsimp only at h
    rw [if_neg (by rw [not_not]; exact hdef), hnode, hend] at h
    dsimp only at h
    split at h
    · cases h
    · rename_i s hs
      split at h
      · cases h
      · rename_i rest _
        injection h with h
        obtain ⟨-, -, -, n'', p'', he, h1, h2⟩ := buildSource_shape hs
        injection he with he
        injection he with he1 he2
        subst he1
        exact ⟨s, rest, h.symm, h1, h2⟩

/-- A source that is a substation, at a node without source equivalent, ends the reading with an error. -/
theorem C77_no_equivalent {N : Type} [Semiring N] {num : Text → Option N} {secs equivalents subs : List (Text × Values)}
    (hsec : ∀ s ∈ secs, FullSection s.2) {p : Text × Values} {n : Text} {sub : Values} (hsub : getEntry p.1 subs = some sub)
    (hnode : getEntry "nodeid".toList p.2 = some n) (hin : ∃ s ∈ secs, EndsAt s.2 n) (hno : getEntry n equivalents = none)
    (found : Option (Text × Text)) (d : List (Text × Values)) :
    namedSources num secs equivalents subs found (p :: d) = .error .typeError := by
  obtain ⟨ph, hph⟩ := (sectionEnds_found hsec found).1 hin
  have he : equivalentOf equivalents p.2 = none := by
    unfold equivalentOf
    rw [hnode]
    exact hno
  rw [namedSources, hsub]
  dsimp only
  rw [hnode, hph]
  dsimp only
  rw [he]
  rfl

/-! ### headers -/

/-- C73 (violated). After the headers are changed with `update_header_mapping`, whatever the change is, every kind of object that is not in it can
no longer be looked for: all headers are lists in lists. -/
theorem C73_update_headers_violated {mapping : List (Text × List HeaderItem)} {update : List (Text × Text)} {obj : Text} {l : List HeaderItem}
    (hm : getEntry obj mapping = some l) (hu : getEntry obj update = none) (line : Text) :
    checkObject (updateHeaders mapping update) obj line = .error .typeError := by
  have hget : getEntry obj (updateHeaders mapping update) = some [.items l] := by
    unfold updateHeaders
    induction mapping with
    | nil => cases hm
    | cons p mapping ih =>
      have h1 : ∀ {V : Type} (q : Text × V) (m : List (Text × V)), getEntry obj (q :: m) = if q.1 = obj then some q.2 else getEntry obj m := by
        intro V q m
        rw [getEntry_find, getEntry_find, List.find?_cons]
        by_cases hn : q.1 = obj
        · rw [if_pos hn, decide_eq_true hn]; rfl
        · rw [if_neg hn, decide_eq_false hn]
      rw [h1] at hm
      rw [List.map_cons, h1]
      dsimp only
      by_cases hp : p.1 = obj
      · rw [if_pos hp] at hm ⊢
        injection hm with hm
        rw [hp, hu, hm]
      · rw [if_neg hp] at hm ⊢
        exact ih hm
  unfold checkObject
  rw [hget]
  rfl

/-- C73. An object that gets a new header is found by it. -/
theorem C73_update_headers {mapping : List (Text × List HeaderItem)} {update : List (Text × Text)} {obj header : Text} {l : List HeaderItem}
    (hm : getEntry obj mapping = some l) (hu : getEntry obj update = some header) (hnew : hasText header l = false) (line : Text) :
    ∃ b, checkObject (updateHeaders mapping update) obj line = .ok b ∧ (b = true ↔ header <:+: line) := by
  have hget : getEntry obj (updateHeaders mapping update) = some [.text header] := by
    unfold updateHeaders
    induction mapping with
    | nil => cases hm
    | cons p mapping ih =>
      have h1 : ∀ {V : Type} (q : Text × V) (m : List (Text × V)), getEntry obj (q :: m) = if q.1 = obj then some q.2 else getEntry obj m := by
        intro V q m
        rw [getEntry_find, getEntry_find, List.find?_cons]
        by_cases hn : q.1 = obj
        · rw [if_pos hn, decide_eq_true hn]; rfl
        · rw [if_neg hn, decide_eq_false hn]
      rw [h1] at hm
      rw [List.map_cons, h1]
      dsimp only
      by_cases hp : p.1 = obj
      · rw [if_pos hp] at hm ⊢
        injection hm with hm
        rw [hp, hu, hm]
        dsimp only
        rw [hnew]
        rfl
      · rw [if_neg hp] at hm ⊢
        exact ih hm
  refine ⟨inText header line || false, ?_, ?_⟩
  · unfold checkObject
    rw [hget]
    rfl
  · rw [Bool.or_false, inText_iff]

/-! ### cases that meet the hypotheses -/

theorem ex_format {line name e : Text} {cols : List Text} (h1 : cols ≠ []) (h2 : ∀ c ∈ cols, ',' ∉ c ∧ '=' ∉ c ∧ '\n' ∉ c ∧ '\r' ∉ c) (h3 : Eol e)
    (h4 : '=' ∉ name) (h5 : inText "format".toList (lower name) = true) (h6 : line = name ++ '=' :: (joinCells cols ++ e)) : FormatLine line cols :=
  ⟨h1, h2, name, e, h3, h4, (inText_iff _ _).mp h5, h6⟩

theorem inner_at {cols row : List Text} {k c : Text} (i : Nat) (h1 : (cols[i]?).map (List.map Char.toLower) = some k) (h2 : row[i]? = some c)
    (h3 : k ∉ (cols.drop (i + 1)).map (List.map Char.toLower)) (h4 : i + 1 < row.length) : Inner cols row k c := by
  refine ⟨i, ⟨h1, ?_⟩, h2, h4⟩
  intro j hj he
  apply h3
  rw [List.mem_iff_getElem?]
  refine ⟨j - (i + 1), ?_⟩
  rw [List.getElem?_map, List.getElem?_drop, show i + 1 + (j - (i + 1)) = j by omega]
  exact he

theorem no_cell {cols row : List Text} {k : Text} (h : k ∉ cols.map (List.map Char.toLower)) : ¬∃ c, Cell cols row k c := by
  rintro ⟨c, i, hi, -⟩
  apply h
  rw [List.mem_iff_getElem?]
  exact ⟨i, by rw [List.getElem?_map]; exact hi.1⟩

/-- source equivalents of two load models -/
def equivalentFile : List Text :=
  ["[SOURCE EQUIVALENT]\n".toList, "FORMAT_SOURCEEQUIVALENT=NodeID,LoadModelName,Voltage,FirstLevelR1,FirstLevelX1,FirstLevelR0,FirstLevelX0\n".toList,
    "N1,DEFAULT,4,1,2,3,4\n".toList, "N1,Peak,5,1,2,3,4\n".toList, "\n".toList]

def equivalentCols : List Text :=
  ["NodeID".toList, "LoadModelName".toList, "Voltage".toList, "FirstLevelR1".toList, "FirstLevelX1".toList, "FirstLevelR0".toList, "FirstLevelX0".toList]

def equivalentRow (m v : Text) : List Text := ["N1".toList, m, v, "1".toList, "2".toList, "3".toList, "4".toList]

def equivalentRows : List (List Text) := [equivalentRow "DEFAULT".toList "4".toList, equivalentRow "Peak".toList "5".toList]

/-- the same with a source -/
def sourceFile : List Text :=
  "[SOURCE]\n".toList :: "FORMAT_SOURCE=SourceID,NodeID,NetworkID,DesiredVoltage\n".toList :: (["S1,N1,Net,7\n".toList] ++ "\n".toList :: equivalentFile)

def sourceCols : List Text := ["SourceID".toList, "NodeID".toList, "NetworkID".toList, "DesiredVoltage".toList]

def sourceRows : List (List Text) := [["S1".toList, "N1".toList, "Net".toList, "7".toList]]

def substationFile : List Text := ["[SUBSTATION]\n".toList, "FORMAT_SUBSTATION=ID,MVA,KVLL\n".toList, "S1,5,6\n".toList, "\n".toList]

def oneSection : List (Text × Values) :=
  [("s1".toList, [("fromnodeid".toList, "N1".toList), ("tonodeid".toList, "N2".toList), ("phase".toList, "ABC".toList)])]

theorem oneSection_full : ∀ s ∈ oneSection, FullSection s.2 := by
  intro s hs
  rw [List.mem_singleton.mp hs]
  exact ⟨⟨_, rfl⟩, ⟨_, rfl⟩, _, rfl⟩

theorem equivalentFile_mixed : Mixed [sourceQuery.headers, equivalentQuery.headers] equivalentFile
    [(equivalentQuery.headers, ⟨equivalentCols, equivalentRows⟩)] := by
  refine Mixed.table (lines := ["N1,DEFAULT,4,1,2,3,4\n".toList, "N1,Peak,5,1,2,3,4\n".toList]) (blank := "\n".toList) (by decide)
    ((isHeader_iff _ _).mp (by decide)) ?_
    (ex_format (name := "FORMAT_SOURCEEQUIVALENT".toList) (e := ['\n']) (by decide) (by decide) (Or.inr (Or.inl rfl)) (by decide) (by decide) (by decide))
    (.cons (ex_row (e := ['\n']) (by decide) (by decide) (Or.inr (Or.inl rfl)) (by decide) (by decide))
      (.cons (ex_row (e := ['\n']) (by decide) (by decide) (Or.inr (Or.inl rfl)) (by decide) (by decide)) .nil)) (by decide) .nil
  intro hs hm hh
  rcases List.mem_cons.mp hm with rfl | hm
  · exact absurd ((isHeader_iff _ _).mpr hh) (by decide)
  · exact List.mem_singleton.mp hm

theorem sourceFile_mixed : Mixed [sourceQuery.headers, equivalentQuery.headers] sourceFile
    [(sourceQuery.headers, ⟨sourceCols, sourceRows⟩), (equivalentQuery.headers, ⟨equivalentCols, equivalentRows⟩)] := by
  refine Mixed.table (lines := ["S1,N1,Net,7\n".toList]) (blank := "\n".toList) (by decide) ((isHeader_iff _ _).mp (by decide)) ?_
    (ex_format (name := "FORMAT_SOURCE".toList) (e := ['\n']) (by decide) (by decide) (Or.inr (Or.inl rfl)) (by decide) (by decide) (by decide))
    (.cons (ex_row (e := ['\n']) (by decide) (by decide) (Or.inr (Or.inl rfl)) (by decide) (by decide)) .nil) (by decide) equivalentFile_mixed
  intro hs hm hh
  rcases List.mem_cons.mp hm with rfl | hm
  · rfl
  · obtain rfl := List.mem_singleton.mp hm
    exact absurd ((isHeader_iff _ _).mpr hh) (by decide)

theorem substationFile_mixed : Mixed [substationQuery.headers] substationFile
    [(substationQuery.headers, ⟨["ID".toList, "MVA".toList, "KVLL".toList], [["S1".toList, "5".toList, "6".toList]]⟩)] := by
  refine Mixed.table (lines := ["S1,5,6\n".toList]) (blank := "\n".toList) (by decide) ((isHeader_iff _ _).mp (by decide))
    (fun hs hm _ => List.mem_singleton.mp hm)
    (ex_format (name := "FORMAT_SUBSTATION".toList) (e := ['\n']) (by decide) (by decide) (Or.inr (Or.inl rfl)) (by decide) (by decide) (by decide))
    (.cons (ex_row (e := ['\n']) (by decide) (by decide) (Or.inr (Or.inl rfl)) (by decide) (by decide)) .nil) (by decide) .nil

theorem equivalentRow_impedances (m v : Text) : Impedances digitOf equivalentCols (equivalentRow m v) (1, 2) (3, 4) := by
  refine ⟨⟨fun h => absurd h (no_cell (by decide)), fun _ => ?_⟩, fun h => absurd h (no_cell (by decide)), fun _ => ?_⟩
  · exact ⟨⟨_, cell_at 3 (by decide) rfl (by decide), by decide⟩, _, cell_at 4 (by decide) rfl (by decide), by decide⟩
  · exact ⟨⟨_, cell_at 5 (by decide) rfl (by decide), by decide⟩, _, cell_at 6 (by decide) rfl (by decide), by decide⟩

example : ∃ ss, parseSources digitOf oneSection equivalentFile substationFile = .ok ss ∧
    List.Forall₂ (EquivalentOk digitOf equivalentCols) [equivalentRow "DEFAULT".toList "4".toList] ss := by
  refine C77_equivalents_partial (isd := fun r => decide (r[1]? = some "DEFAULT".toList)) (rows := equivalentRows) (equipment := substationFile) (subs := [("S1".toList,
    [("id".toList, "S1".toList), ("mva".toList, "5".toList), ("kvll".toList, "6\n".toList)])]) digitOf_blank oneSection_full equivalentFile_mixed
    (by decide) (by decide) (by decide) (Or.inl List.mem_cons_self) (by decide +kernel) ?_ ?_
  · intro r hr
    rcases List.mem_cons.mp hr with rfl | hr
    · exact ⟨_, inner_at 1 (by decide) rfl (by decide) (by decide), by decide⟩
    · rw [List.mem_singleton.mp hr]
      exact ⟨_, inner_at 1 (by decide) rfl (by decide) (by decide), by decide⟩
  · intro r hr _
    rcases List.mem_cons.mp hr with rfl | hr
    · exact ⟨⟨"N1".toList, inner_at 0 (by decide) rfl (by decide) (by decide), _, List.mem_cons_self, Or.inl rfl⟩, _, _, equivalentRow_impedances _ _⟩
    · rw [List.mem_singleton.mp hr]
      exact ⟨⟨"N1".toList, inner_at 0 (by decide) rfl (by decide) (by decide), _, List.mem_cons_self, Or.inl rfl⟩, _, _, equivalentRow_impedances _ _⟩

example : ∃ ss, parseSources digitOf oneSection sourceFile substationFile = .ok ss ∧ ss.length = 1 := by
  obtain ⟨ss, h1, h2⟩ := C77_sources_partial (erows := equivalentRows) (rows := sourceRows) digitOf_blank oneSection_full sourceFile_mixed (by decide)
    substationFile_mixed (by decide) (by decide) (by decide) (Or.inl List.mem_cons_self) (Or.inl (List.mem_cons_of_mem _ List.mem_cons_self))
    (Or.inl List.mem_cons_self) (by decide) (by
      intro r hr _
      rw [List.mem_singleton.mp hr]
      exact ⟨"N1".toList, equivalentRow "DEFAULT".toList "4".toList, _, _, inner_at 1 (by decide) rfl (by decide) (by decide),
        ⟨_, List.mem_cons_self, Or.inl rfl⟩, by unfold FirstRow; decide, equivalentRow_impedances _ _⟩)
  exact ⟨ss, h1, h2.length_eq.symm⟩

/-- what is read: the voltage of the source in V, the power of the substation (5 MVA) in thousands, no phases -/
example : parseSources digitOf oneSection sourceFile substationFile =
    .ok [⟨"N1_src".toList, some 7000, [], some 5000, 0, (1, 2), (3, 4), "N1".toList⟩] := by
  decide +kernel

example : parseSources digitOf oneSection sourceFile ["[SUBSTATION]\n".toList, "FORMAT_SUBSTATION=ID,MVA,KVLL\n".toList, "S2,5,6\n".toList] = .ok [] := by
  refine C77_not_substations_violated (rows := sourceRows) (ts' := [(substationQuery.headers, ⟨["ID".toList, "MVA".toList, "KVLL".toList],
    [["S2".toList, "5".toList, "6".toList]]⟩)]) digitOf oneSection sourceFile_mixed (by decide)
    (Mixed.last (lines := ["S2,5,6\n".toList]) (by decide) ((isHeader_iff _ _).mp (by decide)) (fun hs hm _ => List.mem_singleton.mp hm)
      (ex_format (name := "FORMAT_SUBSTATION".toList) (e := ['\n']) (by decide) (by decide) (Or.inr (Or.inl rfl)) (by decide) (by decide) (by decide))
      (.cons (ex_row (e := ['\n']) (by decide) (by decide) (Or.inr (Or.inl rfl)) (by decide) (by decide)) .nil) (by decide))
    (by decide) (by decide) (by decide) (Or.inl List.mem_cons_self) (by decide) (by decide)

example : checkObject (updateHeaders [("node".toList, [.text "[NODE]".toList]), ("source".toList, [.text "[SOURCE]".toList])]
    [("node".toList, "[NODES]".toList)]) "source".toList "[SOURCE]\n".toList = .error .typeError := C73_update_headers_violated rfl rfl _

end Ditto.Cyme
