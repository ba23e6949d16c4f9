import Verif.Lemmas.CymeNodes
import Verif.Lemmas.DssRegs
import Verif.Props.OpenClose

/-! C76: header, head nodes and nodes of CYME files; and rows with the same first cell (C73). -/
namespace Ditto.Cyme
open Ditto Glm Cyme.Spec

/-- C73. Rows of a table with the same first cell are all kept: the second one gets a star at the end of its key, the third one two, and so on. -/
theorem C73_repeated_rows {headers attrs : List Text} {mapping : List (Text × Nat)} (ha : attrs.Nodup) {content cols : List Text}
    {rows : List (List Text)} (h : OneTable headers content cols rows) (hs : ∀ r ∈ rows, '*' ∉ keyOf r) :
    ∃ d, readTables (plainQuery headers attrs mapping) content = .ok d ∧ d.map (·.1) = starred [] (rows.map keyOf) ∧
      List.Forall₂ (fun row p => Entry attrs (cols, row) (keyOf row, p.2)) rows d :=
  oneTable_read (q := plainQuery headers attrs mapping) rfl ha h hs

/-! ### header -/

theorem headerUnits_other {line : Text} (h1 : ¬Mentions "[si]".toList line) (h2 : ¬Mentions "[imperial]".toList line) (si : Option Bool) :
    headerUnits si line = si := by
  unfold headerUnits
  rw [if_neg (fun h => h2 ((inText_iff _ (lower line)).mp h)), if_neg (fun h => h1 ((inText_iff _ (lower line)).mp h))]

theorem headerLines_units {content : List Text} (hv : ∀ l ∈ content, ¬Mentions "cyme_version".toList l) : ∀ v : HeaderVars,
    headerLines v content = .ok { v with si := content.foldl headerUnits v.si } := by
  induction content with
  | nil => intro v; rfl
  | cons l content ih =>
    intro v
    have hl : headerVersion v l = .ok v := by
      unfold headerVersion
      rw [if_neg (fun h => hv l List.mem_cons_self ((inText_iff _ (lower l)).mp h))]
    rw [headerLines, hl]
    dsimp only
    rw [ih fun x hx => hv x (List.mem_cons_of_mem _ hx)]
    rfl

theorem headerLines_append (a b : List Text) : ∀ v, headerLines v (a ++ b) = match headerLines v a with
    | .error e => .error e
    | .ok v' => headerLines v' b := by
  induction a with
  | nil => intro v; rfl
  | cons l a ih =>
    intro v
    rw [List.cons_append, headerLines, headerLines]
    cases headerVersion v l with
    | error e => rfl
    | ok v' => exact ih _

theorem foldl_units (content : List Text) (hu : ∀ l ∈ content, ¬Mentions "[si]".toList l ∧ ¬Mentions "[imperial]".toList l) (si : Option Bool) :
    content.foldl headerUnits si = si := by
  induction content generalizing si with
  | nil => rfl
  | cons l content ih =>
    rw [List.foldl_cons, headerUnits_other (hu l List.mem_cons_self).1 (hu l List.mem_cons_self).2]
    exact ih (fun x hx => hu x (List.mem_cons_of_mem _ hx)) si

theorem headerVersion_line {line version : Text} (h : VersionLine line version) (v : HeaderVars) :
    headerVersion v line = match splitVersion v.bound version with
      | .error e => .error e
      | .ok b => .ok { v with version := some version, bound := b } := by
  obtain ⟨hm, a, e, ha, hv, hs, he, rfl⟩ := h
  unfold headerVersion
  rw [if_pos ((inText_iff _ (lower _)).mpr hm)]
  have hver : versionIn v.version (a ++ '=' :: (version ++ e)) = some version := by
    unfold versionIn
    have hsplit : Net.splitCh '=' (a ++ '=' :: (version ++ e)) = [a, version ++ e] := by
      rw [Net.splitCh_append ha, Net.splitCh_not_mem]
      rw [List.mem_append, not_or]
      exact ⟨hv, (eol_plain he).2⟩
    rw [hsplit]
    dsimp only
    rw [strip_blank (eol_blank he), hs]
  rw [hver]
  rfl

/-- The units are those of the last line that gives some, imperial if it gives both; the version is the one that the file states, if it has at
most one dot. -/
theorem C76_header_partial {pre mid post : List Text} {vline version uline : Text} (hvl : VersionLine vline version)
    (hdots : version.count '.' ≤ 1)
    (hv : ∀ l ∈ pre ++ mid ++ uline :: post, ¬Mentions "cyme_version".toList l)
    (hu : Mentions "[si]".toList uline ∨ Mentions "[imperial]".toList uline)
    (hpost : ∀ l ∈ post, ¬Mentions "[si]".toList l ∧ ¬Mentions "[imperial]".toList l) :
    ∃ si, parseHeader (pre ++ vline :: (mid ++ uline :: post)) = .ok (some version, si) ∧ (si = false ↔ Mentions "[imperial]".toList uline) := by
  have hsplit : splitVersion false version = .ok ('.' ∈ version) := by
    unfold splitVersion
    by_cases hd : '.' ∈ version
    · have h2 : (Net.splitCh '.' version).length = 2 := by
        have hc : version.count '.' = 1 := by have := List.count_pos_iff.mpr hd; omega
        obtain ⟨a, b, rfl, ha⟩ := List.eq_append_cons_of_mem hd
        rw [List.count_append, List.count_cons_self] at hc
        rw [Net.splitCh_append ha, Net.splitCh_not_mem]
        · rfl
        · exact List.count_eq_zero.mp (by omega)
      rw [if_pos hd, if_pos h2, decide_eq_true hd]
    · rw [if_neg hd, decide_eq_false hd]
  unfold parseHeader
  rw [headerLines_append, headerLines_units (fun l hl => hv l (by simp [hl]))]
  dsimp only
  rw [headerLines, headerVersion_line hvl]
  dsimp only
  rw [hsplit]
  dsimp only
  rw [headerLines_units (fun l hl => hv l (by
    rcases List.mem_append.mp hl with h | h
    · simp [h]
    · exact List.mem_append_right _ h))]
  dsimp only
  rw [List.foldl_append, List.foldl_cons, foldl_units post hpost]
  by_cases hi : Mentions "[imperial]".toList uline
  · refine ⟨false, ?_, fun _ => hi, fun _ => rfl⟩
    unfold headerUnits
    rw [if_pos ((inText_iff _ (lower uline)).mpr hi)]
  · refine ⟨true, ?_, (fun h => nomatch h), fun h => absurd h hi⟩
    unfold headerUnits
    rw [if_neg (fun h => hi ((inText_iff _ (lower uline)).mp h)), if_pos ((inText_iff _ (lower uline)).mpr (hu.resolve_right hi))]

/-- A file without units is refused. -/
theorem C76_no_units {content : List Text} (hv : ∀ l ∈ content, ¬Mentions "cyme_version".toList l)
    (hu : ∀ l ∈ content, ¬Mentions "[si]".toList l ∧ ¬Mentions "[imperial]".toList l) : parseHeader content = .error .valueError := by
  unfold parseHeader
  rw [headerLines_units hv]
  dsimp only
  rw [foldl_units content hu]

/-- A version with two dots, like 8.2.1, ends the reading with an error, whatever the rest of the file is. -/
theorem C76_version_violated {pre : List Text} (hv : ∀ l ∈ pre, ¬Mentions "cyme_version".toList l) {vline version : Text}
    (hvl : VersionLine vline version) (hdots : 2 ≤ version.count '.') (post : List Text) :
    parseHeader (pre ++ vline :: post) = .error .unboundLocalError := by
  have hlen : (Net.splitCh '.' version).length ≠ 2 := by
    have hd : '.' ∈ version := List.count_pos_iff.mp (by omega)
    obtain ⟨a, b, rfl, ha⟩ := List.eq_append_cons_of_mem hd
    rw [List.count_append, List.count_cons_self, List.count_eq_zero.mpr ha] at hdots
    have hb : '.' ∈ b := List.count_pos_iff.mp (by omega)
    obtain ⟨c, d, rfl, hc⟩ := List.eq_append_cons_of_mem hb
    rw [Net.splitCh_append ha, Net.splitCh_append hc]
    have := List.length_pos_of_ne_nil (Net.splitCh_ne_nil '.' d)
    simp only [List.length_cons]
    omega
  have hsplit : splitVersion false version = .error .unboundLocalError := by
    unfold splitVersion
    rw [if_pos (List.count_pos_iff.mp (by omega)), if_neg hlen]
    rfl
  unfold parseHeader
  rw [headerLines_append, headerLines_units hv]
  dsimp only
  rw [headerLines, headerVersion_line hvl]
  dsimp only
  rw [hsplit]

/-! ### head nodes -/

theorem hasCells_get {attrs cols row : List Text} {p : Text × Values} (h : HasCells attrs cols row p) {k c : Text} (hk : k ∈ attrs)
    (hc : Cell cols row k c) : ∃ v, getEntry k p.2 = some v ∧ Same v c := by
  obtain ⟨v, c', h1, h2, h3⟩ := (h.2 k).1 ⟨hk, c, hc⟩
  obtain ⟨i, hi, hi2⟩ := h2
  obtain ⟨j, hj, hj2⟩ := hc
  have hij : i = j := by
    by_contra hne
    rcases Nat.lt_or_gt_of_ne hne with hlt | hlt
    · exact hi.2 j hlt hj.1
    · exact hj.2 i hlt hi.1
  subst hij
  rw [hi2] at hj2
  injection hj2 with hj2
  subst hj2
  exact ⟨v, h1, h3⟩

theorem hasCells_none {attrs cols row : List Text} {p : Text × Values} (h : HasCells attrs cols row p) {k : Text}
    (hc : ¬(k ∈ attrs ∧ ∃ c, Cell cols row k c)) : getEntry k p.2 = none := (h.2 k).2 hc

/-- the network and the node of a row -/
def HeadRow (cols row : List Text) (f : FeederRec) : Prop :=
  ∃ a b, Cell cols row "networkid".toList a ∧ Cell cols row "nodeid".toList b ∧ f.name = (Net.pyStrip a).map Char.toLower ∧
    f.headnode = (Net.pyStrip b).map Char.toLower

theorem headNodes_rows {cols : List Text} {rows : List (List Text)} {d : List (Text × Values)} (h : List.Forall₂ (HasCells headQuery.attrs cols) rows d)
    (hc : ∀ r ∈ rows, (∃ a, Cell cols r "networkid".toList a) ∧ ∃ b, Cell cols r "nodeid".toList b) :
    ∃ fs, headNodes d = .ok fs ∧ List.Forall₂ (HeadRow cols) rows fs := by
  induction h with
  | nil => exact ⟨[], rfl, .nil⟩
  | @cons r p rows d hp _ ih =>
    obtain ⟨fs, h1, h2⟩ := ih fun x hx => hc x (List.mem_cons_of_mem _ hx)
    obtain ⟨⟨a, ha⟩, b, hb⟩ := hc r List.mem_cons_self
    obtain ⟨v, hv, hva⟩ := hasCells_get hp (by decide) ha
    obtain ⟨w, hw, hwb⟩ := hasCells_get hp (by decide) hb
    refine ⟨⟨lower (Net.pyStrip v), lower (Net.pyStrip w)⟩ :: fs, ?_, .cons ⟨a, b, ha, hb, ?_, ?_⟩ h2⟩
    · rw [headNodes]
      have : headNode p.2 = .ok ⟨lower (Net.pyStrip v), lower (Net.pyStrip w)⟩ := by
        unfold headNode
        rw [hv, hw]
      rw [this, h1]
    · show lower (Net.pyStrip v) = _
      rw [show Net.pyStrip v = Net.pyStrip a from hva]; rfl
    · show lower (Net.pyStrip w) = _
      rw [show Net.pyStrip w = Net.pyStrip b from hwb]; rfl

/-- Each row of the head nodes gives one feeder, in order, with its name and its head node, in lower case and without blanks at the ends. -/
theorem C76_head_nodes {content cols : List Text} {rows : List (List Text)} (h : OneTable headQuery.headers content cols rows)
    (hs : ∀ r ∈ rows, '*' ∉ keyOf r)
    (hc : ∀ r ∈ rows, (∃ a, Cell cols r "networkid".toList a) ∧ ∃ b, Cell cols r "nodeid".toList b) :
    ∃ fs, parseHeadNodes content = .ok fs ∧ List.Forall₂ (HeadRow cols) rows fs := by
  obtain ⟨d, h1, -, h3⟩ := oneTable_read (q := headQuery) rfl (by decide) h hs
  obtain ⟨fs, h4, h5⟩ := headNodes_rows h3 hc
  refine ⟨fs, ?_, h5⟩
  unfold parseHeadNodes
  rw [h1]
  exact h4

/-- A row of the head nodes that is too short ends the reading with an error. -/
theorem C76_head_nodes_missing {content cols : List Text} {row : List Text} (h : OneTable headQuery.headers content cols [row])
    (hs : '*' ∉ keyOf row) (hc : (¬∃ a, Cell cols row "networkid".toList a) ∨ ¬∃ b, Cell cols row "nodeid".toList b) :
    parseHeadNodes content = .error .keyError := by
  obtain ⟨d, h1, -, h3⟩ := oneTable_read (q := headQuery) rfl (by decide) h (fun r hr => by rw [List.mem_singleton.mp hr]; exact hs)
  rw [List.forall₂_cons_left_iff] at h3
  obtain ⟨p, u, hp, hu, rfl⟩ := h3
  unfold parseHeadNodes
  rw [h1]
  dsimp only
  rw [headNodes]
  have : headNode p.2 = .error .keyError := by
    unfold headNode
    rcases hc with hc | hc
    · rw [hasCells_none hp (fun hh => hc hh.2)]
    · rw [hasCells_none hp (k := "nodeid".toList) (fun hh => hc hh.2)]
      split
      · rename_i h; cases h
      · rfl
  rw [this]

/-! ### nodes -/

/-- blanks at the ends do not change a number -/
def BlankFree {N : Type} (num : Text → Option N) : Prop := ∀ a b, Same a b → num a = num b

theorem numberOf_cell {N : Type} {num : Text → Option N} (hn : BlankFree num) {attrs cols row : List Text} {p : Text × Values}
    (h : HasCells attrs cols row p) {k c : Text} (hk : k ∈ attrs) (hc : Cell cols row k c) : numberOf num p.2 k = num c := by
  obtain ⟨v, h1, h2⟩ := hasCells_get h hk hc
  unfold numberOf
  rw [h1]
  exact hn _ _ h2

theorem pointOf_cells {N : Type} {num : Text → Option N} (hn : BlankFree num) {attrs cols row : List Text} {p : Text × Values}
    (h : HasCells attrs cols row p) {kx ky : Text} (hx : kx ∈ attrs) (hy : ky ∈ attrs) {q : N × N} (hp : Point num cols row kx ky q) :
    pointOf num kx ky p.2 = some q := by
  obtain ⟨⟨a, ha, ha2⟩, b, hb, hb2⟩ := hp
  unfold pointOf
  rw [numberOf_cell hn h hx ha, numberOf_cell hn h hy hb, ha2, hb2]

theorem rated_cells {N : Type} {num : Text → Option N} (hn : BlankFree num) {attrs cols row : List Text} {p : Text × Values}
    (h : HasCells attrs cols row p) (hk : "ratedvoltage".toList ∈ attrs) : Rated num cols row (numberOf num p.2 "ratedvoltage".toList) := by
  refine ⟨fun c hc => numberOf_cell hn h hk hc, fun hc => ?_⟩
  unfold numberOf
  rw [hasCells_none h (fun hh => hc hh.2)]

theorem get_starred {attrs cols : List Text} {rows : List (List Text)} {d : List (Text × Values)} (h : List.Forall₂ (HasCells attrs cols) rows d)
    {k : Text} (hk : '*' ∉ k) (hs : ∀ r ∈ rows, '*' ∉ keyOf r) : ∀ done : List Text, d.map (·.1) = starred done (rows.map keyOf) → ∀ m : Nat,
    (∀ row, (rows.filter fun r => keyOf r = k)[m]? = some row → ∃ p, getEntry (k ++ List.replicate (done.count k + m) '*') d = some p ∧
      Entry attrs (cols, row) (keyOf row, p)) ∧
    ((rows.filter fun r => keyOf r = k)[m]? = none → getEntry (k ++ List.replicate (done.count k + m) '*') d = none) := by
  induction h with
  | nil => intro done _ m; exact ⟨(fun row hr => by simp at hr), fun _ => rfl⟩
  | @cons r p rows d hp _ ih =>
    intro done hd m
    rw [List.map_cons, List.map_cons, starred, List.cons.injEq] at hd
    obtain ⟨hd1, hd2⟩ := hd
    have ih := ih (fun x hx => hs x (List.mem_cons_of_mem _ hx)) (done ++ [keyOf r]) hd2
    have hget : ∀ n, getEntry n (p :: d) = if p.1 = n then some p.2 else getEntry n d := by
      intro n
      rw [getEntry_find, getEntry_find, List.find?_cons]
      by_cases hn : p.1 = n
      · rw [if_pos hn, decide_eq_true hn]; rfl
      · rw [if_neg hn, decide_eq_false hn]
    rw [List.filter_cons, hget]
    by_cases hr : keyOf r = k
    · rw [if_pos (decide_eq_true hr)]
      cases m with
      | zero =>
        have he : p.1 = k ++ List.replicate (done.count k + 0) '*' := by rw [hd1, hr]; rfl
        rw [if_pos he, List.getElem?_cons_zero]
        refine ⟨fun row hrow => ?_, fun hrow => nomatch hrow⟩
        injection hrow with hrow
        subst hrow
        exact ⟨p.2, rfl, hp⟩
      | succ m =>
        have he : p.1 ≠ k ++ List.replicate (done.count k + (m + 1)) '*' := by
          rw [hd1, hr]
          intro hh
          have := (star_inj hk hk hh).2
          omega
        have := ih m
        rw [List.count_append, hr, List.count_singleton, beq_self_eq_true, if_pos rfl, Nat.add_assoc, Nat.add_comm 1 m] at this
        rw [if_neg he, List.getElem?_cons_succ]
        exact this
    · have he : p.1 ≠ k ++ List.replicate (done.count k + m) '*' := by
        rw [hd1]
        intro hh
        exact hr (star_inj (hs r List.mem_cons_self) hk hh).1
      have := ih m
      have hb : (keyOf r == k) = false := by simpa using hr
      rw [List.count_append, List.count_singleton, hb, if_neg (by decide), Nat.add_zero] at this
      rw [if_neg (by rw [decide_eq_true_iff]; exact hr), if_neg he]
      exact this

theorem connectorPoints_rows {N : Type} {num : Text → Option N} (hn : BlankFree num) {cols : List Text} {rows : List (List Text)}
    {d : List (Text × Values)} (h : List.Forall₂ (HasCells connectorQuery.attrs cols) rows d) (hd : d.map (·.1) = starred [] (rows.map keyOf))
    (hs : ∀ r ∈ rows, '*' ∉ keyOf r) {k : Text} (hk : '*' ∉ k) {mid : List (N × N)}
    (hm : List.Forall₂ (fun c m => Point num cols c "coordx".toList "coordy".toList m) (rows.filter fun r => keyOf r = k) mid) :
    connectorPoints num d d.length k = (mid, true) := by
  have hlen : mid.length ≤ d.length := by
    rw [← hm.length_eq, ← h.length_eq]
    exact List.length_filter_le _ _
  have key : ∀ (n m : Nat), m ≤ mid.length → mid.length ≤ m + n →
      connectorPoints num d n (k ++ List.replicate m '*') = (mid.drop m, true) := by
    intro n
    induction n with
    | zero => intro m h1 h2; rw [connectorPoints, List.drop_eq_nil_of_le (by omega)]
    | succ n ih =>
      intro m h1 h2
      have hg := get_starred h hk hs [] hd m
      rw [List.count_nil, Nat.zero_add] at hg
      rw [connectorPoints]
      by_cases hlt : m < mid.length
      · have hlt' : m < (rows.filter fun r => keyOf r = k).length := by rw [hm.length_eq]; exact hlt
        obtain ⟨p, hp1, hp2⟩ := hg.1 ((rows.filter fun r => keyOf r = k)[m]) (List.getElem?_eq_getElem hlt')
        have hpt : pointOf num "coordx".toList "coordy".toList p = some mid[m] :=
          pointOf_cells hn (p := (keyOf (rows.filter fun r => keyOf r = k)[m], p)) hp2 (by decide) (by decide) (hm.get (i := m) hlt' hlt)
        rw [hp1]
        dsimp only
        rw [hpt]
        dsimp only
        have hst : k ++ List.replicate m '*' ++ ['*'] = k ++ List.replicate (m + 1) '*' := by
          rw [List.append_assoc, List.replicate_succ']
        rw [hst, ih (m + 1) (by omega) (by omega), ← List.drop_eq_getElem_cons hlt]
      · rw [hg.2 (List.getElem?_eq_none (by rw [hm.length_eq]; omega)), List.drop_eq_nil_of_le (by omega)]
  have := key d.length 0 (Nat.zero_le _) (by omega)
  rw [List.replicate_zero, List.append_nil, List.drop_zero] at this
  exact this

/-- reading a table of nodes with two formats -/
theorem twoFormats_read {content cols cols' : List Text} {rows rows' : List (List Text)}
    (h : TwoFormats nodeQuery.headers content cols rows cols' rows') (hn : ((rows ++ rows').map keyOf).Nodup) :
    ∃ d d', readTables nodeQuery content = .ok (d ++ d') ∧ List.Forall₂ (fun r p => Entry nodeQuery.attrs (cols, r) p) rows d ∧
      List.Forall₂ (fun r p => Entry nodeQuery.more (cols', r) p) rows' d' := by
  obtain ⟨pre, hd, f, lines, f', lines', blank, post, rfl, hpre, hh, hf, hl, hf', hl', hb, hpost⟩ := h
  obtain ⟨d, d', h1, h2, h3⟩ := C73_second_format (headers := nodeQuery.headers) (attrs := nodeQuery.attrs) (more := nodeQuery.more)
    (mapping := nodeQuery.mapping) (by decide) (by decide) (by decide) hh hf hl hf' hl' hb (rest := post) hn
  refine ⟨d, d', readTables_one hpre hpost ?_ h1, List.forall₂_map_left_iff.mp h2, List.forall₂_map_left_iff.mp h3⟩
  rw [List.map_append, entries_keys h2, entries_keys h3, List.map_map, List.map_map]
  rw [List.map_append] at hn
  exact hn

/-- the connectors: one table, perhaps at the end of the file, or none -/
def Connectors (content ccols : List Text) (crows : List (List Text)) : Prop :=
  OneTable connectorQuery.headers content ccols crows ∨ EndTable connectorQuery.headers content ccols crows ∨ (crows = [] ∧ ∀ l ∈ content, ¬Heads connectorQuery.headers l)

theorem connectors_read {content ccols : List Text} {crows : List (List Text)} (h : Connectors content ccols crows) (hs : ∀ r ∈ crows, '*' ∉ keyOf r) :
    ∃ d, readTables connectorQuery content = .ok d ∧ d.map (·.1) = starred [] (crows.map keyOf) ∧
      List.Forall₂ (HasCells connectorQuery.attrs ccols) crows d := by
  rcases h with h | h | ⟨rfl, h⟩
  · exact oneTable_read (q := connectorQuery) rfl (by decide) h hs
  · exact endTable_read (q := connectorQuery) rfl (by decide) h hs
  · refine ⟨[], ?_, rfl, .nil⟩
    unfold readTables
    have := loop_other (q := connectorQuery) h [] [] content.length (Nat.le_refl _)
    rw [List.append_nil] at this
    rw [this, Nat.sub_self]
    rfl

theorem node_ok {N : Type} {num : Text → Option N} (hn : BlankFree num) {cols row : List Text} {p : Text × Values}
    (h : Entry nodeQuery.attrs (cols, row) p) (hp : ∃ q, Point num cols row "coordx".toList "coordy".toList q) (conns : List (Text × Values)) :
    NodeOk num cols row (nodeOf num conns p) := by
  have hc : HasCells nodeQuery.attrs cols row p := ⟨rfl, h.2⟩
  obtain ⟨q, hq⟩ := hp
  refine ⟨h.1, ⟨q, hq, ?_⟩, rated_cells hn hc (by decide)⟩
  obtain ⟨⟨a, ha, -⟩, -⟩ := id hq
  obtain ⟨v, hv, -⟩ := hasCells_get hc (by decide) ha
  show nodePoints num conns p.1 p.2 = [q]
  unfold nodePoints
  rw [hv]
  dsimp only
  rw [pointOf_cells hn hc (by decide) (by decide) hq]

theorem bus_ok {N : Type} {num : Text → Option N} (hn : BlankFree num) {cols row ccols : List Text} {crows : List (List Text)} {p : Text × Values}
    (h : Entry nodeQuery.more (cols, row) p) (hs : '*' ∉ keyOf row) (hs' : ∀ r ∈ crows, '*' ∉ keyOf r) {conns : List (Text × Values)}
    (hk : conns.map (·.1) = starred [] (crows.map keyOf)) (hc : List.Forall₂ (HasCells connectorQuery.attrs ccols) crows conns)
    (hp : ∃ q, Point num cols row "coordx1".toList "coordy1".toList q) (hp' : ∃ q, Point num cols row "coordx2".toList "coordy2".toList q)
    (hm : ∃ mid, List.Forall₂ (fun c m => Point num ccols c "coordx".toList "coordy".toList m) (crows.filter fun c => keyOf c = keyOf row) mid) :
    BusOk num cols row ccols crows (nodeOf num conns p) := by
  have hcell : HasCells nodeQuery.more cols row p := ⟨rfl, h.2⟩
  obtain ⟨q, hq⟩ := hp
  obtain ⟨q', hq'⟩ := hp'
  obtain ⟨mid, hmid⟩ := hm
  refine ⟨h.1, rated_cells hn hcell (by decide), q, q', mid, hq, hq', hmid, ?_⟩
  show nodePoints num conns p.1 p.2 = _
  unfold nodePoints
  rw [hasCells_none hcell (fun hh => by revert hh; intro hh; exact absurd hh.1 (by decide))]
  dsimp only
  obtain ⟨⟨a, ha, -⟩, -⟩ := id hq
  obtain ⟨v, hv, -⟩ := hasCells_get hcell (by decide) ha
  rw [hv]
  dsimp only
  have hkey : p.1 = keyOf row := h.1
  unfold busPoints
  rw [pointOf_cells hn hcell (by decide) (by decide) hq, hkey, connectorPoints_rows hn hc hk hs' hs hmid]
  dsimp only
  rw [if_pos rfl]
  unfold lastPoint
  rw [pointOf_cells hn hcell (by decide) (by decide) hq']

/-- The nodes of a file: each row of the nodes gives a node with its name, its position and its voltage, each row of the buses one with its first
position, those of its connectors in the order of the file, and its last one. -/
theorem C76_nodes {N : Type} {num : Text → Option N} (hn : BlankFree num) {content cols bcols ccols : List Text} {rows brows crows : List (List Text)}
    (h : TwoFormats nodeQuery.headers content cols rows bcols brows) (hc : Connectors content ccols crows)
    (hkeys : ((rows ++ brows).map keyOf).Nodup) (hs : ∀ r ∈ brows ++ crows, '*' ∉ keyOf r)
    (hrows : ∀ r ∈ rows, ∃ q, Point num cols r "coordx".toList "coordy".toList q)
    (hbrows : ∀ r ∈ brows, (∃ q, Point num bcols r "coordx1".toList "coordy1".toList q) ∧ ∃ q, Point num bcols r "coordx2".toList "coordy2".toList q)
    (hcrows : ∀ r ∈ crows, ∃ q, Point num ccols r "coordx".toList "coordy".toList q) :
    ∃ ns bs, parseNodes num content = .ok (ns ++ bs) ∧ List.Forall₂ (NodeOk num cols) rows ns ∧
      List.Forall₂ (fun r n => BusOk num bcols r ccols crows n) brows bs := by
  obtain ⟨d, d', h1, h2, h3⟩ := twoFormats_read h hkeys
  obtain ⟨conns, h4, h5, h6⟩ := connectors_read hc fun r hr => hs r (List.mem_append_right _ hr)
  refine ⟨d.map (nodeOf num conns), d'.map (nodeOf num conns), ?_, ?_, ?_⟩
  · unfold parseNodes
    rw [h1]
    dsimp only
    rw [h4]
    dsimp only
    rw [List.map_append]
  · rw [List.forall₂_map_right_iff]
    clear h1 h3 h
    induction h2 with
    | nil => exact .nil
    | @cons r p rows d hp _ ih =>
      refine .cons (node_ok hn hp (hrows r List.mem_cons_self) conns) (ih ?_ fun x hx => hrows x (List.mem_cons_of_mem _ hx))
      rw [List.cons_append, List.map_cons, List.nodup_cons] at hkeys
      exact hkeys.2
  · rw [List.forall₂_map_right_iff]
    have hmid : ∀ l : List (List Text), (∀ r ∈ l, r ∈ crows) →
        ∃ mid, List.Forall₂ (fun c m => Point num ccols c "coordx".toList "coordy".toList m) l mid := by
      intro l
      induction l with
      | nil => intro _; exact ⟨[], .nil⟩
      | cons r l ih =>
        intro hl
        obtain ⟨mid, hm⟩ := ih fun x hx => hl x (List.mem_cons_of_mem _ hx)
        obtain ⟨q, hq⟩ := hcrows r (hl r List.mem_cons_self)
        exact ⟨q :: mid, .cons hq hm⟩
    have hcs : ∀ r ∈ crows, '*' ∉ keyOf r := fun r hr => hs r (List.mem_append_right _ hr)
    have hbs : ∀ r ∈ brows, '*' ∉ keyOf r := fun r hr => hs r (List.mem_append_left _ hr)
    clear h1 h2 h hkeys hs
    induction h3 with
    | nil => exact .nil
    | @cons r p rows d hp _ ih =>
      refine .cons (bus_ok hn hp (hbs r List.mem_cons_self) hcs h5 h6 (hbrows r List.mem_cons_self).1 (hbrows r List.mem_cons_self).2
        (hmid _ fun x hx => (List.mem_filter.mp hx).1)) (ih (fun x hx => hbrows x (List.mem_cons_of_mem _ hx))
        fun x hx => hbs x (List.mem_cons_of_mem _ hx))

/-- The nodes of a file without buses. -/
theorem C76_plain_nodes {N : Type} {num : Text → Option N} (hn : BlankFree num) {content cols ccols : List Text} {rows crows : List (List Text)}
    (h : OneTable nodeQuery.headers content cols rows) (hc : Connectors content ccols crows) (hkeys : (rows.map keyOf).Nodup)
    (hs : ∀ r ∈ rows ++ crows, '*' ∉ keyOf r) (hrows : ∀ r ∈ rows, ∃ q, Point num cols r "coordx".toList "coordy".toList q) :
    ∃ ns, parseNodes num content = .ok ns ∧ List.Forall₂ (NodeOk num cols) rows ns := by
  obtain ⟨d, h1, h2, h3⟩ := oneTable_read (q := nodeQuery) rfl (by decide) h fun r hr => hs r (List.mem_append_left _ hr)
  obtain ⟨conns, h4, -, -⟩ := connectors_read hc fun r hr => hs r (List.mem_append_right _ hr)
  rw [starred_fresh hkeys fun k _ hm => List.not_mem_nil hm] at h2
  refine ⟨d.map (nodeOf num conns), ?_, ?_⟩
  · unfold parseNodes
    rw [h1]
    dsimp only
    rw [h4]
  · rw [List.forall₂_map_right_iff]
    clear h1 h hkeys hs
    induction h3 with
    | nil => exact .nil
    | @cons r p rows d hp _ ih =>
      rw [List.map_cons, List.map_cons] at h2
      have hk : p.1 = keyOf r := (List.cons.inj h2).1
      refine .cons (node_ok hn ⟨hk, hp.2⟩ (hrows r List.mem_cons_self) conns) (ih (fun x hx => hrows x (List.mem_cons_of_mem _ hx)) (List.cons.inj h2).2)

/-- If the table of the nodes starts with the format of buses, no bus has a position. -/
theorem C76_buses_only_violated {N : Type} (num : Text → Option N) {content cols ccols : List Text} {rows crows : List (List Text)}
    (h : OneTable nodeQuery.headers content cols rows) (hc : Connectors content ccols crows) (hs : ∀ r ∈ rows ++ crows, '*' ∉ keyOf r)
    (hcols : "coordx".toList ∉ cols.map (List.map Char.toLower)) :
    ∃ ns, parseNodes num content = .ok ns ∧ ns.length = rows.length ∧ ∀ n ∈ ns, n.points = [] := by
  obtain ⟨d, h1, -, h3⟩ := oneTable_read (q := nodeQuery) rfl (by decide) h fun r hr => hs r (List.mem_append_left _ hr)
  obtain ⟨conns, h4, -, -⟩ := connectors_read hc fun r hr => hs r (List.mem_append_right _ hr)
  refine ⟨d.map (nodeOf num conns), ?_, ?_, ?_⟩
  · unfold parseNodes
    rw [h1]
    dsimp only
    rw [h4]
  · rw [List.length_map, h3.length_eq]
  · intro n hn
    obtain ⟨p, hp, rfl⟩ := List.mem_map.mp hn
    obtain ⟨r, -, hr⟩ : ∃ r ∈ rows, HasCells nodeQuery.attrs cols r p := by
      clear h1 h h4 hs hn
      induction h3 with
      | nil => cases hp
      | @cons r q rows d hq _ ih =>
        rcases List.mem_cons.mp hp with rfl | hp
        · exact ⟨r, List.mem_cons_self, hq⟩
        · obtain ⟨r', h1, h2⟩ := ih hp
          exact ⟨r', List.mem_cons_of_mem _ h1, h2⟩
    show nodePoints num conns p.1 p.2 = []
    unfold nodePoints
    rw [hasCells_none hr (k := "coordx".toList) (by
      rintro ⟨-, c, i, hi, -⟩
      apply hcols
      rw [List.mem_iff_getElem?]
      exact ⟨i, by rw [List.getElem?_map]; exact hi.1⟩)]
    dsimp only
    rw [hasCells_none hr (k := "coordx1".toList) (fun hh => absurd hh.1 (by decide))]

/-- A node with a coordinate that is not a number has no position, but it is there. -/
theorem C76_no_number {N : Type} {num : Text → Option N} (hn : BlankFree num) {cols row : List Text} {p : Text × Values}
    (h : Entry nodeQuery.attrs (cols, row) p) {c : Text} (hc : Cell cols row "coordx".toList c) (hb : num c = none) (conns : List (Text × Values)) :
    (nodeOf num conns p).points = [] ∧ (nodeOf num conns p).name = keyOf row := by
  have hcell : HasCells nodeQuery.attrs cols row p := ⟨rfl, h.2⟩
  refine ⟨?_, h.1⟩
  show nodePoints num conns p.1 p.2 = []
  obtain ⟨v, hv, -⟩ := hasCells_get hcell (by decide) hc
  unfold nodePoints
  rw [hv]
  dsimp only
  unfold pointOf
  rw [numberOf_cell hn hcell (by decide) hc, hb]

theorem headNodes_lower {d : List (Text × Values)} {fs : List FeederRec} (h : headNodes d = .ok fs) :
    ∀ f ∈ fs, f.headnode.map Char.toLower = f.headnode := by
  induction d generalizing fs with
  | nil => intro f hf; injection h with h; subst h; cases hf
  | cons p d ih =>
    rw [headNodes] at h
    split at h
    · cases h
    · rename_i g hg
      split at h
      · cases h
      · rename_i gs hgs
        injection h with h
        subst h
        intro f hf
        rcases List.mem_cons.mp hf with rfl | hf
        · unfold headNode at hg
          split at hg
          · injection hg with hg
            subst hg
            show List.map Char.toLower (lower _) = lower _
            unfold lower
            rw [List.map_map]
            exact List.map_congr_left fun c _ => Dss.charLower_idem c
          · cases hg
        · exact ih hgs f hf

/-- The names of head nodes are in lower case and those of nodes are not: if the names of the nodes have capital letters, no head node is one of
the nodes. -/
theorem C76_head_node_case_violated {N : Type} {num : Text → Option N} {content : List Text} {fs : List FeederRec} {ns : List (NodeRec N)}
    (hf : parseHeadNodes content = .ok fs) (_hn : parseNodes num content = .ok ns) (hcap : ∀ n ∈ ns, n.name.map Char.toLower ≠ n.name) :
    ∀ f ∈ fs, ∀ n ∈ ns, f.headnode ≠ n.name := by
  intro f hf1 n hn1 he
  unfold parseHeadNodes at hf
  split at hf
  · cases hf
  · have := headNodes_lower hf f hf1
    rw [he] at this
    exact hcap n hn1 this

/-! ### connections of substations -/

/-- The nodes of the connections of a substation are marked, or one of them is not in the model and the reading ends with an error. -/
theorem C76_connections_partial {names content cols : List Text} {rows : List (List Text)} (h : OneTable connectionQuery.headers content cols rows)
    (hs : ∀ r ∈ rows, '*' ∉ keyOf r) :
    (∃ ns, parseConnections names content = .ok ns ∧
      List.Forall₂ (fun r n => n ∈ names ∧ ∃ c, Cell cols r "nodeid".toList c ∧ Same n c) rows ns) ∨
    (parseConnections names content = .error .keyError ∧
      ∃ r ∈ rows, (¬∃ c, Cell cols r "nodeid".toList c) ∨ ∃ v c, Cell cols r "nodeid".toList c ∧ Same v c ∧ v ∉ names) := by
  obtain ⟨d, h1, -, h3⟩ := oneTable_read (q := connectionQuery) rfl (by decide) h hs
  unfold parseConnections
  rw [h1]
  dsimp only
  clear h1 h hs
  induction h3 with
  | nil => exact Or.inl ⟨[], rfl, .nil⟩
  | @cons r p rows d hp _ ih =>
    rw [markConnections]
    by_cases hc : ∃ c, Cell cols r "nodeid".toList c
    · obtain ⟨c, hc⟩ := hc
      obtain ⟨v, hv, hsame⟩ := hasCells_get hp (by decide) hc
      rw [hv]
      dsimp only
      by_cases hm : v ∈ names
      · rw [if_pos hm]
        rcases ih with ⟨ns, h1, h2⟩ | ⟨h1, r', hr', h2⟩
        · rw [h1]
          exact Or.inl ⟨v :: ns, rfl, .cons ⟨hm, c, hc, hsame⟩ h2⟩
        · rw [h1]
          exact Or.inr ⟨rfl, r', List.mem_cons_of_mem _ hr', h2⟩
      · rw [if_neg hm]
        exact Or.inr ⟨rfl, r, List.mem_cons_self, Or.inr ⟨v, c, hc, hsame, hm⟩⟩
    · rw [hasCells_none hp (fun hh => hc hh.2)]
      exact Or.inr ⟨rfl, r, List.mem_cons_self, Or.inl hc⟩

/-- If the node is in the last column, its name keeps the end of the line and is never found. -/
theorem C76_connection_line_end_violated {names : List Text} (hnames : ∀ n ∈ names, '\n' ∉ n) {h f blank c : Text} {cols cells : List Text}
    (hh : Heads connectionQuery.headers h) (hf : FormatLine f cols) (hl : RowLine (joinCells cells ++ ['\n']) cells) (hb : blank.length ≤ 2)
    (hcol : IsColumn cols "nodeid".toList (cells.length - 1)) (hc : cells.getLast? = some c) :
    parseConnections names [h, f, joinCells cells ++ ['\n'], blank] = .error .keyError := by
  obtain ⟨p, h1, h2, -⟩ := C73_last_column_violated (headers := connectionQuery.headers) (attrs := connectionQuery.attrs)
    (mapping := connectionQuery.mapping) (by decide) hh hf hl (Or.inr (Or.inl rfl)) (by decide) hb (k := "nodeid".toList) (by decide) hcol hc (rest := [])
  have hread : readTables connectionQuery ([] ++ h :: [f, joinCells cells ++ ['\n'], blank]) = .ok [p] :=
    readTables_one (q := connectionQuery) (pre := []) (fun _ hm => nomatch hm) (post := []) (fun _ hm => nomatch hm) (List.nodup_singleton _) h1
  unfold parseConnections
  rw [List.nil_append] at hread
  rw [hread]
  dsimp only
  rw [markConnections, h2]
  dsimp only
  rw [if_neg (fun hm => hnames _ hm (by simp))]

/-! ### cases that meet the hypotheses -/

/-- a file with a node, a bus with two connectors, and the head node of a network -/
def nodeFile : List Text :=
  ["CYME_VERSION=8.2\n".toList, "[SI]\n".toList, "[HEADNODES]\n".toList, "FORMAT_HEADNODES=NodeID,NetworkID\n".toList, "N1,Net\n".toList, "\n".toList,
    "[NODE]\n".toList, "FORMAT_NODE=NodeID,CoordX,CoordY\n".toList, "N1,1,2\n".toList, "FORMAT_NODE=NodeID,CoordX1,CoordY1,CoordX2,CoordY2\n".toList,
    "B1,3,4,5,6\n".toList, "\n".toList, "[NODE CONNECTOR]\n".toList, "FORMAT_NODECONNECTOR=NodeID,CoordX,CoordY\n".toList, "B1,7,8\n".toList,
    "B1,9,0\n".toList, "\n".toList]

/-- numbers of one digit -/
def digitOf (t : Text) : Option Nat :=
  match Net.pyStrip t with
  | [c] => if c.isDigit then some (c.toNat - 48) else none
  | _ => none

theorem digitOf_blank : BlankFree digitOf := by
  intro a b h
  unfold digitOf
  rw [show Net.pyStrip a = Net.pyStrip b from h]

theorem cell_at {cols row : List Text} {k c : Text} (i : Nat) (h1 : (cols[i]?).map (List.map Char.toLower) = some k) (h2 : row[i]? = some c)
    (h3 : k ∉ (cols.drop (i + 1)).map (List.map Char.toLower)) : Cell cols row k c := by
  refine ⟨i, ⟨h1, ?_⟩, h2⟩
  intro j hj he
  apply h3
  rw [List.mem_iff_getElem?]
  refine ⟨j - (i + 1), ?_⟩
  rw [List.getElem?_map, List.getElem?_drop, show i + 1 + (j - (i + 1)) = j by omega]
  exact he

theorem nodeFile_nodes : TwoFormats nodeQuery.headers nodeFile ["NodeID".toList, "CoordX".toList, "CoordY".toList] [["N1".toList, "1".toList, "2".toList]]
    ["NodeID".toList, "CoordX1".toList, "CoordY1".toList, "CoordX2".toList, "CoordY2".toList]
    [["B1".toList, "3".toList, "4".toList, "5".toList, "6".toList]] := by
  refine ⟨nodeFile.take 6, "[NODE]\n".toList, "FORMAT_NODE=NodeID,CoordX,CoordY\n".toList, ["N1,1,2\n".toList],
    "FORMAT_NODE=NodeID,CoordX1,CoordY1,CoordX2,CoordY2\n".toList, ["B1,3,4,5,6\n".toList], "\n".toList, nodeFile.drop 12, by decide, ?_, ex_head,
    ex_format₁, .cons (ex_row (e := ['\n']) (by decide) (by decide) (Or.inr (Or.inl rfl)) (by decide) (by decide)) .nil, ?_,
    .cons (ex_row (e := ['\n']) (by decide) (by decide) (Or.inr (Or.inl rfl)) (by decide) (by decide)) .nil, by decide, ?_⟩
  · intro l hl
    exact ex_noHead _ _ ((by decide : ∀ l ∈ nodeFile.take 6, isHeader nodeQuery.headers l = false) l hl)
  · exact ⟨by decide, by unfold CellText; decide, "FORMAT_NODE".toList, ['\n'], Or.inr (Or.inl rfl), by decide, ⟨[], "_node".toList, by decide⟩, by decide⟩
  · intro l hl
    exact ex_noHead _ _ ((by decide : ∀ l ∈ nodeFile.drop 12, isHeader nodeQuery.headers l = false) l hl)

theorem nodeFile_connectors : Connectors nodeFile ["NodeID".toList, "CoordX".toList, "CoordY".toList]
    [["B1".toList, "7".toList, "8".toList], ["B1".toList, "9".toList, "0".toList]] := by
  refine Or.inl ⟨nodeFile.take 12, "[NODE CONNECTOR]\n".toList, "FORMAT_NODECONNECTOR=NodeID,CoordX,CoordY\n".toList,
    ["B1,7,8\n".toList, "B1,9,0\n".toList], "\n".toList, [], by decide, ?_, ⟨_, List.mem_cons_self, [], ['\n'], rfl⟩, ?_,
    .cons (ex_row (e := ['\n']) (by decide) (by decide) (Or.inr (Or.inl rfl)) (by decide) (by decide))
      (.cons (ex_row (e := ['\n']) (by decide) (by decide) (Or.inr (Or.inl rfl)) (by decide) (by decide)) .nil), by decide, fun _ hm => nomatch hm⟩
  · intro l hl
    exact ex_noHead _ _ ((by decide : ∀ l ∈ nodeFile.take 12, isHeader connectorQuery.headers l = false) l hl)
  · exact ⟨by decide, by unfold CellText; decide, "FORMAT_NODECONNECTOR".toList, ['\n'], Or.inr (Or.inl rfl), by decide,
      ⟨[], "_nodeconnector".toList, by decide⟩, by decide⟩

example : ∃ ns bs, parseNodes digitOf nodeFile = .ok (ns ++ bs) ∧
    List.Forall₂ (NodeOk digitOf ["NodeID".toList, "CoordX".toList, "CoordY".toList]) [["N1".toList, "1".toList, "2".toList]] ns ∧
    List.Forall₂ (fun r n => BusOk digitOf ["NodeID".toList, "CoordX1".toList, "CoordY1".toList, "CoordX2".toList, "CoordY2".toList] r
      ["NodeID".toList, "CoordX".toList, "CoordY".toList] [["B1".toList, "7".toList, "8".toList], ["B1".toList, "9".toList, "0".toList]] n)
      [["B1".toList, "3".toList, "4".toList, "5".toList, "6".toList]] bs := by
  refine C76_nodes digitOf_blank nodeFile_nodes nodeFile_connectors (by decide) (by decide) ?_ ?_ ?_
  · intro r hr
    rw [List.mem_singleton.mp hr]
    exact ⟨(1, 2), ⟨_, cell_at 1 (by decide) rfl (by decide), by decide⟩, _, cell_at 2 (by decide) rfl (by decide), by decide⟩
  · intro r hr
    rw [List.mem_singleton.mp hr]
    exact ⟨⟨(3, 4), ⟨_, cell_at 1 (by decide) rfl (by decide), by decide⟩, _, cell_at 2 (by decide) rfl (by decide), by decide⟩,
      (5, 6), ⟨_, cell_at 3 (by decide) rfl (by decide), by decide⟩, _, cell_at 4 (by decide) rfl (by decide), by decide⟩
  · intro r hr
    rcases List.mem_cons.mp hr with rfl | hr
    · exact ⟨(7, 8), ⟨_, cell_at 1 (by decide) rfl (by decide), by decide⟩, _, cell_at 2 (by decide) rfl (by decide), by decide⟩
    · rw [List.mem_singleton.mp hr]
      exact ⟨(9, 0), ⟨_, cell_at 1 (by decide) rfl (by decide), by decide⟩, _, cell_at 2 (by decide) rfl (by decide), by decide⟩

/-- what is read for the file: the head node is not a node -/
example : parseNodes digitOf nodeFile = .ok [⟨"N1".toList, [(1, 2)], none⟩, ⟨"B1".toList, [(3, 4), (7, 8), (9, 0), (5, 6)], none⟩] ∧
    parseHeadNodes nodeFile = .ok [⟨"net".toList, "n1".toList⟩] ∧ parseHeader nodeFile = .ok (some "8.2".toList, true) := by
  decide +kernel

example : parseHeader (["[SI]\n".toList] ++ "CYME_VERSION=8.2.1\n".toList :: []) = .error .unboundLocalError :=
  C76_version_violated (version := "8.2.1".toList) (by
    intro l hl
    rw [List.mem_singleton.mp hl]
    intro hm
    exact absurd ((inText_iff "cyme_version".toList (lower "[SI]\n".toList)).mpr hm) (by decide))
    ⟨⟨[], "=8.2.1\n".toList, by decide⟩, "CYME_VERSION".toList, ['\n'], by decide, by decide, by decide, Or.inr (Or.inl rfl), by decide⟩ (by decide) []

end Ditto.Cyme
