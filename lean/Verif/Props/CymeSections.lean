import Verif.Lemmas.CymeSections

/-! C74: sections and feeders of CYME files. -/
namespace Ditto.Cyme
open Ditto Glm Cyme.Spec

theorem rowLine_parts {line : Text} {cells : List Text} (h : RowLine line cells) :
    ∃ e, Eol e ∧ Net.splitCh ',' line = endCells cells e ∧ '=' ∉ line := by
  obtain ⟨h2, hc, -, e, he, rfl⟩ := h
  have hne : cells ≠ [] := by rintro rfl; simp at h2
  refine ⟨e, he, split_cells hne (fun c h => (hc c h).1) (eol_plain he).1, ?_⟩
  rw [List.mem_append, not_or]
  exact ⟨join_plain fun c h => (hc c h).2.1, (eol_plain he).2⟩

theorem noFormat_tests {line : Text} (h : NoFormat line) :
    inText "format_section".toList (lower line) = false ∧ formatsNetwork line = false := by
  have hno : ∀ x : Text, "format_".toList <+: x → inText x (lower line) = false := by
    intro x hx
    rw [Bool.eq_false_iff]
    intro ht
    exact h (hx.isInfix.trans ((inText_iff _ _).mp ht))
  refine ⟨hno _ ⟨"section".toList, rfl⟩, ?_⟩
  unfold formatsNetwork
  rw [hno "format_feeder".toList ⟨"feeder".toList, rfl⟩, hno "format_substation".toList ⟨"substation".toList, rfl⟩,
    hno "format_generalnetwork".toList ⟨"generalnetwork".toList, rfl⟩]
  rfl

theorem declares_equality {line : Text} (h : '=' ∉ line) : declares line = false := by
  have hno : ∀ (n : Nat) (x : Text), '=' ∈ x → ¬lower (line.take n) = x := by
    rintro n x hx rfl
    exact not_mem_lower (by decide) (fun hm => h (List.mem_of_mem_take hm)) hx
  unfold declares
  rw [decide_eq_false (hno 7 _ (by decide)), decide_eq_false (hno 11 _ (by decide)), decide_eq_false (hno 15 _ (by decide))]
  simp

theorem take_word {line word : Text} {cells : List Text} (h : Assigns line word cells) {n : Nat} (hn : word.length + 1 = n) :
    line.take n = word ++ ['='] := by
  obtain ⟨t, rfl⟩ := assigns_prefix h
  rw [List.take_append_of_le_length (by simp [hn]), List.take_of_length_le (by simp [hn])]

theorem declares_word {line word : Text} {cells : List Text} (h : Assigns line word cells) (hw : NetworkWord word) : declares line = true := by
  obtain ⟨t, ht⟩ := assigns_prefix h
  have hlen : ∀ x : Text, word.map Char.toLower = x → word.length = x.length := by rintro x rfl; rw [List.length_map]
  have hl : ∀ n, word.length + 1 = n → lower (line.take n) = word.map Char.toLower ++ ['='] := by
    intro n hn
    rw [take_word h hn, lower_append]
    rfl
  have h7 : 7 ≤ line.length := by
    rw [ht]
    rcases hw with hw | hw | hw <;> have := hlen _ hw <;> simp [this] <;> omega
  unfold declares
  rw [decide_eq_true h7]
  rcases hw with hw | hw | hw
  · rw [hl 7 (by rw [hlen _ hw]; rfl), hw]; rfl
  · rw [hl 11 (by rw [hlen _ hw]; rfl), hw]; simp
  · rw [hl 15 (by rw [hlen _ hw]; rfl), hw]; simp

theorem kindOf_word {line word : Text} {cells : List Text} (h : Assigns line word cells) (hw : NetworkWord word) : kindOf line = wordKind word := by
  have hlen : ∀ x : Text, word.map Char.toLower = x → word.length = x.length := by rintro x rfl; rw [List.length_map]
  obtain ⟨t, ht⟩ := assigns_prefix h
  unfold kindOf wordKind
  rcases hw with hw | hw | hw
  · rw [hw, if_neg (show ¬"feeder".toList = "substation".toList by decide), if_neg]
    intro hs
    rw [ht, List.append_assoc, List.take_append, lower_append] at hs
    have h6 : word.take 11 = word := List.take_of_length_le (by rw [hlen _ hw]; decide)
    rw [h6] at hs
    unfold lower at hs
    rw [hw] at hs
    have := congrArg List.head? hs
    revert this
    change some 'f' = some 's' → False
    decide
  · rw [hw, if_pos rfl, if_pos]
    rw [take_word h (by rw [hlen _ hw]; rfl), lower_append]
    unfold lower
    rw [hw]
    rfl
  · rw [hw, if_neg (show ¬"generalnetwork".toList = "substation".toList by decide), if_neg]
    intro hs
    have h14 : word.length = 14 := hlen _ hw
    rw [ht, List.append_assoc, List.take_append_of_le_length (by omega)] at hs
    unfold lower at hs
    rw [List.map_take, hw] at hs
    revert hs
    decide

theorem assigns_long {line word : Text} {cells : List Text} (h : Assigns line word cells) (hw : 2 ≤ word.length) : 2 < line.length := by
  obtain ⟨t, rfl⟩ := assigns_prefix h
  simp; omega

theorem networkWord_long {word : Text} (hw : NetworkWord word) : 2 ≤ word.length := by
  have hlen : ∀ x : Text, word.map Char.toLower = x → word.length = x.length := by rintro x rfl; rw [List.length_map]
  rcases hw with hw | hw | hw <;> rw [hlen _ hw] <;> decide

/-! ### steps -/

/-- a row of a section -/
theorem section_step {line : Text} {row cols : List Text} (h : RowLine line row) (hf : NoFormat line) (hc : Columns cols "sectionid".toList)
    (hl : row.length = cols.length) {s : Sections} {net : Text} (hs : s.formatSection = some (cols.map colName)) (hn : s.netId = some net) :
    ∃ id v, Identifies cols row "sectionid".toList id ∧ Described cols row v ∧ Clean v ∧
      sectionLine s line = .ok (addSection s id net v) := by
  obtain ⟨e, he, hsplit, heq⟩ := rowLine_parts h
  have hdata : (Net.splitCh ',' line).map Net.pyStrip = row.map Net.pyStrip := by
    rw [hsplit]; exact endCells_map row fun c _ => strip_blank (eol_blank he) c
  have hstrip : ((Net.splitCh ',' line).map Net.pyStrip).map Net.pyStrip = row.map Net.pyStrip := by
    rw [hdata, List.map_map]
    exact List.map_congr_left fun c _ => strip_idem c
  obtain ⟨x, c, hx, hv, hsame⟩ := columnValue_id hc hl hstrip
  have hxs : Net.pyStrip x = x := by
    unfold columnValue at hx
    split at hx
    · cases hx
    · split at hx
      · cases hx
      · rename_i v hv'
        injection hx with hx
        subst hx
        obtain ⟨hi, hv'⟩ := List.getElem?_eq_some_iff.mp hv'
        rw [List.getElem_map] at hv'
        rw [← hv']
        exact strip_idem _
  refine ⟨lower x, record (cols.map colName) ((Net.splitCh ',' line).map Net.pyStrip), ⟨c, hv, ?_⟩, described_record hl hstrip, ?_, ?_⟩
  · have : x = Net.pyStrip c := by rw [← hxs]; exact hsame
    rw [this]; exact lower_strip c
  · intro k y hy
    have := record_mem (by rw [hdata, List.length_map, List.length_map, hl]) hy
    obtain ⟨z, -, rfl⟩ := List.mem_map.mp this
    exact strip_idem z
  · obtain ⟨h1, h2⟩ := noFormat_tests hf
    unfold sectionLine
    rw [h1, h2, declares_equality heq]
    simp only [Bool.false_eq_true, if_false]
    unfold sectionRow
    rw [hs, hn]
    dsimp only
    rw [if_neg, hx]
    rw [not_not, hdata, List.length_map, List.length_map, hl]

/-- the rows of the sections of a network -/
theorem sections_run {cols : List Text} (hc : Columns cols "sectionid".toList) {net : Text} {lines : List Text} {rows : List (List Text)}
    (h : List.Forall₂ RowLine lines rows) : (∀ line ∈ lines, NoFormat line) → (∀ row ∈ rows, row.length = cols.length) →
    ∀ (s : Sections) (tail : List Text), s.formatSection = some (cols.map colName) → s.netId = some net →
    ∃ new : List (Text × Values), List.Forall₂ (fun row p => Identifies cols row "sectionid".toList p.1 ∧ Described cols row p.2 ∧ Clean p.2) rows new ∧
      sectionLines s (lines ++ tail) = sectionLines { s with
        sectionData := updateAll s.sectionData new
        sectionFeeder := updateAll s.sectionFeeder (new.map fun p => (p.1, net)) } tail := by
  induction h with
  | nil => intro _ _ s tail _ _; exact ⟨[], .nil, rfl⟩
  | @cons line row lines rows hl _ ih =>
    intro hf hr s tail hs hn
    obtain ⟨id, v, h1, h2, hcl, h3⟩ := section_step hl (hf line List.mem_cons_self) hc (hr row List.mem_cons_self) hs hn
    obtain ⟨new, h4, h5⟩ := ih (fun x hx => hf x (List.mem_cons_of_mem _ hx)) (fun x hx => hr x (List.mem_cons_of_mem _ hx))
      (addSection s id net v) tail hs hn
    refine ⟨(id, v) :: new, .cons ⟨h1, h2, hcl⟩ h4, ?_⟩
    rw [List.cons_append, sectionLines, if_pos hl.2.2.1, h3]
    exact h5

/-- the declaration of a network -/
theorem network_step {line : Text} {n : Network} {cols secCols : List Text} (h : Assigns line n.word n.values) (hw : NetworkWord n.word)
    (hf : NoFormat line) (hc : Columns cols "networkid".toList) (hsc : Columns secCols "sectionid".toList) (hl : n.values.length = cols.length)
    {s : Sections} (hs : s.formatSection = some (secCols.map colName)) (hn : s.formatFeeder = some (cols.map colName)) :
    ∃ net v, Identifies cols n.values "networkid".toList (Net.pyStrip net) ∧ Described cols n.values v ∧
      sectionLine s line = .ok (addNetwork s (wordKind n.word) net v) := by
  obtain ⟨e, he, hafter, hsplit⟩ := assigns_after h
  have hstrip : (endCells n.values e).map Net.pyStrip = n.values.map Net.pyStrip :=
    endCells_map n.values fun c _ => strip_blank (eol_blank he) c
  obtain ⟨x, c, hx, hv, hsame⟩ := columnValue_id hc hl hstrip
  rw [← kindOf_word h hw]
  refine ⟨lower x, record (cols.map colName) (endCells n.values e), ⟨c, hv, ?_⟩, described_record hl hstrip, ?_⟩
  · rw [← lower_strip, hsame]; exact lower_strip c
  · obtain ⟨h1, h2⟩ := noFormat_tests hf
    unfold sectionLine
    rw [h1, h2, declares_word h hw]
    simp only [Bool.false_eq_true, if_false, if_true]
    unfold networkRow
    rw [hs, hn, hafter]
    dsimp only
    rw [hsplit, if_neg (by rw [not_not, endCells_length, List.length_map]; exact hl), if_neg (not_not.mpr (show "networkid".toList ∈ cols.map colName from hc.2)),
      if_neg (not_not.mpr (show "sectionid".toList ∈ secCols.map colName from hsc.2)), hx]

/-- a section with its network as they are stored -/
structure Stored where
  id : Text
  values : Values
  net : Text

/-- all networks -/
theorem networks_run {cols secCols : List Text} (hc : Columns cols "networkid".toList) (hsc : Columns secCols "sectionid".toList)
    {body : List (List Text)} {nets : List Network} (h : List.Forall₂ NetworkLines body nets) :
    (∀ n ∈ nets, n.values.length = cols.length ∧ ∀ row ∈ n.sections, row.length = secCols.length) →
    ∀ (s : Sections) (tail : List Text), s.formatSection = some (secCols.map colName) → s.formatFeeder = some (cols.map colName) →
    ∃ (s' : Sections) (newNet : List (Text × Values)) (newSec : List Stored),
      sectionLines s (body.flatten ++ tail) = sectionLines s' tail ∧ s'.formatSection = some (secCols.map colName) ∧
      s'.kind = ((nets.getLast?).map fun n => wordKind n.word).or s.kind ∧
      List.Forall₂ (fun (n : Network) p => Identifies cols n.values "networkid".toList (Net.pyStrip p.1) ∧ Described cols n.values p.2) nets newNet ∧
      List.Forall₂ (fun (q : Network × List Text) (p : Stored) => Identifies secCols q.2 "sectionid".toList p.id ∧ Described secCols q.2 p.values ∧ Clean p.values ∧
        Identifies cols q.1.values "networkid".toList (Net.pyStrip p.net)) (sectionsOf nets) newSec ∧
      s'.networkData = updateAll s.networkData newNet ∧
      s'.sectionData = updateAll s.sectionData (newSec.map fun p => (p.id, p.values)) ∧
      s'.sectionFeeder = updateAll s.sectionFeeder (newSec.map fun p => (p.id, p.net)) := by
  induction h with
  | nil => intro _ s tail hs _; exact ⟨s, [], [], rfl, hs, rfl, .nil, .nil, rfl, rfl, rfl⟩
  | @cons lines n body nets hn _ ih =>
    intro hl s tail hs hf
    obtain ⟨line, rows, rfl, hw, ha, hnf, hrows, hrf⟩ := hn
    obtain ⟨hlv, hlr⟩ := hl n List.mem_cons_self
    obtain ⟨net, v, h1, h2, h3⟩ := network_step ha hw hnf hc hsc hlv hs hf
    obtain ⟨new, h4, h5⟩ := sections_run hsc hrows hrf hlr (addNetwork s (wordKind n.word) net v) (body.flatten ++ tail) hs rfl
    obtain ⟨s', newNet, newSec, g1, g0, gk, g2, g3, g4, g5, g6⟩ := ih (fun m hm => hl m (List.mem_cons_of_mem _ hm)) _ tail
      (show (Sections.formatSection { addNetwork s (wordKind n.word) net v with
        sectionData := updateAll (addNetwork s (wordKind n.word) net v).sectionData new
        sectionFeeder := updateAll (addNetwork s (wordKind n.word) net v).sectionFeeder (new.map fun p => (p.1, net)) }) = _ from hs) hf
    refine ⟨s', (net, v) :: newNet, (new.map fun p => ⟨p.1, p.2, net⟩) ++ newSec, ?_, g0, ?_, .cons ⟨h1, h2⟩ g2, ?_, g4, ?_, ?_⟩
    · rw [List.flatten_cons, List.append_assoc, List.cons_append, sectionLines, if_pos (assigns_long ha (networkWord_long hw)), h3]
      dsimp only
      rw [h5, g1]
    · rw [gk, List.getLast?_cons]
      cases nets.getLast? <;> rfl
    · change List.Forall₂ _ ((n.sections.map fun r => (n, r)) ++ sectionsOf nets) _
      refine List.rel_append ?_ g3
      rw [List.forall₂_map_left_iff, List.forall₂_map_right_iff]
      exact h4.imp fun r p hp => ⟨hp.1, hp.2.1, hp.2.2, h1⟩
    · rw [g5, List.map_append, List.map_map]
      unfold updateAll
      rw [List.foldl_append]
      congr 1
      change _ = (new.map id).foldl _ _
      rw [List.map_id]
      rfl
    · rw [g6, List.map_append, List.map_map]
      unfold updateAll
      rw [List.foldl_append]
      rfl

theorem sections_before {before : List Text} (h : ∀ line ∈ before, ¬"[SECTION]".toList <:+: line) (rest : List Text) :
    parseSections (before ++ rest) = parseSections rest := by
  induction before with
  | nil => rfl
  | cons line before ih =>
    rw [List.cons_append, parseSections, if_neg (by rw [inText_iff]; exact h line List.mem_cons_self)]
    exact ih fun x hx => h x (List.mem_cons_of_mem _ hx)

theorem sectionFormat_step {line : Text} {cols : List Text} (h : SectionFormat line cols) (s : Sections) :
    2 < line.length ∧ sectionLine s line = .ok { s with formatSection := some (cols.map colName) } := by
  obtain ⟨word, hw, ha⟩ := h
  have hlen : word.length = 14 := by have := congrArg List.length hw; rw [List.length_map] at this; exact this
  refine ⟨assigns_long ha (by omega), ?_⟩
  unfold sectionLine
  rw [if_pos, assigns_columns ha]
  obtain ⟨t, rfl⟩ := assigns_prefix ha
  rw [inText_iff, lower_append, lower_append]
  unfold lower
  rw [hw]
  exact ((List.prefix_append _ _).trans (List.prefix_append _ _)).isInfix

theorem networkFormat_step {line : Text} {cols : List Text} (h : NetworkFormat line cols) (s : Sections) :
    2 < line.length ∧ sectionLine s line = .ok { s with formatFeeder := some (cols.map colName) } := by
  obtain ⟨word, word', hw, hw', ha, hno⟩ := h
  have hlen : 7 ≤ word.length := by
    have := congrArg List.length hw
    rw [List.length_map, List.length_append] at this
    have h7 : "format_".toList.length = 7 := rfl
    omega
  refine ⟨assigns_long ha (by omega), ?_⟩
  unfold sectionLine
  rw [if_neg (by rw [inText_iff]; exact hno), if_pos, assigns_columns ha]
  obtain ⟨t, rfl⟩ := assigns_prefix ha
  have hin : inText ("format_".toList ++ word'.map Char.toLower) (lower (word ++ ['='] ++ t)) = true := by
    rw [inText_iff, lower_append, lower_append]
    unfold lower
    rw [hw]
    exact ((List.prefix_append _ _).trans (List.prefix_append _ _)).isInfix
  unfold formatsNetwork
  rcases hw' with hw' | hw' | hw' <;> rw [hw'] at hin
  · have : inText "format_feeder".toList (lower (word ++ ['='] ++ t)) = true := hin
    rw [this]; rfl
  · have : inText "format_substation".toList (lower (word ++ ['='] ++ t)) = true := hin
    rw [this]; simp
  · have : inText "format_generalnetwork".toList (lower (word ++ ['='] ++ t)) = true := hin
    rw [this]; simp

/-- reading until the end of the table -/
theorem table_run {lines netCols secCols : List Text} {nets : List Network} (h : TableLines lines netCols secCols nets)
    (hc : Columns netCols "networkid".toList) (hsc : Columns secCols "sectionid".toList)
    (hl : ∀ n ∈ nets, n.values.length = netCols.length ∧ ∀ row ∈ n.sections, row.length = secCols.length) (tail : List Text) :
    ∃ (s' : Sections) (newNet : List (Text × Values)) (newSec : List Stored),
      parseSections (lines ++ tail) = sectionLines s' tail ∧ s'.formatSection = some (secCols.map colName) ∧
      s'.kind = (nets.getLast?).map (fun n => wordKind n.word) ∧
      List.Forall₂ (fun (n : Network) p => Identifies netCols n.values "networkid".toList (Net.pyStrip p.1) ∧ Described netCols n.values p.2)
        nets newNet ∧
      List.Forall₂ (fun (q : Network × List Text) (p : Stored) => Identifies secCols q.2 "sectionid".toList p.id ∧ Described secCols q.2 p.values ∧ Clean p.values ∧
        Identifies netCols q.1.values "networkid".toList (Net.pyStrip p.net)) (sectionsOf nets) newSec ∧
      s'.networkData = updateAll [] newNet ∧
      s'.sectionData = updateAll [] (newSec.map fun p => (p.id, p.values)) ∧
      s'.sectionFeeder = updateAll [] (newSec.map fun p => (p.id, p.net)) := by
  obtain ⟨before, head, f, f', body, rfl, hb, hh, hform, hbody⟩ := h
  have hstart : ∃ s0 : Sections, s0.formatSection = some (secCols.map colName) ∧ s0.formatFeeder = some (netCols.map colName) ∧
      s0.networkData = [] ∧ s0.kind = none ∧ s0.sectionData = [] ∧ s0.sectionFeeder = [] ∧
      ∀ rest, sectionLines {} (f :: f' :: rest) = sectionLines s0 rest := by
    rcases hform with ⟨h1, h2⟩ | ⟨h1, h2⟩
    · obtain ⟨a, b⟩ := sectionFormat_step h1 {}
      obtain ⟨c, d⟩ := networkFormat_step h2 { formatSection := some (secCols.map colName) }
      refine ⟨{ formatSection := some (secCols.map colName), formatFeeder := some (netCols.map colName) }, rfl, rfl, rfl, rfl, rfl, rfl, fun rest => ?_⟩
      rw [sectionLines, if_pos a, b]
      dsimp only
      rw [sectionLines, if_pos c, d]
    · obtain ⟨a, b⟩ := networkFormat_step h1 {}
      obtain ⟨c, d⟩ := sectionFormat_step h2 { formatFeeder := some (netCols.map colName) }
      refine ⟨{ formatSection := some (secCols.map colName), formatFeeder := some (netCols.map colName) }, rfl, rfl, rfl, rfl, rfl, rfl, fun rest => ?_⟩
      rw [sectionLines, if_pos a, b]
      dsimp only
      rw [sectionLines, if_pos c, d]
  obtain ⟨s0, e1, e2, e3, ek, e4, e5, hrun⟩ := hstart
  obtain ⟨s', newNet, newSec, g1, g0, gk, g2, g3, g4, g5, g6⟩ := networks_run hc hsc hbody hl s0 tail e1 e2
  rw [e3] at g4
  rw [ek, Option.or_none] at gk
  rw [e4] at g5
  rw [e5] at g6
  refine ⟨s', newNet, newSec, ?_, g0, gk, g2, g3, g4, g5, g6⟩
  rw [List.append_assoc, sections_before hb, List.cons_append, parseSections, if_pos ((inText_iff _ _).mpr hh)]
  exact (hrun _).trans g1

/-- Reading a table of sections. Each section has its values by the names of the columns and the network under which it stands, the last row
when the same section stands in more than one; nothing else is a section. Each network has its values. The kind is that of
the last network.
Missing: the sections of a network are not listed (C74_feeder_sections_violated), a file that ends with the table is not read
(C74_end_violated), the name of a network can have the end of the line in it (C74_network_name_violated), and other tables that follow
without an empty line, or other tables of sections (C74_next_table_violated, C74_second_table_violated). -/
theorem C74_sections_partial {content netCols secCols : List Text} {nets : List Network} (h : SectionTable content netCols secCols nets)
    (hc : Columns netCols "networkid".toList) (hsc : Columns secCols "sectionid".toList)
    (hl : ∀ n ∈ nets, n.values.length = netCols.length ∧ ∀ row ∈ n.sections, row.length = secCols.length) :
    ∃ s, parseSections content = .ok s ∧
      (∀ pre n row post id, sectionsOf nets = pre ++ (n, row) :: post → Identifies secCols row "sectionid".toList id →
        (∀ q ∈ post, ¬Identifies secCols q.2 "sectionid".toList id) →
        (∃ v, getEntry id s.sectionData = some v ∧ Described secCols row v ∧ Clean v) ∧
        ∃ net, getEntry id s.sectionFeeder = some net ∧ Identifies netCols n.values "networkid".toList (Net.pyStrip net)) ∧
      (∀ id, (∀ q ∈ sectionsOf nets, ¬Identifies secCols q.2 "sectionid".toList id) →
        getEntry id s.sectionData = none ∧ getEntry id s.sectionFeeder = none) ∧
      (∀ pre n post id, nets = pre ++ n :: post → Identifies netCols n.values "networkid".toList id →
        (∀ m ∈ post, ¬Identifies netCols m.values "networkid".toList id) →
        ∃ net v, Net.pyStrip net = id ∧ getEntry net s.networkData = some v ∧ Described netCols n.values v) ∧
      (∀ net v, getEntry net s.networkData = some v → ∃ n ∈ nets, Identifies netCols n.values "networkid".toList (Net.pyStrip net)) ∧
      s.kind = (nets.getLast?).map fun n => wordKind n.word := by
  obtain ⟨lines, blank, after, rfl, h, hblank⟩ := h
  obtain ⟨s', newNet, newSec, g1, -, gk, g2, g3, g4, g5, g6⟩ := table_run h hc hsc hl (blank :: after)
  refine ⟨s', ?_, ?_, ?_, ?_, ?_, gk⟩
  · rw [g1, sectionLines, if_neg (by omega)]
  · intro pre n row post id hsplit hid hpost
    rw [hsplit] at g3
    obtain ⟨l1, l2, rfl, h1, h2⟩ := forall₂_split g3
    cases h2 with
    | @cons _ p _ l2 hp h2 =>
      obtain ⟨p1, p2, pc, p3⟩ := hp
      have hpid : p.id = id := identifies_unique p1 hid
      have hno : ∀ q ∈ l2, q.id ≠ id := by
        have : ∀ {a : List (Network × List Text)} {b : List Stored}, List.Forall₂ (fun (q : Network × List Text) (p : Stored) =>
            Identifies secCols q.2 "sectionid".toList p.id ∧ Described secCols q.2 p.values ∧ Clean p.values ∧
            Identifies netCols q.1.values "networkid".toList (Net.pyStrip p.net)) a b →
            (∀ q ∈ a, ¬Identifies secCols q.2 "sectionid".toList id) → ∀ q ∈ b, q.id ≠ id := by
          intro a b hab
          induction hab with
          | nil => intro _ q hq; cases hq
          | cons hx _ ih =>
            intro ha q hq
            rcases List.mem_cons.mp hq with rfl | hq
            · intro he
              exact ha _ List.mem_cons_self (by rw [← he]; exact hx.1)
            · exact ih (fun x hx => ha x (List.mem_cons_of_mem _ hx)) q hq
        exact this h2 hpost
      refine ⟨⟨p.values, ?_, p2, pc⟩, p.net, ?_, p3⟩
      · rw [g5, List.map_append, List.map_cons, hpid]
        refine updateAll_get_last _ _ _ ?_
        rw [List.map_map]
        intro hm
        obtain ⟨q, hq, he⟩ := List.mem_map.mp hm
        exact hno q hq he
      · rw [g6, List.map_append, List.map_cons, hpid]
        refine updateAll_get_last _ _ _ ?_
        rw [List.map_map]
        intro hm
        obtain ⟨q, hq, he⟩ := List.mem_map.mp hm
        exact hno q hq he
  · intro id hno
    have hk : ∀ q ∈ newSec, q.id ≠ id := by
      intro q hq he
      obtain ⟨a, ha, hr⟩ := forall₂_left g3 hq
      exact hno a ha (by rw [← he]; exact hr.1)
    constructor
    · rw [g5, updateAll_get_other]; · rfl
      rw [List.map_map]
      intro hm
      obtain ⟨q, hq, he⟩ := List.mem_map.mp hm
      exact hk q hq he
    · rw [g6, updateAll_get_other]; · rfl
      rw [List.map_map]
      intro hm
      obtain ⟨q, hq, he⟩ := List.mem_map.mp hm
      exact hk q hq he
  · intro pre n post id hsplit hid hpost
    subst hsplit
    obtain ⟨l1, l2, rfl, h1, h2⟩ := forall₂_split g2
    cases h2 with
    | @cons _ p _ l2 hp h2 =>
      refine ⟨p.1, p.2, identifies_unique hp.1 hid, ?_, hp.2⟩
      rw [g4]
      refine updateAll_get_last _ _ _ ?_
      intro hm
      obtain ⟨q, hq, he⟩ := List.mem_map.mp hm
      obtain ⟨a, ha, hr⟩ := forall₂_left h2 hq
      exact hpost a ha (by rw [← identifies_unique hp.1 hid, ← he]; exact hr.1)
  · intro net v hv
    by_cases hm : net ∈ newNet.map (·.1)
    · obtain ⟨q, hq, he⟩ := List.mem_map.mp hm
      obtain ⟨a, ha, hr⟩ := forall₂_left g2 hq
      exact ⟨a, ha, by rw [← he]; exact hr.1⟩
    · rw [g4, updateAll_get_other _ _ hm] at hv
      cases hv

/-! ### what the reader does not do -/

/-- what a line can do -/
theorem sectionLine_forms {s s' : Sections} {line : Text} (h : sectionLine s line = .ok s') :
    (∃ n, s' = { s with formatSection := some n }) ∨ (∃ n, s' = { s with formatFeeder := some n }) ∨
      (∃ kind id v, s' = addNetwork s kind id v) ∨ ∃ id net v, s.netId = some net ∧ s' = addSection s id net v := by
  unfold sectionLine at h
  split at h
  · split at h
    · cases h
    · injection h with h; exact Or.inl ⟨_, h.symm⟩
  · split at h
    · split at h
      · cases h
      · injection h with h; exact Or.inr (Or.inl ⟨_, h.symm⟩)
    · split at h
      · unfold networkRow at h
        split at h
        · cases h
        · cases h
        · split at h
          · cases h
          · split at h
            · cases h
            · split at h
              · cases h
              · split at h
                · cases h
                · split at h
                  · cases h
                  · injection h with h; exact Or.inr (Or.inr (Or.inl ⟨_, _, _, h.symm⟩))
      · unfold sectionRow at h
        split at h
        · cases h
        · cases h
        · rename_i net fs hn hf
          split at h
          · cases h
          · split at h
            · cases h
            · injection h with h; exact Or.inr (Or.inr (Or.inr ⟨_, net, _, hn, h.symm⟩))

theorem sections_invariant (P : Sections → Prop) (h0 : P {}) (hstep : ∀ s line s', P s → sectionLine s line = .ok s' → P s') {content : List Text}
    {s : Sections} (h : parseSections content = .ok s) : P s := by
  have hl : ∀ (lines : List Text) (s s' : Sections), P s → sectionLines s lines = .ok s' → P s' := by
    intro lines
    induction lines with
    | nil => intro s s' _ h; cases h
    | cons line rest ih =>
      intro s s' hp h
      rw [sectionLines] at h
      split at h
      · split at h
        · cases h
        · rename_i s1 hs1
          exact ih s1 s' (hstep s line s1 hp hs1) h
      · injection h with h; exact h ▸ hp
  induction content with
  | nil => injection h with h; exact h ▸ h0
  | cons line rest ih =>
    rw [parseSections] at h
    split at h
    · exact hl rest {} s h0 h
    · exact ih h

/-- The list of the sections of a network is empty, whatever the file says. -/
theorem C74_feeder_sections_violated {content : List Text} {s : Sections} (h : parseSections content = .ok s) :
    ∀ net l, getEntry net s.feederSections = some l → l = [] := by
  refine sections_invariant (fun s => ∀ net l, getEntry net s.feederSections = some l → l = []) (fun net l h => by cases h) ?_ h
  intro s line s' hp hs net l hg
  rcases sectionLine_forms hs with ⟨n, rfl⟩ | ⟨n, rfl⟩ | ⟨kind, id, v, rfl⟩ | ⟨id, net', v, -, rfl⟩
  · exact hp net l hg
  · exact hp net l hg
  · change getEntry net (setEntry id [] s.feederSections) = some l at hg
    rw [getEntry_setEntry] at hg
    split at hg
    · injection hg with hg; exact hg.symm
    · exact hp net l hg
  · exact hp net l hg

/-- Whatever the file says: a section has values exactly if it has a network, and that network is one of the networks with values. -/
theorem C74_network_of_section {content : List Text} {s : Sections} (h : parseSections content = .ok s) :
    (∀ id, getEntry id s.sectionData = none ↔ getEntry id s.sectionFeeder = none) ∧
      ∀ id net, getEntry id s.sectionFeeder = some net → ∃ v, getEntry net s.networkData = some v := by
  have := sections_invariant (fun s => (∀ id, getEntry id s.sectionData = none ↔ getEntry id s.sectionFeeder = none) ∧
      (∀ id net, getEntry id s.sectionFeeder = some net → ∃ v, getEntry net s.networkData = some v) ∧
      ∀ net, s.netId = some net → ∃ v, getEntry net s.networkData = some v)
    ⟨fun _ => ⟨fun _ => rfl, fun _ => rfl⟩, (fun _ _ h => nomatch h), (fun _ h => nomatch h)⟩ ?_ h
  · exact ⟨this.1, this.2.1⟩
  rintro s line s' ⟨p1, p2, p3⟩ hs
  rcases sectionLine_forms hs with ⟨n, rfl⟩ | ⟨n, rfl⟩ | ⟨kind, id, v, rfl⟩ | ⟨id, net', v, hn, rfl⟩
  · exact ⟨p1, p2, p3⟩
  · exact ⟨p1, p2, p3⟩
  · have hkeep : ∀ net, (∃ v, getEntry net s.networkData = some v) → ∃ w, getEntry net (setEntry id v s.networkData) = some w := by
      rintro net ⟨w, hw⟩
      rw [getEntry_setEntry]
      split
      · exact ⟨v, rfl⟩
      · exact ⟨w, hw⟩
    refine ⟨p1, fun id' net hg => hkeep net (p2 id' net hg), fun net hg => ?_⟩
    have hg : some id = some net := hg
    injection hg with hg
    refine ⟨v, ?_⟩
    change getEntry net (setEntry id v s.networkData) = some v
    rw [getEntry_setEntry, if_pos hg.symm]
  · refine ⟨fun id' => ?_, fun id' net hg => ?_, p3⟩
    · change getEntry id' (setEntry id v s.sectionData) = none ↔ getEntry id' (setEntry id net' s.sectionFeeder) = none
      rw [getEntry_setEntry, getEntry_setEntry]
      split
      · exact ⟨nofun, nofun⟩
      · exact p1 id'
    · change getEntry id' (setEntry id net' s.sectionFeeder) = some net at hg
      rw [getEntry_setEntry] at hg
      split at hg
      · injection hg with hg; rw [← hg]; exact p3 _ hn
      · exact p2 id' net hg

/-- A file that ends with its table of sections is not read. -/
theorem C74_end_violated {content netCols secCols : List Text} {nets : List Network} (h : TableLines content netCols secCols nets)
    (hc : Columns netCols "networkid".toList) (hsc : Columns secCols "sectionid".toList)
    (hl : ∀ n ∈ nets, n.values.length = netCols.length ∧ ∀ row ∈ n.sections, row.length = secCols.length) :
    parseSections content = .error .stopIteration := by
  obtain ⟨s', _, _, h1, -⟩ := table_run h hc hsc hl []
  rw [List.append_nil] at h1
  rw [h1, sectionLines]

/-- A header that follows the table without an empty line is taken for a section, and nothing is read. -/
theorem C74_next_table_violated {lines netCols secCols : List Text} {nets : List Network} (h : TableLines lines netCols secCols nets)
    (hc : Columns netCols "networkid".toList) (hsc : Columns secCols "sectionid".toList)
    (hl : ∀ n ∈ nets, n.values.length = netCols.length ∧ ∀ row ∈ n.sections, row.length = secCols.length)
    {header : Text} (hlong : 2 < header.length) (hplain : ',' ∉ header ∧ '=' ∉ header) (hf : NoFormat header) (h2 : 2 ≤ secCols.length)
    (after : List Text) : parseSections (lines ++ header :: after) = .error .valueError := by
  obtain ⟨s', _, _, h1, hfs, -⟩ := table_run h hc hsc hl (header :: after)
  obtain ⟨t1, t2⟩ := noFormat_tests hf
  have hrow : sectionLine s' header = .error .valueError := by
    unfold sectionLine
    rw [t1, t2, declares_equality hplain.2]
    simp only [Bool.false_eq_true, if_false]
    unfold sectionRow
    rw [hfs]
    cases s'.netId with
    | none => rfl
    | some net =>
      dsimp only
      rw [if_pos]
      rw [Net.splitCh_not_mem hplain.1, List.length_map, List.length_map, List.length_singleton]
      omega
  rw [h1, sectionLines, if_pos hlong, hrow]

/-- A section with the word of a format in its row: nothing is read. -/
theorem C74_format_word_violated {lines netCols secCols : List Text} {nets : List Network} (h : TableLines lines netCols secCols nets)
    (hc : Columns netCols "networkid".toList) (hsc : Columns secCols "sectionid".toList)
    (hl : ∀ n ∈ nets, n.values.length = netCols.length ∧ ∀ row ∈ n.sections, row.length = secCols.length)
    {line : Text} {row : List Text} (hr : RowLine line row) (hf : "format_section".toList <:+: line.map Char.toLower) (after : List Text) :
    parseSections (lines ++ line :: after) = .error .indexError := by
  obtain ⟨s', _, _, h1, -⟩ := table_run h hc hsc hl (line :: after)
  obtain ⟨e, -, -, heq⟩ := rowLine_parts hr
  have hstep : sectionLine s' line = .error .indexError := by
    unfold sectionLine
    rw [if_pos ((inText_iff _ (lower line)).mpr hf)]
    unfold sectionColumns afterEquality
    rw [Net.splitCh_not_mem heq]
  rw [h1, sectionLines, if_pos hr.2.2.1, hstep]

/-- What stands after the end of the table of sections changes nothing: another table of sections is not read. -/
theorem C74_second_table_violated {lines : List Text} {blank : Text} (hh : ∃ line ∈ lines, "[SECTION]".toList <:+: line) (hb : blank.length ≤ 2)
    (after after' : List Text) : parseSections (lines ++ blank :: after) = parseSections (lines ++ blank :: after') := by
  have hl : ∀ (lines : List Text) (s : Sections), sectionLines s (lines ++ blank :: after) = sectionLines s (lines ++ blank :: after') := by
    intro lines
    induction lines with
    | nil => intro s; rw [List.nil_append, List.nil_append, sectionLines, sectionLines, if_neg (by omega), if_neg (by omega)]
    | cons line rest ih =>
      intro s
      rw [List.cons_append, List.cons_append, sectionLines, sectionLines]
      split
      · split
        · rfl
        · exact ih _
      · rfl
  induction lines with
  | nil => obtain ⟨_, h, -⟩ := hh; cases h
  | cons line rest ih =>
    rw [List.cons_append, List.cons_append, parseSections, parseSections]
    split
    · exact hl rest {}
    · rename_i hno
      refine ih ?_
      obtain ⟨l, hm, hi⟩ := hh
      rcases List.mem_cons.mp hm with rfl | hm
      · exact absurd ((inText_iff _ _).mpr hi) hno
      · exact ⟨l, hm, hi⟩

/-- A section or a network before the formats is an error. -/
theorem C74_formats_first {before after : List Text} {head line : Text} (hb : ∀ line ∈ before, ¬"[SECTION]".toList <:+: line)
    (hh : "[SECTION]".toList <:+: head) (hlong : 2 < line.length) (hf : NoFormat line) :
    parseSections (before ++ head :: line :: after) = .error .valueError := by
  obtain ⟨t1, t2⟩ := noFormat_tests hf
  have hstep : sectionLine {} line = .error .valueError := by
    unfold sectionLine
    rw [t1, t2]
    simp only [Bool.false_eq_true, if_false]
    split <;> rfl
  rw [sections_before hb, parseSections, if_pos ((inText_iff _ _).mpr hh), sectionLines, if_pos hlong, hstep]

/-! ### an example -/

/-- a file with two networks -/
def sectionFile : List Text :=
  ["[GENERAL]\n".toList, "\n".toList, "[SECTION]\n".toList, "FORMAT_Section=SectionID,FromNodeID,ToNodeID,Phase\n".toList,
    "FORMAT_Feeder=NetworkID,HeadNodeID\n".toList, "FEEDER=F1,N1\n".toList, "S1,N1,N2,ABC\n".toList, "S2,N2,N3,A\n".toList,
    "SUBSTATION=F2,N9\n".toList, "S3,N9,N8,BC\n".toList, "\n".toList, "[NODE]\n".toList]

/-- what the file says -/
def sectionNets : List Network :=
  [⟨"FEEDER".toList, ["F1".toList, "N1".toList], [["S1".toList, "N1".toList, "N2".toList, "ABC".toList],
      ["S2".toList, "N2".toList, "N3".toList, "A".toList]]⟩,
    ⟨"SUBSTATION".toList, ["F2".toList, "N9".toList], [["S3".toList, "N9".toList, "N8".toList, "BC".toList]]⟩]

/-- the columns of the networks -/
def sectionNetCols : List Text := ["NetworkID".toList, "HeadNodeID".toList]

/-- the columns of the sections -/
def sectionCols : List Text := ["SectionID".toList, "FromNodeID".toList, "ToNodeID".toList, "Phase".toList]

theorem noFormat_of {line : Text} (h : inText "format_".toList (lower line) = false) : NoFormat line := by
  intro hi
  rw [(inText_iff _ (lower line)).mpr hi] at h
  cases h

theorem sectionFile_lines : TableLines (sectionFile.take 10) sectionNetCols sectionCols sectionNets := by
  refine ⟨["[GENERAL]\n".toList, "\n".toList], "[SECTION]\n".toList, "FORMAT_Section=SectionID,FromNodeID,ToNodeID,Phase\n".toList,
    "FORMAT_Feeder=NetworkID,HeadNodeID\n".toList, [["FEEDER=F1,N1\n".toList, "S1,N1,N2,ABC\n".toList, "S2,N2,N3,A\n".toList],
    ["SUBSTATION=F2,N9\n".toList, "S3,N9,N8,BC\n".toList]], rfl, ?_, ?_, Or.inl ⟨?_, ?_⟩, .cons ?_ (.cons ?_ .nil)⟩
  · intro line hl hi
    have := (inText_iff _ _).mpr hi
    rcases List.mem_cons.mp hl with rfl | hl
    · revert this; decide
    · rw [List.mem_singleton] at hl; subst hl; revert this; decide
  · exact ⟨[], ['\n'], rfl⟩
  · exact ⟨"FORMAT_Section".toList, by decide, by decide, by unfold CellText; decide, by decide, ['\n'], Or.inr (Or.inl rfl), rfl⟩
  · refine ⟨"FORMAT_Feeder".toList, "Feeder".toList, by decide, Or.inl (by decide), ⟨by decide, by unfold CellText; decide, by decide, ['\n'],
      Or.inr (Or.inl rfl), rfl⟩, ?_⟩
    intro hi
    have := (inText_iff _ _).mpr hi
    revert this
    decide +kernel
  · refine ⟨_, _, rfl, Or.inl (by decide), ⟨by decide, by unfold CellText; decide, by decide, ['\n'], Or.inr (Or.inl rfl), rfl⟩,
      noFormat_of (by decide +kernel), .cons ⟨by decide, by unfold CellText; decide, by decide, ['\n'], Or.inr (Or.inl rfl), rfl⟩
        (.cons ⟨by decide, by unfold CellText; decide, by decide, ['\n'], Or.inr (Or.inl rfl), rfl⟩ .nil), ?_⟩
    intro row hr
    rcases List.mem_cons.mp hr with rfl | hr
    · exact noFormat_of (by decide +kernel)
    · rw [List.mem_singleton] at hr; subst hr; exact noFormat_of (by decide +kernel)
  · refine ⟨_, _, rfl, Or.inr (Or.inl (by decide)), ⟨by decide, by unfold CellText; decide, by decide, ['\n'], Or.inr (Or.inl rfl), rfl⟩,
      noFormat_of (by decide +kernel), .cons ⟨by decide, by unfold CellText; decide, by decide, ['\n'], Or.inr (Or.inl rfl), rfl⟩ .nil, ?_⟩
    intro row hr
    rw [List.mem_singleton] at hr; subst hr; exact noFormat_of (by decide +kernel)

theorem sectionFile_table : SectionTable sectionFile sectionNetCols sectionCols sectionNets :=
  ⟨sectionFile.take 10, "\n".toList, ["[NODE]\n".toList], rfl, sectionFile_lines, by decide⟩

theorem sectionFile_columns : Columns sectionNetCols "networkid".toList ∧ Columns sectionCols "sectionid".toList ∧
    ∀ n ∈ sectionNets, n.values.length = sectionNetCols.length ∧ ∀ row ∈ n.sections, row.length = sectionCols.length :=
  ⟨⟨by decide, by decide⟩, ⟨by decide, by decide⟩, by decide⟩

example : ∃ s, parseSections sectionFile = .ok s := by
  obtain ⟨h1, h2, h3⟩ := sectionFile_columns
  obtain ⟨s, hs, -⟩ := C74_sections_partial sectionFile_table h1 h2 h3
  exact ⟨s, hs⟩

example : (parseSections sectionFile).toOption.map (fun s => (s.sectionFeeder, s.feederSections)) =
    some ([("s1".toList, "f1".toList), ("s2".toList, "f1".toList), ("s3".toList, "f2".toList)], [("f1".toList, []), ("f2".toList, [])]) := by
  decide +kernel

example : parseSections (sectionFile.take 10) = .error .stopIteration :=
  C74_end_violated sectionFile_lines sectionFile_columns.1 sectionFile_columns.2.1 sectionFile_columns.2.2

example : parseSections (sectionFile.take 10 ++ ["[NODE]\n".toList]) = .error .valueError :=
  C74_next_table_violated sectionFile_lines sectionFile_columns.1 sectionFile_columns.2.1 sectionFile_columns.2.2 (by decide) (by decide)
    (noFormat_of (by decide +kernel)) (by decide) []

example : parseSections (sectionFile.take 10 ++ ["FORMAT_SECTION,N1,N2,A\n".toList]) = .error .indexError :=
  C74_format_word_violated sectionFile_lines sectionFile_columns.1 sectionFile_columns.2.1 sectionFile_columns.2.2
    (row := ["FORMAT_SECTION".toList, "N1".toList, "N2".toList, "A".toList])
    ⟨by decide, by unfold CellText; decide, by decide, ['\n'], Or.inr (Or.inl rfl), rfl⟩
    ((inText_iff _ _).mp (by decide +kernel)) []

/-- the same network with the columns in the other order -/
def networkLast : List Text :=
  ["[SECTION]\n".toList, "FORMAT_Section=SectionID,FromNodeID,ToNodeID,Phase\n".toList, "FORMAT_Feeder=HeadNodeID,NetworkID\n".toList,
    "FEEDER=N1,F1\n".toList, "S1,N1,N2,ABC\n".toList, "\n".toList]

/-- A network whose name stands in the last column has the end of the line in its name. -/
theorem C74_network_name_violated : ∃ s, parseSections networkLast = .ok s ∧ getEntry "s1".toList s.sectionFeeder = some "f1\n".toList ∧
    getEntry "f1".toList s.networkData = none := by
  refine ⟨(parseSections networkLast).toOption.get (by decide +kernel), ?_, by decide +kernel, by decide +kernel⟩
  decide +kernel

end Ditto.Cyme
