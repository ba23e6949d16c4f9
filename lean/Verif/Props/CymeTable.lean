import Verif.Lemmas.CymeTable

/-! C73: tables of CYME files. -/
namespace Ditto.Cyme
open Ditto Glm Cyme.Spec

/-- a query by names only: no other information and one format -/
def plainQuery (headers attrs : List Text) (mapping : List (Text × Nat)) : Query := { headers := headers, attrs := attrs, mapping := mapping }

/-- the entry of a row, for the format line `f` -/
def rowOf (attrs : List Text) (f : Text) (data : List Text) : Values := rowValues attrs (mappingOf attrs f) [] data

theorem rowLine_split {line : Text} {cells : List Text} (h : RowLine line cells) :
    ∃ e, Eol e ∧ Net.splitCh ',' line = endCells cells e ∧ '=' ∉ line := by
  obtain ⟨h2, hc, -, e, he, rfl⟩ := h
  have hne : cells ≠ [] := by rintro rfl; simp at h2
  refine ⟨e, he, split_cells hne (fun c h => (hc c h).1) (eol_plain he).1, ?_⟩
  have : ∀ cs : List Text, (∀ c ∈ cs, '=' ∉ c) → '=' ∉ joinCells cs := by
    intro cs
    induction cs with
    | nil => intro _; exact List.not_mem_nil
    | cons c cs ih =>
      intro hcs
      cases cs with
      | nil => exact hcs c List.mem_cons_self
      | cons d cs =>
        change '=' ∉ c ++ ',' :: joinCells (d :: cs)
        rw [List.mem_append, List.mem_cons, not_or, not_or]
        exact ⟨hcs c List.mem_cons_self, by decide, ih fun x hx => hcs x (List.mem_cons_of_mem _ hx)⟩
  rw [List.mem_append, not_or]
  exact ⟨this cells fun c h => (hc c h).2.1, (eol_plain he).2⟩

theorem row_step {line : Text} {cells : List Text} (h : RowLine line cells) (s : TableState) (info : Values) :
    ∃ e, Eol e ∧ tableRow info s line = { s with result := s.result ++
      [(freeKey (s.result.map (·.1)) s.result.length (keyOf cells), rowValues s.attrs s.mapping info (endCells cells e))] } := by
  obtain ⟨e, he, hs, heq⟩ := rowLine_split h
  refine ⟨e, he, ?_⟩
  unfold tableRow dataRow
  rw [if_neg heq, hs, if_pos (by rw [endCells_length]; exact h.1), endCells_head he]

theorem entry_row {attrs cols cells : List Text} {f e : Text} (ha : attrs.Nodup) (hf : FormatLine f cols) (he : Eol e) :
    Entry attrs (cols, cells) (keyOf cells, rowValues attrs (mappingOf attrs f) [] (endCells cells e)) := by
  have hget : ∀ k, getEntry k (rowValues attrs (mappingOf attrs f) [] (endCells cells e)) =
      if k ∈ attrs then cellOf (mappingOf attrs f) (endCells cells e) k else none := by
    intro k
    unfold rowValues
    change getEntry k (attrs.foldl (addCell (mappingOf attrs f) (endCells cells e)) []) = _
    rw [cells_get]
    split
    · cases cellOf (mappingOf attrs f) (endCells cells e) k <;> rfl
    · rfl
  have hcount : ∀ k ∈ attrs, attrs.count k = 1 := fun k hk => List.count_eq_one_of_mem ha hk
  have hsame := endCells_same he cells
  have hto : ∀ {k v}, Cell cols (endCells cells e) k v → ∃ c, Cell cols cells k c ∧ Same v c := by
    rintro k v ⟨i, hi, hv⟩
    have := hsame i
    rw [hv] at this
    cases hc : cells[i]? with
    | none => rw [hc] at this; cases this
    | some c => rw [hc] at this; exact ⟨c, ⟨i, hi, hc⟩, by injection this⟩
  have hfrom : ∀ {k c}, Cell cols cells k c → ∃ v, Cell cols (endCells cells e) k v := by
    rintro k c ⟨i, hi, hc⟩
    have := hsame i
    rw [hc] at this
    cases hv : (endCells cells e)[i]? with
    | none => rw [hv] at this; cases this
    | some v => exact ⟨v, i, hi, hv⟩
  refine ⟨rfl, fun k => ⟨?_, ?_⟩⟩
  · rintro ⟨hk, c, hc⟩
    obtain ⟨v, hv⟩ := hfrom hc
    obtain ⟨c', hc', hs⟩ := hto hv
    refine ⟨v, c', ?_, hc', hs⟩
    rw [hget, if_pos hk]
    exact (cellOf_iff hf (hcount k hk) _ _).mpr hv
  · intro hno
    rw [hget]
    split
    · rename_i hk
      cases hv : cellOf (mappingOf attrs f) (endCells cells e) k with
      | none => rfl
      | some v =>
        obtain ⟨c, hc, -⟩ := hto ((cellOf_iff hf (hcount k hk) _ _).mp hv)
        exact absurd ⟨hk, c, hc⟩ hno
    · rfl

/-- the rows of a table -/
theorem table_rows {attrs more cols : List Text} {f : Text} (ha : attrs.Nodup) (hf : FormatLine f cols) {lines : List Text} {rows : List (List Text)}
    (h : List.Forall₂ RowLine lines rows) : ∀ (done : List (Text × Values)) (tail : List Text),
    (∀ r ∈ rows, keyOf r ∉ done.map (·.1)) → (rows.map keyOf).Nodup →
    ∃ new, List.Forall₂ (Entry attrs) (rows.map fun r => (cols, r)) new ∧
      tableRows [] { attrs := attrs, mapping := mappingOf attrs f, more := more, result := done } (lines ++ tail) =
        tableRows [] { attrs := attrs, mapping := mappingOf attrs f, more := more, result := done ++ new } tail := by
  induction h with
  | nil => intro done tail _ _; exact ⟨[], .nil, by rw [List.append_nil]; rfl⟩
  | @cons line row lines rows hl _ ih =>
    intro done tail hd hn
    obtain ⟨e, he, hstep⟩ := row_step hl { attrs := attrs, mapping := mappingOf attrs f, more := more, result := done } []
    rw [freeKey_free (hd row List.mem_cons_self)] at hstep
    rw [List.map_cons, List.nodup_cons] at hn
    obtain ⟨new, h1, h2⟩ := ih (done ++ [(keyOf row, rowValues attrs (mappingOf attrs f) [] (endCells row e))]) tail (by
      intro r hr hm
      rw [List.map_append, List.mem_append] at hm
      rcases hm with hm | hm
      · exact hd r (List.mem_cons_of_mem _ hr) hm
      · rw [List.map_singleton, List.mem_singleton] at hm
        have hm : keyOf r = keyOf row := hm
        exact hn.1 (by rw [← hm]; exact List.mem_map.mpr ⟨r, hr, rfl⟩)) hn.2
    refine ⟨_ :: new, .cons (entry_row ha hf he) h1, ?_⟩
    rw [List.cons_append, tableRows, if_pos hl.2.2.1, hstep]
    rw [List.append_assoc] at h2
    exact h2

theorem entries_keys {attrs : List Text} {rows : List (List Text × List Text)} {d : List (Text × Values)} (h : List.Forall₂ (Entry attrs) rows d) :
    d.map (·.1) = rows.map fun r => keyOf r.2 := by
  induction h with
  | nil => rfl
  | cons he _ ih => rw [List.map_cons, List.map_cons, ih, he.1]

/-- reading after a header, when the table has a format -/
theorem after_format {headers attrs : List Text} {mapping : List (Text × Nat)} {f : Text} {cols : List Text} (hf : FormatLine f cols) {rest : List Text}
    (hr : rest ≠ []) : afterHeader (plainQuery headers attrs mapping) (f :: rest) =
      .ok (tableRows [] { attrs := attrs, mapping := mappingOf attrs f } rest) := by
  cases rest with
  | nil => exact absurd rfl hr
  | cons next rest =>
    unfold afterHeader
    dsimp only
    rw [if_pos (columnNames_format hf).2]
    rfl

theorem lays_loop {headers attrs : List Text} {mapping : List (Text × Nat)} (ha : attrs.Nodup) {content : List Text} {ts : List Table}
    (h : Lays headers content ts) : ∀ (fuel : Nat) (d : List (Text × Values)), content.length ≤ fuel →
    ((rowsOf ts).map fun r => keyOf r.2).Nodup → (∀ r ∈ rowsOf ts, keyOf r.2 ∉ d.map (·.1)) →
    ∃ new, List.Forall₂ (Entry attrs) (rowsOf ts) new ∧ readLoop (plainQuery headers attrs mapping) fuel d content = .ok (d ++ new) := by
  induction h with
  | nil => intro fuel d _ _ _; refine ⟨[], .nil, ?_⟩; rw [List.append_nil]; cases fuel <;> rfl
  | @other line rest ts hno _ ih =>
    intro fuel d hfuel hn hd
    cases fuel with
    | zero => simp at hfuel
    | succ fuel =>
      obtain ⟨new, h1, h2⟩ := ih fuel d (by simpa using hfuel) hn hd
      refine ⟨new, h1, ?_⟩
      rw [readLoop]
      unfold parserHelper
      rw [if_neg (by rw [isHeader_iff]; exact hno)]
      exact h2
  | @table h f blank lines rest t ts hh hf hlines hb _ ih =>
    intro fuel d hfuel hn hd
    cases fuel with
    | zero => simp at hfuel
    | succ fuel =>
      have hsplit : rowsOf (t :: ts) = (t.rows.map fun r => (t.cols, r)) ++ rowsOf ts := rfl
      rw [hsplit] at hn hd ⊢
      rw [List.map_append, List.nodup_append] at hn
      obtain ⟨hn1, hn2, hn3⟩ := hn
      have hkeys : (t.rows.map keyOf).Nodup := by
        rw [List.map_map] at hn1; exact hn1
      obtain ⟨new1, e1, e2⟩ := table_rows ha hf hlines [] (blank :: rest) (fun _ _ h => by cases h) hkeys
      have hk1 := entries_keys e1
      have hupd : updateAll d new1 = d ++ new1 := by
        apply updateAll_fresh
        · rw [hk1]; exact hn1
        · intro p hp hm
          have : p.1 ∈ new1.map (·.1) := List.mem_map.mpr ⟨p, hp, rfl⟩
          rw [hk1] at this
          obtain ⟨r, hr, he⟩ := List.mem_map.mp this
          exact hd r (List.mem_append_left _ hr) (he ▸ hm)
      obtain ⟨new2, e3, e4⟩ := ih fuel (d ++ new1) (by
          simp only [List.length_cons, List.length_append] at hfuel; omega) hn2 (by
        intro r hr hm
        rw [List.map_append, List.mem_append] at hm
        rcases hm with hm | hm
        · exact hd r (List.mem_append_right _ hr) hm
        · rw [hk1] at hm
          exact hn3 _ hm _ (List.mem_map.mpr ⟨r, hr, rfl⟩) rfl)
      refine ⟨new1 ++ new2, List.rel_append e1 e3, ?_⟩
      rw [readLoop]
      unfold parserHelper
      rw [if_pos (by rw [show (plainQuery headers attrs mapping).headers = headers from rfl, isHeader_iff]; exact hh), after_format hf (by simp), e2]
      rw [tableRows, if_neg (by omega)]
      dsimp only
      rw [List.nil_append, hupd, e4, List.append_assoc]
  | @last h f lines t hh hf hlines hne =>
    intro fuel d hfuel hn hd
    cases fuel with
    | zero => simp at hfuel
    | succ fuel =>
      have hsplit : rowsOf [t] = t.rows.map fun r => (t.cols, r) := by unfold rowsOf; simp
      rw [hsplit] at hn hd ⊢
      have hkeys : (t.rows.map keyOf).Nodup := by
        rw [List.map_map] at hn; exact hn
      obtain ⟨new1, e1, e2⟩ := table_rows ha hf hlines [] [] (fun _ _ h => by cases h) hkeys
      rw [List.append_nil] at e2
      have hk1 := entries_keys e1
      have hupd : updateAll d new1 = d ++ new1 := by
        apply updateAll_fresh
        · rw [hk1]; exact hn
        · intro p hp hm
          have : p.1 ∈ new1.map (·.1) := List.mem_map.mpr ⟨p, hp, rfl⟩
          rw [hk1] at this
          obtain ⟨r, hr, he⟩ := List.mem_map.mp this
          exact hd r hr (he ▸ hm)
      refine ⟨new1, e1, ?_⟩
      have hl : lines ≠ [] := by rintro rfl; exact hne (List.forall₂_nil_left_iff.mp hlines)
      rw [readLoop]
      unfold parserHelper
      rw [if_pos (by rw [show (plainQuery headers attrs mapping).headers = headers from rfl, isHeader_iff]; exact hh), after_format hf hl, e2]
      rw [tableRows]
      dsimp only
      rw [List.nil_append, hupd]
      cases fuel <;> rfl

/-- C73 (part). From a file with tables, each one with a format and with an empty line or the end of the file after it, all rows of the tables
with the header are read, in order, and no other ones: each under its first cell, with the cells of the columns that have the names of the
attributes, up to blanks at the ends. The first cells must be different: see `C73_rows` and `C73_same_key_violated`. Values of the last column
keep the end of the line (`C73_last_column_violated`). -/
theorem C73_tables_partial {headers attrs : List Text} {mapping : List (Text × Nat)} (ha : attrs.Nodup) {content : List Text} {ts : List Table}
    (h : Lays headers content ts) (hn : ((rowsOf ts).map fun r => keyOf r.2).Nodup) :
    ∃ d, readTables (plainQuery headers attrs mapping) content = .ok d ∧ List.Forall₂ (Entry attrs) (rowsOf ts) d := by
  obtain ⟨new, h1, h2⟩ := lays_loop (mapping := mapping) ha h content.length [] (Nat.le_refl _) hn (fun _ _ h => by cases h)
  exact ⟨new, h2, h1⟩

/-! ### one table -/

theorem header_helper {headers attrs : List Text} {mapping : List (Text × Nat)} {h f : Text} {cols rest : List Text} (hh : Heads headers h)
    (hf : FormatLine f cols) (hr : rest ≠ []) : parserHelper (plainQuery headers attrs mapping) h (f :: rest) =
      .ok ((tableRows [] { attrs := attrs, mapping := mappingOf attrs f } rest).1.result,
        (tableRows [] { attrs := attrs, mapping := mappingOf attrs f } rest).2) := by
  unfold parserHelper
  rw [if_pos (by rw [show (plainQuery headers attrs mapping).headers = headers from rfl, isHeader_iff]; exact hh), after_format hf hr]

/-- C73. No row of a table is lost, even if first cells are equal: there is an entry for each row, and the keys are different. -/
theorem C73_rows {headers attrs : List Text} {mapping : List (Text × Nat)} {h f blank : Text} {cols lines rest : List Text}
    {rows : List (List Text)} (hh : Heads headers h) (hf : FormatLine f cols) (hl : List.Forall₂ RowLine lines rows) (hb : blank.length ≤ 2) :
    ∃ d, parserHelper (plainQuery headers attrs mapping) h (f :: (lines ++ blank :: rest)) = .ok (d, rest) ∧ d.length = rows.length ∧
      (d.map (·.1)).Nodup := by
  rw [header_helper hh hf (by simp)]
  have key : ∀ (s : TableState), (s.result.map (·.1)).Nodup → ∃ d, tableRows [] s (lines ++ blank :: rest) = ({ s with result := d }, rest) ∧
      d.length = s.result.length + rows.length ∧ (d.map (·.1)).Nodup := by
    clear hh hf
    induction hl with
    | nil =>
      intro s hs
      refine ⟨s.result, ?_, rfl, hs⟩
      rw [List.nil_append, tableRows, if_neg (by omega)]
    | @cons line row lines rows hr _ ih =>
      intro s hs
      obtain ⟨e, he, hstep⟩ := row_step hr s []
      obtain ⟨d, h1, h2, h3⟩ := ih (tableRow [] s line) (by
        rw [hstep]
        dsimp only
        rw [List.map_append, List.nodup_append]
        refine ⟨hs, List.nodup_singleton _, ?_⟩
        intro a ha b hb hab
        rw [List.map_singleton, List.mem_singleton] at hb
        have := freeKey_fresh (s.result.map (·.1)) (keyOf row)
        rw [List.length_map] at this
        rw [hab, hb] at ha
        exact this ha)
      refine ⟨d, ?_, ?_, h3⟩
      · rw [List.cons_append, tableRows, if_pos hr.2.2.1, h1, hstep]
      · rw [h2, hstep]
        simp only [List.length_append, List.length_cons, List.length_nil]
        omega
  obtain ⟨d, h1, h2, h3⟩ := key { attrs := attrs, mapping := mappingOf attrs f } List.nodup_nil
  exact ⟨d, by rw [h1], by simpa using h2, h3⟩

/-- C73 (violated). When two tables of a file have a row with the same first cell, the row of the first table is lost. -/
theorem C73_same_key_violated {headers attrs : List Text} {mapping : List (Text × Nat)} (ha : attrs.Nodup) {h₁ f₁ l₁ b₁ h₂ f₂ l₂ b₂ : Text}
    {cols₁ cols₂ r₁ r₂ : List Text} (hh₁ : Heads headers h₁) (hf₁ : FormatLine f₁ cols₁) (hl₁ : RowLine l₁ r₁) (hb₁ : b₁.length ≤ 2)
    (hh₂ : Heads headers h₂) (hf₂ : FormatLine f₂ cols₂) (hl₂ : RowLine l₂ r₂) (hb₂ : b₂.length ≤ 2) (hk : keyOf r₁ = keyOf r₂) :
    ∃ p, readTables (plainQuery headers attrs mapping) [h₁, f₁, l₁, b₁, h₂, f₂, l₂, b₂] = .ok [p] ∧ Entry attrs (cols₂, r₂) p := by
  have one : ∀ {h f l b : Text} {cols r : List Text} {rest : List Text}, Heads headers h → FormatLine f cols → RowLine l r → b.length ≤ 2 →
      ∃ p, parserHelper (plainQuery headers attrs mapping) h (f :: l :: b :: rest) = .ok ([p], rest) ∧ Entry attrs (cols, r) p := by
    intro h f l b cols r rest hh hf hl hb
    obtain ⟨new, e1, e2⟩ := table_rows ha hf (List.Forall₂.cons hl .nil) [] (b :: rest) (fun _ _ h => by cases h) (List.nodup_singleton _)
    rw [List.map_singleton, List.forall₂_cons_left_iff] at e1
    obtain ⟨p, u, hp, hu, rfl⟩ := e1
    obtain rfl := List.forall₂_nil_left_iff.mp hu
    refine ⟨p, ?_, hp⟩
    rw [header_helper hh hf (by simp)]
    change Except.ok ((tableRows [] _ ([l] ++ b :: rest)).1.result, (tableRows [] _ ([l] ++ b :: rest)).2) = _
    rw [e2, tableRows, if_neg (by omega)]
    rfl
  obtain ⟨p₁, e1, hp1⟩ := one (rest := [h₂, f₂, l₂, b₂]) hh₁ hf₁ hl₁ hb₁
  obtain ⟨p₂, e2, hp2⟩ := one (rest := []) hh₂ hf₂ hl₂ hb₂
  refine ⟨p₂, ?_, hp2⟩
  unfold readTables
  change readLoop _ 8 [] _ = _
  rw [readLoop, e1]
  dsimp only
  rw [readLoop, e2]
  dsimp only
  have : updateAll (updateAll [] [p₁]) [p₂] = [p₂] := by
    obtain ⟨k₁, v₁⟩ := p₁
    obtain ⟨k₂, v₂⟩ := p₂
    have h1 : k₁ = keyOf r₁ := hp1.1
    have h2 : k₂ = keyOf r₂ := hp2.1
    change setEntry k₂ v₂ [(k₁, v₁)] = _
    rw [setEntry, if_pos (by rw [h1, h2, hk])]
  rw [this]
  rfl

/-- C73 (violated). When a table is followed by another one without an empty line, the rows of the other table are read as its rows. -/
theorem C73_glued_violated {headers attrs : List Text} {mapping : List (Text × Nat)} (ha : attrs.Nodup) {h f h₂ f₂ blank : Text}
    {cols lines lines₂ rest : List Text} {rows rows₂ : List (List Text)} (hh : Heads headers h) (hf : FormatLine f cols)
    (hl : List.Forall₂ RowLine lines rows) (hh₂ : ',' ∉ h₂ ∧ '=' ∉ h₂ ∧ 2 < h₂.length) (hf₂ : '=' ∈ f₂ ∧ 2 < f₂.length)
    (hl₂ : List.Forall₂ RowLine lines₂ rows₂) (hb : blank.length ≤ 2) (hn : ((rows ++ rows₂).map keyOf).Nodup) :
    ∃ d, parserHelper (plainQuery headers attrs mapping) h (f :: (lines ++ h₂ :: f₂ :: (lines₂ ++ blank :: rest))) = .ok (d, rest) ∧
      List.Forall₂ (Entry attrs) ((rows ++ rows₂).map fun r => (cols, r)) d := by
  rw [List.map_append, List.nodup_append] at hn
  obtain ⟨hn1, hn2, hn3⟩ := hn
  obtain ⟨new1, e1, e2⟩ := table_rows ha hf hl [] (h₂ :: f₂ :: (lines₂ ++ blank :: rest)) (fun _ _ h => by cases h) hn1
  have hk := entries_keys e1
  obtain ⟨new2, e3, e4⟩ := table_rows ha hf hl₂ new1 (blank :: rest) (by
    intro r hr hm
    rw [hk, List.map_map] at hm
    exact hn3 _ hm _ (List.mem_map.mpr ⟨r, hr, rfl⟩) rfl) hn2
  refine ⟨new1 ++ new2, ?_, by rw [List.map_append]; exact List.rel_append e1 e3⟩
  rw [header_helper hh hf (by simp), e2, tableRows, if_pos hh₂.2.2]
  have hs1 : ∀ s, tableRow [] s h₂ = s := by
    intro s
    unfold tableRow dataRow
    rw [if_neg hh₂.2.1, Net.splitCh_not_mem hh₂.1, if_neg (by simp)]
  have hs2 : ∀ s : TableState, s.more = [] → tableRow [] s f₂ = s := by
    intro s hs
    unfold tableRow formatRow
    rw [if_pos hf₂.1, if_pos hs]
  rw [hs1, tableRows, if_pos hf₂.2, hs2 _ rfl, List.nil_append, e4, tableRows, if_neg (by omega)]

/-- C73 (violated). A row with an equality sign in one of its cells is lost. -/
theorem C73_equality_violated {headers attrs : List Text} {mapping : List (Text × Nat)} (ha : attrs.Nodup) {h f bad blank : Text}
    {cols lines lines₂ rest : List Text} {rows rows₂ : List (List Text)} (hh : Heads headers h) (hf : FormatLine f cols)
    (hl : List.Forall₂ RowLine lines rows) (hbad : '=' ∈ bad ∧ 2 < bad.length) (hl₂ : List.Forall₂ RowLine lines₂ rows₂) (hb : blank.length ≤ 2)
    (hn : ((rows ++ rows₂).map keyOf).Nodup) :
    ∃ d, parserHelper (plainQuery headers attrs mapping) h (f :: (lines ++ bad :: (lines₂ ++ blank :: rest))) = .ok (d, rest) ∧
      List.Forall₂ (Entry attrs) ((rows ++ rows₂).map fun r => (cols, r)) d := by
  rw [List.map_append, List.nodup_append] at hn
  obtain ⟨hn1, hn2, hn3⟩ := hn
  obtain ⟨new1, e1, e2⟩ := table_rows ha hf hl [] (bad :: (lines₂ ++ blank :: rest)) (fun _ _ h => by cases h) hn1
  have hk := entries_keys e1
  obtain ⟨new2, e3, e4⟩ := table_rows ha hf hl₂ new1 (blank :: rest) (by
    intro r hr hm
    rw [hk, List.map_map] at hm
    exact hn3 _ hm _ (List.mem_map.mpr ⟨r, hr, rfl⟩) rfl) hn2
  refine ⟨new1 ++ new2, ?_, by rw [List.map_append]; exact List.rel_append e1 e3⟩
  rw [header_helper hh hf (by simp), e2, tableRows, if_pos hbad.2]
  have hs2 : ∀ s : TableState, s.more = [] → tableRow [] s bad = s := by
    intro s hs
    unfold tableRow formatRow
    rw [if_pos hbad.1, if_pos hs]
  rw [hs2 _ rfl, List.nil_append, e4, tableRows, if_neg (by omega)]

theorem loop_other {q : Query} {pre : List Text} (hp : ∀ l ∈ pre, ¬Heads q.headers l) (rest : List Text) (d : List (Text × Values)) :
    ∀ fuel, pre.length ≤ fuel → readLoop q fuel d (pre ++ rest) = readLoop q (fuel - pre.length) d rest := by
  induction pre with
  | nil => intro fuel _; rfl
  | cons l pre ih =>
    intro fuel hf
    cases fuel with
    | zero => simp at hf
    | succ fuel =>
      rw [List.cons_append, readLoop]
      unfold parserHelper
      rw [if_neg (by rw [isHeader_iff]; exact hp l List.mem_cons_self)]
      dsimp only
      change readLoop q fuel d (pre ++ rest) = _
      rw [ih (fun x hx => hp x (List.mem_cons_of_mem _ hx)) fuel (by simpa using hf), List.length_cons, Nat.add_sub_add_right]

/-- C73 (violated). A file that ends with a header, or with the format after a header, cannot be read at all: there is no empty table at the end
of a file. -/
theorem C73_cut_violated {headers attrs : List Text} {mapping : List (Text × Nat)} {pre cols : List Text} {h f : Text}
    (hp : ∀ l ∈ pre, ¬Heads headers l) (hh : Heads headers h) (hf : FormatLine f cols) :
    readTables (plainQuery headers attrs mapping) (pre ++ [h]) = .error .stopIteration ∧
      readTables (plainQuery headers attrs mapping) (pre ++ [h, f]) = .error .stopIteration := by
  have hhd : isHeader (plainQuery headers attrs mapping).headers h = true := by
    rw [show (plainQuery headers attrs mapping).headers = headers from rfl, isHeader_iff]; exact hh
  constructor
  · unfold readTables
    rw [loop_other (q := plainQuery headers attrs mapping) hp [h] [] _ (by simp), List.length_append, Nat.add_sub_cancel_left]
    change readLoop _ 1 _ _ = _
    rw [readLoop]
    unfold parserHelper
    rw [if_pos hhd]
    rfl
  · unfold readTables
    rw [loop_other (q := plainQuery headers attrs mapping) hp [h, f] [] _ (by simp), List.length_append, Nat.add_sub_cancel_left]
    change readLoop _ 2 _ _ = _
    rw [readLoop]
    unfold parserHelper
    rw [if_pos hhd]
    unfold afterHeader
    dsimp only
    rw [if_pos (columnNames_format hf).2]

theorem endCells_last {cells : List Text} {c : Text} (e : Text) (hc : cells.getLast? = some c) :
    (endCells cells e)[cells.length - 1]? = some (c ++ e) := by
  induction cells with
  | nil => cases hc
  | cons a cs ih =>
    cases cs with
    | nil => obtain rfl : a = c := by injection hc
             rfl
    | cons d cs =>
      have : (d :: cs).getLast? = some c := by rw [List.getLast?_cons_cons] at hc; exact hc
      exact ih this

/-- C73 (violated). The values of the last column are not the cells: they keep the end of the line. -/
theorem C73_last_column_violated {headers attrs : List Text} {mapping : List (Text × Nat)} (ha : attrs.Nodup) {h f blank k c e : Text}
    {cols cells rest : List Text} (hh : Heads headers h) (hf : FormatLine f cols) (hl : RowLine (joinCells cells ++ e) cells) (he : Eol e)
    (hne : e ≠ []) (hb : blank.length ≤ 2) (hk : k ∈ attrs) (hcol : IsColumn cols k (cells.length - 1)) (hc : cells.getLast? = some c) :
    ∃ p, parserHelper (plainQuery headers attrs mapping) h (f :: (joinCells cells ++ e) :: blank :: rest) = .ok ([p], rest) ∧
      getEntry k p.2 = some (c ++ e) ∧ c ++ e ≠ c := by
  have hsp : Net.splitCh ',' (joinCells cells ++ e) = endCells cells e :=
    split_cells (by rintro rfl; cases hc) (fun x hx => (hl.2.1 x hx).1) (eol_plain he).1
  obtain ⟨-, -, -, heq⟩ := rowLine_split hl
  refine ⟨(freeKey [] 0 (rowId (endCells cells e)), rowValues attrs (mappingOf attrs f) [] (endCells cells e)), ?_, ?_, by simpa using hne⟩
  · rw [header_helper hh hf (by simp), tableRows, if_pos hl.2.2.1]
    have hstep : tableRow [] { attrs := attrs, mapping := mappingOf attrs f } (joinCells cells ++ e) =
        { attrs := attrs, mapping := mappingOf attrs f,
          result := [(freeKey [] 0 (rowId (endCells cells e)), rowValues attrs (mappingOf attrs f) [] (endCells cells e))] } := by
      unfold tableRow dataRow
      rw [if_neg heq, hsp, if_pos (by rw [endCells_length]; exact hl.1)]
      rfl
    rw [hstep, tableRows, if_neg (by omega)]
  · unfold rowValues
    change getEntry k (attrs.foldl (addCell (mappingOf attrs f) (endCells cells e)) []) = _
    rw [cells_get, if_pos hk, (cellOf_iff hf (List.count_eq_one_of_mem ha hk) _ (c ++ e)).mpr ⟨_, hcol, endCells_last e hc⟩]
    rfl

/-- C73. When a table has a second format in between, as the tables of line settings have, the rows after it are read by its columns. -/
theorem C73_second_format {headers attrs more : List Text} {mapping : List (Text × Nat)} (ha : attrs.Nodup) (hm : more.Nodup) (hne : more ≠ [])
    {h f f₂ blank : Text} {cols cols₂ lines lines₂ rest : List Text} {rows rows₂ : List (List Text)} (hh : Heads headers h) (hf : FormatLine f cols)
    (hl : List.Forall₂ RowLine lines rows) (hf₂ : FormatLine f₂ cols₂) (hl₂ : List.Forall₂ RowLine lines₂ rows₂)
    (hb : blank.length ≤ 2) (hn : ((rows ++ rows₂).map keyOf).Nodup) :
    ∃ d d₂, parserHelper { headers := headers, attrs := attrs, mapping := mapping, more := more } h
        (f :: (lines ++ f₂ :: (lines₂ ++ blank :: rest))) = .ok (d ++ d₂, rest) ∧
      List.Forall₂ (Entry attrs) (rows.map fun r => (cols, r)) d ∧ List.Forall₂ (Entry more) (rows₂.map fun r => (cols₂, r)) d₂ := by
  rw [List.map_append, List.nodup_append] at hn
  obtain ⟨hn1, hn2, hn3⟩ := hn
  obtain ⟨new1, e1, e2⟩ := table_rows (more := more) ha hf hl [] (f₂ :: (lines₂ ++ blank :: rest)) (fun _ _ h => by cases h) hn1
  have hk := entries_keys e1
  obtain ⟨new2, e3, e4⟩ := table_rows (more := []) hm hf₂ hl₂ new1 (blank :: rest) (by
    intro r hr hm
    rw [hk, List.map_map] at hm
    exact hn3 _ hm _ (List.mem_map.mpr ⟨r, hr, rfl⟩) rfl) hn2
  refine ⟨new1, new2, ?_, e1, e3⟩
  unfold parserHelper
  dsimp only
  rw [if_pos ((isHeader_iff _ _).mpr hh)]
  have haft : afterHeader { headers := headers, attrs := attrs, mapping := mapping, more := more } (f :: (lines ++ f₂ :: (lines₂ ++ blank :: rest))) =
      .ok (tableRows [] { attrs := attrs, mapping := mappingOf attrs f, more := more } (lines ++ f₂ :: (lines₂ ++ blank :: rest))) := by
    unfold afterHeader
    dsimp only
    rw [if_pos (columnNames_format hf).2]
    cases hcase : lines ++ f₂ :: (lines₂ ++ blank :: rest) with
    | nil => simp at hcase
    | cons n r => rfl
  obtain ⟨-, -, name, e, -, -, hfo, hf2⟩ := hf₂
  have h2 : '=' ∈ f₂ := by rw [hf2]; simp
  have h3 : 2 < f₂.length := by
    have := hfo.length_le
    rw [List.length_map] at this
    have h6 : ("format".toList).length = 6 := rfl
    rw [hf2, List.length_append]
    omega
  have hs : tableRow [] { attrs := attrs, mapping := mappingOf attrs f, more := more, result := new1 } f₂ =
      { attrs := more, mapping := mappingOf more f₂, result := new1 } := by
    unfold tableRow formatRow
    rw [if_pos h2, if_neg hne]
  rw [haft, e2, tableRows, if_pos h3, List.nil_append, hs, e4, tableRows, if_neg (by omega)]

/-! ### tables without format -/

/-- the entry has the cells at the given positions -/
def AtPositions (attrs : List Text) (mapping : List (Text × Nat)) (row : List Text) (p : Text × Values) : Prop :=
  p.1 = keyOf row ∧ ∀ k ∈ attrs, ∀ i, getEntry k mapping = some i → (getEntry k p.2).map Net.pyStrip = (row[i]?).map Net.pyStrip

theorem bare_rows {attrs : List Text} {mapping : List (Text × Nat)} {lines : List Text} {rows : List (List Text)}
    (h : List.Forall₂ RowLine lines rows) : ∀ (done : List (Text × Values)) (tail : List Text),
    (∀ r ∈ rows, keyOf r ∉ done.map (·.1)) → (rows.map keyOf).Nodup →
    ∃ new, List.Forall₂ (AtPositions attrs mapping) rows new ∧ (mapping = [] → ∀ p ∈ new, p.2 = []) ∧
      tableRows [] { attrs := attrs, mapping := mapping, result := done } (lines ++ tail) =
        tableRows [] { attrs := attrs, mapping := mapping, result := done ++ new } tail := by
  induction h with
  | nil => intro done tail _ _; exact ⟨[], .nil, (fun _ _ h => by cases h), by rw [List.append_nil]; rfl⟩
  | @cons line row lines rows hl _ ih =>
    intro done tail hd hn
    obtain ⟨e, he, hstep⟩ := row_step hl { attrs := attrs, mapping := mapping, result := done } []
    rw [freeKey_free (hd row List.mem_cons_self)] at hstep
    rw [List.map_cons, List.nodup_cons] at hn
    obtain ⟨new, h1, h0, h2⟩ := ih (done ++ [(keyOf row, rowValues attrs mapping [] (endCells row e))]) tail (by
      intro r hr hm
      rw [List.map_append, List.mem_append] at hm
      rcases hm with hm | hm
      · exact hd r (List.mem_cons_of_mem _ hr) hm
      · rw [List.map_singleton, List.mem_singleton] at hm
        have hm : keyOf r = keyOf row := hm
        exact hn.1 (by rw [← hm]; exact List.mem_map.mpr ⟨r, hr, rfl⟩)) hn.2
    refine ⟨(keyOf row, rowValues attrs mapping [] (endCells row e)) :: new, .cons ⟨rfl, ?_⟩ h1, ?_, ?_⟩
    · intro k hk i hi
      have : getEntry k (rowValues attrs mapping [] (endCells row e)) = (endCells row e)[i]? := by
        unfold rowValues
        change getEntry k (attrs.foldl (addCell mapping (endCells row e)) []) = _
        rw [cells_get, if_pos hk, cellOf, hi]
        dsimp only
        cases (endCells row e)[i]? <;> rfl
      rw [this]
      exact endCells_same he row i
    · intro hm p hp
      rcases List.mem_cons.mp hp with rfl | hp
      · subst hm
        change updateAll (attrs.foldl (addCell [] _) []) [] = []
        have : ∀ l : List Text, l.foldl (addCell [] (endCells row e)) [] = [] := by
          intro l
          induction l with
          | nil => rfl
          | cons a l ih => rw [List.foldl_cons]; exact ih
        rw [this]; rfl
      · exact h0 hm p hp
    · rw [List.cons_append, tableRows, if_pos hl.2.2.1, hstep]
      rw [List.append_assoc] at h2
      exact h2

/-- C73. A table without format is read by the positions that are known for its columns. -/
theorem C73_positions {headers attrs : List Text} {mapping : List (Text × Nat)} {h blank : Text} {lines rest : List Text}
    {rows : List (List Text)} (hh : Heads headers h) (hl : List.Forall₂ RowLine lines rows) (hb : blank.length ≤ 2)
    (hfirst : ∀ l, lines.head? = some l → ¬"format".toList <:+: l.map Char.toLower) (hblank : lines = [] → ¬"format".toList <:+: blank.map Char.toLower)
    (hn : (rows.map keyOf).Nodup) :
    ∃ d, parserHelper (plainQuery headers attrs mapping) h (lines ++ blank :: rest) = .ok (d, rest) ∧
      List.Forall₂ (AtPositions attrs mapping) rows d := by
  obtain ⟨new, e1, -, e2⟩ := bare_rows (attrs := attrs) (mapping := mapping) hl [] (blank :: rest) (fun _ _ h => by cases h) hn
  refine ⟨new, ?_, e1⟩
  unfold parserHelper
  rw [if_pos (by rw [show (plainQuery headers attrs mapping).headers = headers from rfl, isHeader_iff]; exact hh)]
  have haft : afterHeader (plainQuery headers attrs mapping) (lines ++ blank :: rest) =
      .ok (tableRows [] { attrs := attrs, mapping := mapping } (lines ++ blank :: rest)) := by
    cases lines with
    | nil =>
      rw [List.nil_append]
      unfold afterHeader
      dsimp only
      rw [if_neg (by rw [inText_iff]; exact hblank rfl)]
      rfl
    | cons l lines =>
      rw [List.cons_append]
      unfold afterHeader
      dsimp only
      rw [if_neg (by rw [inText_iff]; exact hfirst l rfl)]
      rfl
  rw [haft, e2, tableRows, if_neg (by omega), List.nil_append]

/-- C73 (violated). When the first row of a table without format contains the word format, that row is lost and the other rows lose all of their
values. -/
theorem C73_format_word_violated {headers attrs : List Text} {mapping : List (Text × Nat)} {h first blank : Text} {lines rest : List Text}
    {row : List Text} {rows : List (List Text)} (hh : Heads headers h) (hfirst : RowLine first row)
    (hword : "format".toList <:+: first.map Char.toLower) (hl : List.Forall₂ RowLine lines rows) (hb : blank.length ≤ 2)
    (hn : (rows.map keyOf).Nodup) :
    parserHelper (plainQuery headers attrs mapping) h (first :: (lines ++ blank :: rest)) = .ok (rows.map fun r => (keyOf r, []), rest) := by
  obtain ⟨new, e1, e0, e2⟩ := bare_rows (attrs := attrs) (mapping := []) hl [] (blank :: rest) (fun _ _ h => by cases h) hn
  have hnew : new = rows.map fun r => (keyOf r, []) := by
    have h0 := e0 rfl
    clear e0 e2 hn hl
    induction e1 with
    | nil => rfl
    | @cons r p rows new hp _ ih =>
      rw [List.map_cons, ih fun q hq => h0 q (List.mem_cons_of_mem _ hq)]
      congr 1
      exact Prod.ext hp.1 (h0 p List.mem_cons_self)
  unfold parserHelper
  rw [if_pos (by rw [show (plainQuery headers attrs mapping).headers = headers from rfl, isHeader_iff]; exact hh)]
  obtain ⟨-, -, -, heq⟩ := rowLine_split hfirst
  have hmap : mappingOf attrs first = [] := by
    unfold mappingOf columnNames
    rw [Net.splitCh_not_mem heq]
  have haft : afterHeader (plainQuery headers attrs mapping) (first :: (lines ++ blank :: rest)) =
      .ok (tableRows [] { attrs := attrs, mapping := [] } (lines ++ blank :: rest)) := by
    unfold afterHeader
    dsimp only
    rw [if_pos (by rw [inText_iff]; exact hword)]
    cases hcase : lines ++ blank :: rest with
    | nil => simp at hcase
    | cons n r =>
      dsimp only
      rw [show (plainQuery headers attrs mapping).attrs = attrs from rfl, hmap]
      rfl
  rw [haft, e2, tableRows, if_neg (by omega), List.nil_append, hnew]

/-! ### additional information -/

theorem updateAll_get {V : Type} {e : List (Text × V)} (hn : (e.map (·.1)).Nodup) {k : Text} {v : V} (h : (k, v) ∈ e) (d : List (Text × V)) :
    getEntry k (updateAll d e) = some v := by
  unfold updateAll
  induction e generalizing d with
  | nil => cases h
  | cons p e ih =>
    rw [List.map_cons, List.nodup_cons] at hn
    rw [List.foldl_cons]
    rcases List.mem_cons.mp h with rfl | h
    · have hno : ∀ (e : List (Text × V)) (d : List (Text × V)), k ∉ e.map (·.1) →
          getEntry k (e.foldl (fun d p => setEntry p.1 p.2 d) d) = getEntry k d := by
        intro e
        induction e with
        | nil => intro d _; rfl
        | cons q e ih =>
          intro d hk
          rw [List.map_cons, List.mem_cons, not_or] at hk
          rw [List.foldl_cons, ih _ hk.2, getEntry_setEntry, if_neg hk.1]
      rw [hno e _ hn.1, getEntry_setEntry, if_pos rfl]
    · exact ih hn.2 h _

/-- C73. The additional information stands in each entry, whatever the table says. -/
theorem C73_information {q : Query} (hi : (q.info.map (·.1)).Nodup) {line : Text} {content : List Text} {d : List (Text × Values)} {rest : List Text}
    (h : parserHelper q line content = .ok (d, rest)) : ∀ p ∈ d, ∀ k v, (k, v) ∈ q.info → getEntry k p.2 = some v := by
  have hrows : ∀ (lines : List Text) (s : TableState), (∀ p ∈ s.result, ∀ k v, (k, v) ∈ q.info → getEntry k p.2 = some v) →
      ∀ p ∈ (tableRows q.info s lines).1.result, ∀ k v, (k, v) ∈ q.info → getEntry k p.2 = some v := by
    intro lines
    induction lines with
    | nil => intro s hs; exact hs
    | cons l lines ih =>
      intro s hs
      rw [tableRows]
      split
      · refine ih _ ?_
        unfold tableRow
        split
        · unfold formatRow
          split
          · exact hs
          · exact hs
        · unfold dataRow
          split
          · intro p hp k v hkv
            rcases List.mem_append.mp hp with hp | hp
            · exact hs p hp k v hkv
            · rw [List.mem_singleton.mp hp]
              exact updateAll_get hi hkv _
          · exact hs
      · exact hs
  unfold parserHelper at h
  split at h
  · cases ha : afterHeader q content with
    | error e => rw [ha] at h; cases h
    | ok r =>
      rw [ha] at h
      obtain ⟨s, r'⟩ := r
      cases h
      cases content with
      | nil => cases ha
      | cons line rest' =>
        unfold afterHeader at ha
        dsimp only at ha
        by_cases hf : inText "format".toList (lower line) = true
        · rw [if_pos hf] at ha
          cases rest' with
          | nil => cases ha
          | cons next rest' =>
            have := hrows (next :: rest') { attrs := q.attrs, mapping := mappingOf q.attrs line, more := q.more } (fun _ h => by cases h)
            injection ha with ha
            rw [ha] at this
            exact this
        · rw [if_neg hf] at ha
          have := hrows (line :: rest') { attrs := q.attrs, mapping := q.mapping, more := q.more } (fun _ h => by cases h)
          injection ha with ha
          rw [ha] at this
          exact this
  · cases h
    intro p hp
    cases hp

/-! ### cases that meet the hypotheses -/

/-- a file with two tables of nodes and another table between them -/
def exLines : List Text :=
  ["[SI]\n".toList, "[NODE]\n".toList, "FORMAT_NODE=NodeID,CoordX,CoordY\n".toList, "n1,1,2\n".toList, "n2 ,3,4\n".toList, "\n".toList,
    "[LOADS]\n".toList, "l1,5\n".toList, "\n".toList, "[NODE]\n".toList, "FORMAT_NODE=NodeID,CoordY\n".toList, "n3,7".toList]

/-- its tables -/
def exTables : List Table :=
  [⟨["NodeID".toList, "CoordX".toList, "CoordY".toList], [["n1".toList, "1".toList, "2".toList], ["n2 ".toList, "3".toList, "4".toList]]⟩,
    ⟨["NodeID".toList, "CoordY".toList], [["n3".toList, "7".toList]]⟩]

theorem ex_noHead (headers : List Text) (l : Text) (h : isHeader headers l = false) : ¬Heads headers l := by
  intro hh
  rw [(isHeader_iff _ _).mpr hh] at h
  cases h

theorem ex_format₁ : FormatLine "FORMAT_NODE=NodeID,CoordX,CoordY\n".toList ["NodeID".toList, "CoordX".toList, "CoordY".toList] :=
  ⟨by decide, by unfold CellText; decide, "FORMAT_NODE".toList, ['\n'], Or.inr (Or.inl rfl), by decide, ⟨[], "_node".toList, by decide⟩, by decide⟩

theorem ex_format₂ : FormatLine "FORMAT_NODE=NodeID,CoordY\n".toList ["NodeID".toList, "CoordY".toList] :=
  ⟨by decide, by unfold CellText; decide, "FORMAT_NODE".toList, ['\n'], Or.inr (Or.inl rfl), by decide, ⟨[], "_node".toList, by decide⟩, by decide⟩

theorem ex_row {line : Text} {cells : List Text} {e : Text} (h1 : 2 ≤ cells.length) (h2 : ∀ c ∈ cells, ',' ∉ c ∧ '=' ∉ c ∧ '\n' ∉ c ∧ '\r' ∉ c)
    (he : Eol e) (h3 : line = joinCells cells ++ e) (h4 : 2 < line.length) : RowLine line cells := ⟨h1, h2, h4, e, he, h3⟩

theorem ex_head : Heads ["[NODE]".toList] "[NODE]\n".toList := ⟨_, List.mem_cons_self, [], ['\n'], rfl⟩

theorem ex_n1 : RowLine "n1,1,2\n".toList ["n1".toList, "1".toList, "2".toList] :=
  ex_row (e := ['\n']) (by decide) (by decide) (Or.inr (Or.inl rfl)) (by decide) (by decide)

theorem ex_n2 : RowLine "n2 ,3,4\n".toList ["n2 ".toList, "3".toList, "4".toList] :=
  ex_row (e := ['\n']) (by decide) (by decide) (Or.inr (Or.inl rfl)) (by decide) (by decide)

theorem ex_n3 : RowLine "n3,7".toList ["n3".toList, "7".toList] :=
  ex_row (e := []) (by decide) (by decide) (Or.inl rfl) (by decide) (by decide)

theorem ex_tables : Lays ["[NODE]".toList] exLines exTables := by
  refine .other (ex_noHead _ _ (by decide)) ?_
  refine .table (lines := ["n1,1,2\n".toList, "n2 ,3,4\n".toList]) ex_head ex_format₁ (.cons ex_n1 (.cons ex_n2 .nil)) (by decide) ?_
  refine .other (ex_noHead _ _ (by decide)) (.other (ex_noHead _ _ (by decide)) (.other (ex_noHead _ _ (by decide)) ?_))
  exact .last ex_head ex_format₂ (.cons ex_n3 .nil) (by decide)

example : ∃ d, readTables (plainQuery ["[NODE]".toList] ["nodeid".toList, "coordx".toList] []) exLines = .ok d ∧
    List.Forall₂ (Entry ["nodeid".toList, "coordx".toList]) (rowsOf exTables) d :=
  C73_tables_partial (by decide) ex_tables (by decide)

/-- what is read for the file -/
example : readTables (plainQuery ["[NODE]".toList] ["nodeid".toList, "coordx".toList] []) exLines =
    .ok [("n1".toList, [("nodeid".toList, "n1".toList), ("coordx".toList, "1".toList)]),
      ("n2".toList, [("nodeid".toList, "n2 ".toList), ("coordx".toList, "3".toList)]), ("n3".toList, [("nodeid".toList, "n3".toList)])] := by
  decide +kernel

example : ∃ d, parserHelper (plainQuery ["[NODE]".toList] ["coordx".toList] []) "[NODE]\n".toList
    ("FORMAT_NODE=NodeID,CoordX,CoordY\n".toList :: (["n1,1,2\n".toList, "n1,1,2\n".toList] ++ "\n".toList :: [])) = .ok (d, []) ∧
    d.length = 2 ∧ (d.map (·.1)).Nodup :=
  C73_rows ex_head ex_format₁ (.cons ex_n1 (.cons ex_n1 .nil)) (by decide)

example : ∃ p, readTables (plainQuery ["[NODE]".toList] ["coordy".toList] []) ["[NODE]\n".toList, "FORMAT_NODE=NodeID,CoordX,CoordY\n".toList,
    "n1,1,2\n".toList, "\n".toList, "[NODE]\n".toList, "FORMAT_NODE=NodeID,CoordY\n".toList, "n1,7\n".toList, "\n".toList] = .ok [p] ∧
    Entry ["coordy".toList] (["NodeID".toList, "CoordY".toList], ["n1".toList, "7".toList]) p :=
  C73_same_key_violated (by decide) ex_head ex_format₁ ex_n1 (by decide) ex_head ex_format₂
    (ex_row (e := ['\n']) (by decide) (by decide) (Or.inr (Or.inl rfl)) (by decide) (by decide)) (by decide) rfl

/-- loads that are read as nodes -/
example : ∃ d, parserHelper (plainQuery ["[NODE]".toList] ["coordx".toList] []) "[NODE]\n".toList
    ("FORMAT_NODE=NodeID,CoordX,CoordY\n".toList :: (["n1,1,2\n".toList] ++ "[LOADS]\n".toList :: "FORMAT_LOADS=SectionID,Kw\n".toList ::
      (["l1,500\n".toList] ++ "\n".toList :: []))) = .ok (d, []) ∧
    List.Forall₂ (Entry ["coordx".toList]) (([["n1".toList, "1".toList, "2".toList]] ++ [["l1".toList, "500".toList]]).map fun r =>
      (["NodeID".toList, "CoordX".toList, "CoordY".toList], r)) d :=
  C73_glued_violated (by decide) ex_head ex_format₁ (.cons ex_n1 .nil) (by decide) (by decide)
    (.cons (ex_row (e := ['\n']) (by decide) (by decide) (Or.inr (Or.inl rfl)) (by decide) (by decide)) .nil) (by decide) (by decide)

example : ∃ d, parserHelper (plainQuery ["[NODE]".toList] ["coordx".toList] []) "[NODE]\n".toList
    ("FORMAT_NODE=NodeID,CoordX,CoordY\n".toList :: (["n1,1,2\n".toList] ++ "a=b,1,2\n".toList :: (["n2 ,3,4\n".toList] ++ "\n".toList :: []))) =
      .ok (d, []) ∧
    List.Forall₂ (Entry ["coordx".toList]) (([["n1".toList, "1".toList, "2".toList]] ++ [["n2 ".toList, "3".toList, "4".toList]]).map fun r =>
      (["NodeID".toList, "CoordX".toList, "CoordY".toList], r)) d :=
  C73_equality_violated (by decide) ex_head ex_format₁ (.cons ex_n1 .nil) (by decide) (.cons ex_n2 .nil) (by decide) (by decide)

example : readTables (plainQuery ["[NODE]".toList] ["coordx".toList] []) (["[SI]\n".toList] ++ ["[NODE]\n".toList]) = .error .stopIteration :=
  (C73_cut_violated (by intro l hl; rw [List.mem_singleton.mp hl]; exact ex_noHead _ _ (by decide)) ex_head ex_format₁).1

example : ∃ p, parserHelper (plainQuery ["[NODE]".toList] ["coordy".toList] []) "[NODE]\n".toList
    ("FORMAT_NODE=NodeID,CoordX,CoordY\n".toList :: (joinCells ["n1".toList, "1".toList, "2".toList] ++ ['\n']) :: "\n".toList :: []) = .ok ([p], []) ∧
    getEntry "coordy".toList p.2 = some ("2".toList ++ ['\n']) ∧ "2".toList ++ ['\n'] ≠ "2".toList :=
  C73_last_column_violated (by decide) ex_head ex_format₁ (ex_row (e := ['\n']) (by decide) (by decide) (Or.inr (Or.inl rfl)) rfl (by decide))
    (Or.inr (Or.inl rfl)) (by decide) (by decide) (by decide) ⟨by decide, by
      intro j hj
      match j, hj with
      | j + 3, _ => simp⟩ rfl

example : ∃ d, parserHelper (plainQuery ["[NODE]".toList] ["coordx".toList] [("coordx".toList, 1)]) "[NODE]\n".toList
    (["n1,1,2\n".toList] ++ "\n".toList :: []) = .ok (d, []) ∧
    List.Forall₂ (AtPositions ["coordx".toList] [("coordx".toList, 1)]) [["n1".toList, "1".toList, "2".toList]] d :=
  C73_positions ex_head (.cons ex_n1 .nil) (by decide) (by
    intro l hl; cases hl
    rw [← inText_iff]; decide) (fun h => by cases h) (by decide)

/-- a node with the name `information` -/
example : parserHelper (plainQuery ["[NODE]".toList] ["coordx".toList] [("coordx".toList, 1)]) "[NODE]\n".toList
    ("information,1,2\n".toList :: (["n1,1,2\n".toList] ++ "\n".toList :: [])) = .ok ([("n1".toList, [])], []) :=
  C73_format_word_violated ex_head (row := ["information".toList, "1".toList, "2".toList])
    (ex_row (e := ['\n']) (by decide) (by decide) (Or.inr (Or.inl rfl)) (by decide) (by decide))
    (by rw [← inText_iff]; decide) (.cons ex_n1 .nil) (by decide) (by decide)

example : ∃ d d₂, parserHelper { headers := ["[NODE]".toList], attrs := ["coordx".toList], mapping := [], more := ["coordy".toList] }
    "[NODE]\n".toList ("FORMAT_NODE=NodeID,CoordX,CoordY\n".toList :: (["n1,1,2\n".toList] ++ "FORMAT_NODE=NodeID,CoordY\n".toList ::
      (["n2 ,3,4\n".toList] ++ "\n".toList :: []))) = .ok (d ++ d₂, []) ∧
    List.Forall₂ (Entry ["coordx".toList]) ([["n1".toList, "1".toList, "2".toList]].map fun r =>
      (["NodeID".toList, "CoordX".toList, "CoordY".toList], r)) d ∧
    List.Forall₂ (Entry ["coordy".toList]) ([["n2 ".toList, "3".toList, "4".toList]].map fun r => (["NodeID".toList, "CoordY".toList], r)) d₂ :=
  C73_second_format (by decide) (by decide) (by decide) ex_head ex_format₁ (.cons ex_n1 .nil) ex_format₂ (.cons ex_n2 .nil) (by decide) (by decide)

example : ∃ d rest, parserHelper { headers := ["[NODE]".toList], attrs := ["kind".toList], mapping := [], info := [("kind".toList, "node".toList)] }
    "[NODE]\n".toList ["FORMAT_NODE=NodeID,Kind\n".toList, "n1,bus\n".toList, "n2,bus\n".toList] = .ok (d, rest) ∧ d.length = 2 ∧
    ∀ p ∈ d, getEntry "kind".toList p.2 = some "node".toList := by
  refine ⟨[("n1".toList, [("kind".toList, "node".toList)]), ("n2".toList, [("kind".toList, "node".toList)])], [], by rfl, rfl, ?_⟩
  intro p hp
  exact C73_information (q := { headers := ["[NODE]".toList], attrs := ["kind".toList], mapping := [], info := [("kind".toList, "node".toList)] })
    (by decide) (line := "[NODE]\n".toList) (content := ["FORMAT_NODE=NodeID,Kind\n".toList, "n1,bus\n".toList, "n2,bus\n".toList])
    (rest := []) (by rfl) p hp _ _ List.mem_cons_self

end Ditto.Cyme
