import Verif.Spec.CymeSources
import Verif.Lemmas.CymeNodes
import Verif.Props.CymeTable

namespace Ditto.Cyme
open Ditto Glm Spec

/-- the values that are read for a row -/
def RowRead (attrs cols row : List Text) (v : Values) : Prop :=
  ∃ e, Eol e ∧ ∀ k x, getEntry k v = some x ↔ k ∈ attrs ∧ Cell cols (endCells row e) k x

theorem rowRead_row {attrs cols cells : List Text} {f e : Text} (ha : attrs.Nodup) (hf : FormatLine f cols) (he : Eol e) :
    RowRead attrs cols cells (rowValues attrs (mappingOf attrs f) [] (endCells cells e)) := by
  refine ⟨e, he, fun k x => ?_⟩
  have hget : getEntry k (rowValues attrs (mappingOf attrs f) [] (endCells cells e)) =
      if k ∈ attrs then cellOf (mappingOf attrs f) (endCells cells e) k else none := by
    unfold rowValues
    change getEntry k (attrs.foldl (addCell (mappingOf attrs f) (endCells cells e)) []) = _
    rw [cells_get]
    split
    · cases cellOf (mappingOf attrs f) (endCells cells e) k <;> rfl
    · rfl
  rw [hget]
  by_cases hk : k ∈ attrs
  · rw [if_pos hk, cellOf_iff hf (List.count_eq_one_of_mem ha hk)]
    exact ⟨fun h => ⟨hk, h⟩, fun h => h.2⟩
  · rw [if_neg hk]
    exact ⟨(fun h => nomatch h), fun h => absurd h.1 hk⟩

theorem endCells_inner {cells : List Text} (e : Text) {i : Nat} (hi : i + 1 < cells.length) : (endCells cells e)[i]? = cells[i]? := by
  induction cells generalizing i with
  | nil => simp at hi
  | cons c cs ih =>
    cases cs with
    | nil => simp at hi
    | cons d cs =>
      cases i with
      | zero => rfl
      | succ i =>
        rw [endCells, List.getElem?_cons_succ, List.getElem?_cons_succ]
        exact ih (by simpa using hi)

/-- a cell that is not in the last column -/
theorem rowRead_inner {attrs cols row : List Text} {v : Values} (h : RowRead attrs cols row v) {k c : Text} (hk : k ∈ attrs) (hc : Inner cols row k c) :
    getEntry k v = some c := by
  obtain ⟨e, he, h⟩ := h
  obtain ⟨i, hi, hi2, hi3⟩ := hc
  exact (h k c).mpr ⟨hk, i, hi, by rw [endCells_inner e hi3]; exact hi2⟩

theorem rowRead_entry {attrs cols row : List Text} {v : Values} (h : RowRead attrs cols row v) : Entry attrs (cols, row) (keyOf row, v) := by
  obtain ⟨e, he, h⟩ := h
  have hsame := endCells_same he row
  refine ⟨rfl, fun k => ⟨?_, ?_⟩⟩
  · rintro ⟨hk, c, i, hi, hc⟩
    have hs := hsame i
    rw [hc] at hs
    cases hv : (endCells row e)[i]? with
    | none => rw [hv] at hs; cases hs
    | some x =>
      rw [hv] at hs
      exact ⟨x, c, (h k x).mpr ⟨hk, i, hi, hv⟩, ⟨i, hi, hc⟩, by injection hs⟩
  · intro hno
    cases hx : getEntry k v with
    | none => rfl
    | some x =>
      obtain ⟨hk, i, hi, hv⟩ := (h k x).mp hx
      have hs := hsame i
      rw [hv] at hs
      cases hc : row[i]? with
      | none => rw [hc] at hs; cases hs
      | some c => exact absurd ⟨hk, c, i, hi, hc⟩ hno

/-- the rows of a table, with the same key or not -/
theorem read_rows {attrs more cols : List Text} {f : Text} (ha : attrs.Nodup) (hf : FormatLine f cols) {lines : List Text} {rows : List (List Text)}
    (h : List.Forall₂ RowLine lines rows) : ∀ (done : List (Text × Values)) (keys tail : List Text), done.map (·.1) = starred [] keys →
    (∀ k ∈ keys, '*' ∉ k) → (∀ r ∈ rows, '*' ∉ keyOf r) →
    ∃ new, List.Forall₂ (fun r p => RowRead attrs cols r p.2) rows new ∧ (done ++ new).map (·.1) = starred [] (keys ++ rows.map keyOf) ∧
      tableRows [] { attrs := attrs, mapping := mappingOf attrs f, more := more, result := done } (lines ++ tail) =
        tableRows [] { attrs := attrs, mapping := mappingOf attrs f, more := more, result := done ++ new } tail := by
  induction h with
  | nil => intro done keys tail hd _ _; exact ⟨[], .nil, by rw [List.append_nil, hd, List.map_nil, List.append_nil], by rw [List.append_nil]; rfl⟩
  | @cons line row lines rows hl _ ih =>
    intro done keys tail hd hk hr
    obtain ⟨e, he, hstep⟩ := row_step hl { attrs := attrs, mapping := mappingOf attrs f, more := more, result := done } []
    have hlen : done.length = keys.length := by rw [← List.length_map (·.1), hd, starred_length]
    have hfree : freeKey (done.map (·.1)) done.length (keyOf row) = keyOf row ++ List.replicate (keys.count (keyOf row)) '*' := by
      have := freeKey_starred (hr row List.mem_cons_self) hk done.length 0 (Nat.zero_le _) (by rw [Nat.zero_add, hlen]; exact List.count_le_length)
      rw [List.replicate_zero, List.append_nil] at this
      rw [hd]
      exact this
    dsimp only at hstep
    rw [hfree] at hstep
    obtain ⟨new, h1, h2, h3⟩ := ih (done ++ [(keyOf row ++ List.replicate (keys.count (keyOf row)) '*',
        rowValues attrs (mappingOf attrs f) [] (endCells row e))]) (keys ++ [keyOf row]) tail
      (by rw [List.map_append, hd, starred_append, List.nil_append]; rfl)
      (by
        intro k hm
        rcases List.mem_append.mp hm with hm | hm
        · exact hk k hm
        · rw [List.mem_singleton.mp hm]; exact hr row List.mem_cons_self)
      (fun r hm => hr r (List.mem_cons_of_mem _ hm))
    refine ⟨(keyOf row ++ List.replicate (keys.count (keyOf row)) '*', rowValues attrs (mappingOf attrs f) [] (endCells row e)) :: new,
      .cons (rowRead_row ha hf he) h1, ?_, ?_⟩
    · have hsplit : keys ++ (row :: rows).map keyOf = (keys ++ [keyOf row]) ++ rows.map keyOf := by simp
      rw [hsplit, ← h2, List.append_assoc]
      rfl
    · rw [List.cons_append, tableRows, if_pos hl.2.2.1, hstep]
      rw [List.append_assoc] at h3
      exact h3

/-- what one call of `parser_helper` returns for a table -/
theorem helper_table {q : Query} (hi : q.info = []) (ha : q.attrs.Nodup) {h f : Text} {cols lines : List Text} {rows : List (List Text)}
    (hh : Heads q.headers h) (hf : FormatLine f cols) (hl : List.Forall₂ RowLine lines rows) (hs : ∀ r ∈ rows, '*' ∉ keyOf r) :
    ∃ new, List.Forall₂ (fun r p => RowRead q.attrs cols r p.2) rows new ∧ new.map (·.1) = starred [] (rows.map keyOf) ∧
      (∀ blank rest, blank.length ≤ 2 → parserHelper q h (f :: (lines ++ blank :: rest)) = .ok (new, rest)) ∧
      (rows ≠ [] → parserHelper q h (f :: lines) = .ok (new, [])) := by
  obtain ⟨new, h1, h2, -⟩ := read_rows (more := q.more) ha hf hl [] [] [] rfl (fun _ hm => nomatch hm) hs
  obtain ⟨new', h1', h2', h3'⟩ := read_rows (more := q.more) ha hf hl [] [] [] rfl (fun _ hm => nomatch hm) hs
  rw [List.nil_append, List.nil_append] at h2'
  have hrun : ∀ tail, tableRows [] { attrs := q.attrs, mapping := mappingOf q.attrs f, more := q.more, result := [] } (lines ++ tail) =
      tableRows [] { attrs := q.attrs, mapping := mappingOf q.attrs f, more := q.more, result := new' } tail := by
    intro tail
    have key : ∀ (ls : List Text) (s : TableState), (∀ l ∈ ls, 2 < l.length) →
        tableRows [] s (ls ++ tail) = tableRows [] (tableRows [] s ls).1 tail := by
      intro ls
      induction ls with
      | nil => intro s _; rfl
      | cons l ls ih =>
        intro s hls
        rw [List.cons_append, tableRows, if_pos (hls l List.mem_cons_self), ih _ fun x hx => hls x (List.mem_cons_of_mem _ hx)]
        conv_rhs => rw [tableRows, if_pos (hls l List.mem_cons_self)]
    have hlen : ∀ l ∈ lines, 2 < l.length := by
      intro l hm
      clear h1 h1' h2 h2' h3' hs
      induction hl with
      | nil => cases hm
      | cons hx _ ih =>
        rcases List.mem_cons.mp hm with rfl | hm
        · exact hx.2.2.1
        · exact ih hm
    rw [key lines _ hlen]
    rw [List.append_nil] at h3'
    rw [h3', List.nil_append]
    rfl
  refine ⟨new', h1', h2', fun blank rest hb => ?_, fun hne => ?_⟩
  · refine helper_header hh (s := { attrs := q.attrs, mapping := mappingOf q.attrs f, more := q.more, result := new' }) ?_
    rw [after_format_more hf (by simp), hi, hrun, tableRows, if_neg (by omega)]
  · refine helper_header hh (s := { attrs := q.attrs, mapping := mappingOf q.attrs f, more := q.more, result := new' }) ?_
    have hl' : lines ≠ [] := by rintro rfl; exact hne (List.forall₂_nil_left_iff.mp hl)
    have := hrun []
    rw [List.append_nil] at this
    rw [after_format_more hf hl', hi, this]
    rfl

/-! ### several kinds of tables -/

theorem helpers_none {slots : List (Query × List (Text × Values))} {line : Text} (h : ∀ s ∈ slots, ¬Heads s.1.headers line) (rest : List Text) :
    helpers slots line rest = .ok (slots, rest) := by
  induction slots with
  | nil => rfl
  | cons s slots ih =>
    have hp : parserHelper s.1 line rest = .ok ([], rest) := by
      unfold parserHelper
      rw [if_neg (by rw [isHeader_iff]; exact h s List.mem_cons_self)]
    rw [helpers, hp]
    dsimp only
    rw [ih fun x hx => h x (List.mem_cons_of_mem _ hx)]
    rfl

theorem helpers_one {q : Query} {d r : List (Text × Values)} {pre post : List (Query × List (Text × Values))} {line : Text} {rest rest' : List Text}
    (hpre : ∀ s ∈ pre, ¬Heads s.1.headers line) (hpost : ∀ s ∈ post, ¬Heads s.1.headers line) (hp : parserHelper q line rest = .ok (r, rest')) :
    helpers (pre ++ (q, d) :: post) line rest = .ok (pre ++ (q, updateAll d r) :: post, rest') := by
  induction pre with
  | nil => rw [List.nil_append, helpers, hp]; dsimp only; rw [helpers_none hpost]; rfl
  | cons s pre ih =>
    have hp : parserHelper s.1 line rest = .ok ([], rest) := by
      unfold parserHelper
      rw [if_neg (by rw [isHeader_iff]; exact hpre s List.mem_cons_self)]
    rw [List.cons_append, helpers, hp]
    dsimp only
    rw [ih fun x hx => hpre x (List.mem_cons_of_mem _ hx)]
    rfl

/-- what is read for the table of a kind -/
def TableRead (q : Query) (ts : List (List Text × Table)) (d : List (Text × Values)) : Prop :=
  ∀ cols rows, TableIs ts q.headers cols rows → d.map (·.1) = starred [] (rows.map keyOf) ∧ List.Forall₂ (fun r p => RowRead q.attrs cols r p.2) rows d

theorem many_loop {kinds : List (List Text)} {content : List Text} {ts : List (List Text × Table)} (h : Mixed kinds content ts) :
    ∀ (fuel : Nat) (slots : List (Query × List (Text × Values))), content.length ≤ fuel → slots.map (·.1.headers) = kinds → kinds.Nodup →
    (∀ s ∈ slots, s.1.info = [] ∧ s.1.attrs.Nodup) → (ts.map (·.1)).Nodup → (∀ t ∈ ts, ∀ r ∈ t.2.rows, '*' ∉ keyOf r) →
    (∀ s ∈ slots, (∃ t ∈ ts, t.1 = s.1.headers) → s.2 = []) →
    ∃ slots', manyLoop fuel slots content = .ok slots' ∧
      List.Forall₂ (fun s s' => s'.1 = s.1 ∧ ((∃ t ∈ ts, t.1 = s.1.headers) → TableRead s.1 ts s'.2) ∧ ((∀ t ∈ ts, t.1 ≠ s.1.headers) → s'.2 = s.2))
        slots slots' := by
  have step : ∀ {hs : List Text} {h f : Text} {lines rest tail : List Text} {t : Table} {ts : List (List Text × Table)}
      (_ : hs ∈ kinds) (_ : Heads hs h) (_ : ∀ hs' ∈ kinds, Heads hs' h → hs' = hs) (_ : FormatLine f t.cols)
      (_ : List.Forall₂ RowLine lines t.rows)
      (_ : (∃ blank, blank.length ≤ 2 ∧ tail = f :: (lines ++ blank :: rest)) ∨ (t.rows ≠ [] ∧ rest = [] ∧ tail = f :: lines))
      (_ : ∀ (fuel : Nat) (slots : List (Query × List (Text × Values))), rest.length ≤ fuel → slots.map (·.1.headers) = kinds → kinds.Nodup →
        (∀ s ∈ slots, s.1.info = [] ∧ s.1.attrs.Nodup) → (ts.map (·.1)).Nodup → (∀ t ∈ ts, ∀ r ∈ t.2.rows, '*' ∉ keyOf r) →
        (∀ s ∈ slots, (∃ t ∈ ts, t.1 = s.1.headers) → s.2 = []) →
        ∃ slots', manyLoop fuel slots rest = .ok slots' ∧
          List.Forall₂ (fun s s' => s'.1 = s.1 ∧ ((∃ t ∈ ts, t.1 = s.1.headers) → TableRead s.1 ts s'.2) ∧
            ((∀ t ∈ ts, t.1 ≠ s.1.headers) → s'.2 = s.2)) slots slots')
      (fuel : Nat) (slots : List (Query × List (Text × Values))), (h :: tail).length ≤ fuel → slots.map (·.1.headers) = kinds → kinds.Nodup →
      (∀ s ∈ slots, s.1.info = [] ∧ s.1.attrs.Nodup) → ((hs, t) :: ts |>.map (·.1)).Nodup → (∀ t' ∈ (hs, t) :: ts, ∀ r ∈ t'.2.rows, '*' ∉ keyOf r) →
      (∀ s ∈ slots, (∃ t' ∈ (hs, t) :: ts, t'.1 = s.1.headers) → s.2 = []) →
      ∃ slots', manyLoop fuel slots (h :: tail) = .ok slots' ∧
        List.Forall₂ (fun s s' => s'.1 = s.1 ∧ ((∃ t' ∈ (hs, t) :: ts, t'.1 = s.1.headers) → TableRead s.1 ((hs, t) :: ts) s'.2) ∧
          ((∀ t' ∈ (hs, t) :: ts, t'.1 ≠ s.1.headers) → s'.2 = s.2)) slots slots' := by
    intro hs h f lines rest tail t ts hk hh huniq hf hl htail ih fuel slots hfuel hkinds hnd hslots hts hstar hempty
    cases fuel with
    | zero => simp at hfuel
    | succ fuel =>
      rw [List.map_cons, List.nodup_cons] at hts
      obtain ⟨s, hsm, hsh⟩ : ∃ s ∈ slots, s.1.headers = hs := by
        rw [← hkinds] at hk
        obtain ⟨s, h1, h2⟩ := List.mem_map.mp hk
        exact ⟨s, h1, h2⟩
      obtain ⟨pre, post, rfl⟩ := List.append_of_mem hsm
      obtain ⟨q, d⟩ := s
      obtain rfl : q.headers = hs := hsh
      obtain rfl : d = [] := hempty _ hsm ⟨_, List.mem_cons_self, rfl⟩
      rw [List.map_append, List.map_cons] at hkinds
      have hnd' := hnd
      rw [← hkinds, List.nodup_append, List.nodup_cons] at hnd'
      obtain ⟨-, ⟨hpost, -⟩, hpre⟩ := hnd'
      have hne1 : ∀ s ∈ pre, s.1.headers ≠ q.headers := fun s hm he =>
        hpre _ (List.mem_map.mpr ⟨s, hm, rfl⟩) _ List.mem_cons_self he
      have hne2 : ∀ s ∈ post, s.1.headers ≠ q.headers := fun s hm he => hpost (List.mem_map.mpr ⟨s, hm, he⟩)
      have hk1 : ∀ s ∈ pre, ¬Heads s.1.headers h := fun s hm hhh =>
        hne1 s hm (huniq _ (by rw [← hkinds]; exact List.mem_append_left _ (List.mem_map.mpr ⟨s, hm, rfl⟩)) hhh)
      have hk2 : ∀ s ∈ post, ¬Heads s.1.headers h := fun s hm hhh =>
        hne2 s hm (huniq _ (by rw [← hkinds]; exact List.mem_append_right _ (List.mem_cons_of_mem _ (List.mem_map.mpr ⟨s, hm, rfl⟩))) hhh)
      obtain ⟨new, e1, e2, e3, e4⟩ := helper_table (hslots _ hsm).1 (hslots _ hsm).2 hh hf hl (hstar _ List.mem_cons_self)
      have hcall : parserHelper q h tail = .ok (new, rest) := by
        rcases htail with ⟨blank, hb, rfl⟩ | ⟨hne, rfl, rfl⟩
        · exact e3 blank rest hb
        · exact e4 hne
      have hlen : rest.length ≤ fuel := by
        rcases htail with ⟨blank, hb, rfl⟩ | ⟨hne, rfl, rfl⟩
        · simp only [List.length_cons, List.length_append] at hfuel; omega
        · exact Nat.zero_le _
      have hupd : updateAll [] new = new := by
        rw [updateAll_fresh [] new (by
          rw [e2]
          exact starred_nodup (by
            intro x hx
            obtain ⟨r, hr, rfl⟩ := List.mem_map.mp hx
            exact hstar _ List.mem_cons_self r hr) []) (fun _ _ hm => nomatch hm), List.nil_append]
      obtain ⟨slots', e5, e6⟩ := ih fuel (pre ++ (q, new) :: post) hlen (by rw [List.map_append, List.map_cons]; exact hkinds) hnd (by
          intro s hm
          rcases List.mem_append.mp hm with hm | hm
          · exact hslots s (List.mem_append_left _ hm)
          · rcases List.mem_cons.mp hm with rfl | hm
            · exact hslots (q, []) hsm
            · exact hslots s (List.mem_append_right _ (List.mem_cons_of_mem _ hm))) hts.2 (fun t' hm => hstar t' (List.mem_cons_of_mem _ hm)) (by
          rintro s hm ⟨t', ht', he⟩
          rcases List.mem_append.mp hm with hm | hm
          · exact hempty s (List.mem_append_left _ hm) ⟨t', List.mem_cons_of_mem _ ht', he⟩
          · rcases List.mem_cons.mp hm with rfl | hm
            · exact absurd (List.mem_map.mpr ⟨t', ht', he⟩) hts.1
            · exact hempty s (List.mem_append_right _ (List.mem_cons_of_mem _ hm)) ⟨t', List.mem_cons_of_mem _ ht', he⟩)
      refine ⟨slots', ?_, ?_⟩
      · rw [manyLoop, helpers_one hk1 hk2 hcall]
        dsimp only
        rw [hupd]
        exact e5
      · have lift : ∀ s s' : Query × List (Text × Values), s.1.headers ≠ q.headers →
            (s'.1 = s.1 ∧ ((∃ t ∈ ts, t.1 = s.1.headers) → TableRead s.1 ts s'.2) ∧ ((∀ t ∈ ts, t.1 ≠ s.1.headers) → s'.2 = s.2)) →
            (s'.1 = s.1 ∧ ((∃ t' ∈ (q.headers, t) :: ts, t'.1 = s.1.headers) → TableRead s.1 ((q.headers, t) :: ts) s'.2) ∧
              ((∀ t' ∈ (q.headers, t) :: ts, t'.1 ≠ s.1.headers) → s'.2 = s.2)) := by
          rintro s s' hne ⟨h1, h2, h3⟩
          refine ⟨h1, ?_, fun hall => h3 fun t' hm => hall t' (List.mem_cons_of_mem _ hm)⟩
          rintro ⟨t', hm, he⟩ cols rows hT
          have hm' : t' ∈ ts := by
            rcases List.mem_cons.mp hm with rfl | hm
            · exact absurd he.symm hne
            · exact hm
          refine h2 ⟨t', hm', he⟩ cols rows ?_
          rcases hT with hT | ⟨hT, -⟩
          · rcases List.mem_cons.mp hT with hT | hT
            · exact absurd (congrArg Prod.fst hT) hne
            · exact Or.inl hT
          · exact absurd he (hT t' hm)
        rw [List.forall₂_iff_get] at e6 ⊢
        obtain ⟨hlen6, e6⟩ := e6
        refine ⟨by simpa using hlen6, ?_⟩
        intro i hi hi'
        have hi1 : i < (pre ++ (q, new) :: post).length := by simpa using hi
        have := e6 i hi1 hi'
        simp only [List.get_eq_getElem] at this ⊢
        by_cases hip : i < pre.length
        · rw [List.getElem_append_left hip] at this ⊢
          exact lift _ _ (hne1 _ (List.getElem_mem hip)) this
        · rw [List.getElem_append_right (by omega)] at this ⊢
          by_cases hie : i - pre.length = 0
          · simp only [hie, List.getElem_cons_zero] at this ⊢
            obtain ⟨h1, -, h3⟩ := this
            have hval := h3 fun t' hm he => hts.1 (List.mem_map.mpr ⟨t', hm, he⟩)
            refine ⟨h1, fun _ cols rows hT => ?_, fun hall => absurd rfl (hall _ List.mem_cons_self)⟩
            rw [hval]
            rcases hT with hT | ⟨hT, -⟩
            · rcases List.mem_cons.mp hT with hT | hT
              · injection hT with _ hT
                subst hT
                exact ⟨e2, e1⟩
              · exact absurd (List.mem_map.mpr ⟨_, hT, rfl⟩) hts.1
            · exact absurd rfl (hT _ List.mem_cons_self)
          · obtain ⟨j, hj⟩ : ∃ j, i - pre.length = j + 1 := ⟨i - pre.length - 1, by omega⟩
            simp only [hj, List.getElem_cons_succ] at this ⊢
            exact lift _ _ (hne2 _ (List.getElem_mem _)) this
  induction h with
  | nil =>
    intro fuel slots _ _ _ _ _ _ _
    refine ⟨slots, by cases fuel <;> rfl, ?_⟩
    rw [List.forall₂_same]
    exact fun s _ => ⟨rfl, (fun ⟨t, ht, _⟩ => nomatch ht), fun _ => rfl⟩
  | @other line rest ts hno _ ih =>
    intro fuel slots hfuel hkinds hnd hslots hts hstar hempty
    cases fuel with
    | zero => simp at hfuel
    | succ fuel =>
      obtain ⟨slots', h1, h2⟩ := ih fuel slots (by simpa using hfuel) hkinds hnd hslots hts hstar hempty
      refine ⟨slots', ?_, h2⟩
      rw [manyLoop, helpers_none fun s hm => hno _ (by rw [← hkinds]; exact List.mem_map.mpr ⟨s, hm, rfl⟩)]
      exact h1
  | @table hs h f blank lines rest t ts hk hh huniq hf hl hb _ ih =>
    exact step hk hh huniq hf hl (Or.inl ⟨blank, hb, rfl⟩) ih
  | @last hs h f lines t hk hh huniq hf hl hne =>
    refine step hk hh huniq hf hl (Or.inr ⟨hne, rfl, rfl⟩) ?_
    intro fuel slots _ _ _ _ _ _ _
    refine ⟨slots, by cases fuel <;> rfl, ?_⟩
    rw [List.forall₂_same]
    exact fun s _ => ⟨rfl, (fun ⟨t, ht, _⟩ => nomatch ht), fun _ => rfl⟩

/-- Tables of several kinds, read in one pass: for each kind, the rows of its table, in order. -/
theorem readMany_tables {qs : List Query} {content : List Text} {ts : List (List Text × Table)} (h : Mixed (qs.map (·.headers)) content ts)
    (hnd : (qs.map (·.headers)).Nodup) (hqs : ∀ q ∈ qs, q.info = [] ∧ q.attrs.Nodup) (hts : (ts.map (·.1)).Nodup)
    (hstar : ∀ t ∈ ts, ∀ r ∈ t.2.rows, '*' ∉ keyOf r) :
    ∃ ds, readMany qs content = .ok ds ∧ List.Forall₂ (fun q d => TableRead q ts d) qs ds := by
  obtain ⟨slots', h1, h2⟩ := many_loop h content.length (qs.map fun q => (q, [])) (Nat.le_refl _) (by rw [List.map_map]; rfl) hnd (by
    intro s hm
    obtain ⟨q, hq, rfl⟩ := List.mem_map.mp hm
    exact hqs q hq) hts hstar (by
    intro s hm _
    obtain ⟨q, hq, rfl⟩ := List.mem_map.mp hm
    rfl)
  refine ⟨slots'.map (·.2), by unfold readMany; rw [h1], ?_⟩
  rw [List.forall₂_map_left_iff] at h2
  rw [List.forall₂_map_right_iff]
  refine h2.imp ?_
  rintro q s ⟨he, h3, h4⟩
  by_cases hex : ∃ t ∈ ts, t.1 = q.headers
  · exact h3 hex
  · intro cols rows hT
    rcases hT with hT | ⟨-, rfl⟩
    · exact absurd ⟨_, hT, rfl⟩ hex
    · rw [h4 fun t hm he => hex ⟨t, hm, he⟩]
      exact ⟨rfl, .nil⟩

/-- the first row with a key -/
theorem first_starred {R : List Text → Values → Prop} {rows : List (List Text)} {d : List (Text × Values)}
    (h : List.Forall₂ (fun r p => R r p.2) rows d) {k : Text} (hk : '*' ∉ k) (hs : ∀ r ∈ rows, '*' ∉ keyOf r) : ∀ done : List Text, k ∉ done →
    d.map (·.1) = starred done (rows.map keyOf) →
    (∀ row, FirstRow rows k row → ∃ v, getEntry k d = some v ∧ R row v) ∧ ((∀ r ∈ rows, keyOf r ≠ k) → getEntry k d = none) := by
  induction h with
  | nil => intro done _ _; exact ⟨(fun row hr => nomatch hr), fun _ => rfl⟩
  | @cons r p rows d hp _ ih =>
    intro done hdone hd
    rw [List.map_cons, List.map_cons, starred, List.cons.injEq] at hd
    obtain ⟨hd1, hd2⟩ := hd
    have hget : getEntry k (p :: d) = if p.1 = k then some p.2 else getEntry k d := by
      rw [getEntry_find, getEntry_find, List.find?_cons]
      by_cases hn : p.1 = k
      · rw [if_pos hn, decide_eq_true hn]; rfl
      · rw [if_neg hn, decide_eq_false hn]
    rw [hget]
    by_cases hr : keyOf r = k
    · have he : p.1 = k := by rw [hd1, hr, List.count_eq_zero.mpr hdone, List.replicate_zero, List.append_nil]
      rw [if_pos he]
      refine ⟨fun row hrow => ?_, fun hall => absurd hr (hall r List.mem_cons_self)⟩
      unfold FirstRow at hrow
      rw [List.find?_cons, decide_eq_true hr] at hrow
      injection hrow with hrow
      subst hrow
      exact ⟨p.2, rfl, hp⟩
    · have he : p.1 ≠ k := by
        rw [hd1]
        intro hh
        have : keyOf r ++ List.replicate (done.count (keyOf r)) '*' = k ++ List.replicate 0 '*' := by rw [hh]; simp
        exact hr (star_inj (hs r List.mem_cons_self) hk this).1
      rw [if_neg he]
      obtain ⟨h1, h2⟩ := ih (fun x hx => hs x (List.mem_cons_of_mem _ hx)) (done ++ [keyOf r]) (by
        rw [List.mem_append, List.mem_singleton, not_or]; exact ⟨hdone, fun hh => hr hh.symm⟩) hd2
      refine ⟨fun row hrow => h1 row ?_, fun hall => h2 fun x hx => hall x (List.mem_cons_of_mem _ hx)⟩
      unfold FirstRow at hrow ⊢
      rw [List.find?_cons, decide_eq_false hr] at hrow
      exact hrow

end Ditto.Cyme
