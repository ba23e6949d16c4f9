import Verif.Props.CymeLoadFile
import Verif.Props.CymeLoadWrite
import Verif.Props.CymeRegBack

/-! C82: the load files that the CYME writer writes, read back. -/
namespace Ditto.Cyme
open Ditto Glm Spec

section numbers
variable {K : Type} [Field K]

theorem loads_format : FormatLine ("FORMAT_LOADS".toList ++ "=".toList ++ joinCells loadNames ++ ['\n']) loadNames := by
  refine ⟨by decide, ?_, "FORMAT_LOADS".toList, ['\n'], Or.inr (Or.inl rfl), by decide, ?_, by decide +kernel⟩
  · intro c hc
    rw [cellText_iff]
    exact (show ∀ c ∈ loadNames, c.all (fun x => x ≠ ',' && x ≠ '=' && x ≠ '\n' && x ≠ '\r') = true by decide) c hc
  · exact ⟨[], "_loads".toList, by decide⟩

theorem customers_format : FormatLine ("FORMAT_CUSTOMERLOADS".toList ++ "=".toList ++ joinCells customerNames ++ ['\n']) customerNames := by
  refine ⟨by decide, ?_, "FORMAT_CUSTOMERLOADS".toList, ['\n'], Or.inr (Or.inl rfl), by decide, ?_, by decide +kernel⟩
  · intro c hc
    rw [cellText_iff]
    exact (show ∀ c ∈ customerNames, c.all (fun x => x ≠ ',' && x ≠ '=' && x ≠ '\n' && x ≠ '\r') = true by decide) c hc
  · exact ⟨[], "_customerloads".toList, by decide⟩

theorem shown_text {pr : K → Text} (hpr : ∀ x, CellText (pr x)) (x : Option K) : CellText (shown pr x) := by
  cases x with
  | none => exact (cellText_iff []).mpr rfl
  | some x => exact hpr x

theorem wiring_text (l : LoadOut K) : CellText (connectionField l) := by
  have hrow : ∀ c : Text, CellText (rowValue (connectionCode c)) := by
    intro c
    rw [cellText_iff]
    unfold connectionCode
    split_ifs <;> decide
  unfold connectionField
  cases l.connection with
  | none => exact (cellText_iff []).mpr rfl
  | some c =>
    dsimp only
    split
    · exact (cellText_iff _).mpr (by decide)
    · exact hrow c

theorem type_text {hash : Text → Text} {l : LoadOut K} {e : Text} (h : LoadText hash l e) : CellText (typeOf l) := by
  unfold typeOf
  split
  · exact (cellText_iff _).mpr (by decide)
  · exact h.label

theorem loadCells_text {hash : Text → Text} {l : LoadOut K} {e : Text} (h : LoadText hash l e) :
    ∀ c ∈ (loadColumns hash l e (connectionField l)).map (·.2), CellText c := by
  intro c hc
  simp only [loadColumns, List.map_cons, List.map_nil, List.mem_cons, List.not_mem_nil, or_false] at hc
  rcases hc with rfl | rfl | rfl | rfl | rfl
  · exact h.section_.1
  · exact h.section_.1
  · exact (cellText_iff _).mpr (by decide)
  · exact wiring_text l
  · exact (cellText_iff _).mpr (by decide)

theorem customerCells_text {pr : K → Text} (hpr : ∀ x, CellText (pr x)) {hash : Text → Text} {l : LoadOut K} {e : Text} (h : LoadText hash l e) :
    ∀ c ∈ (customerColumns pr hash l e).map (·.2), CellText c := by
  intro c hc
  simp only [customerColumns, List.map_cons, List.map_nil, List.mem_cons, List.not_mem_nil, or_false] at hc
  rcases hc with rfl | rfl | rfl | rfl | rfl | rfl | rfl | rfl | rfl | rfl | rfl | rfl | rfl | rfl | rfl | rfl
  · exact h.section_.1
  · exact h.section_.1
  · exact (cellText_iff _).mpr (by decide)
  · exact (cellText_iff _).mpr (by decide)
  · exact h.phases
  · exact shown_text hpr _
  · exact shown_text hpr _
  · exact (cellText_iff _).mpr (by decide)
  · exact type_text h
  · exact shown_text hpr _
  · exact shown_text hpr _
  · exact shown_text hpr _
  · exact shown_text hpr _
  · exact shown_text hpr _
  · exact shown_text hpr _
  · exact (cellText_iff _).mpr (by decide)

theorem no_heads {line : Text} (h : '[' ∉ line) : ∀ hs ∈ loadKinds, ¬Heads hs line := by
  rintro hs hh ⟨x, hx, hi⟩
  refine h (hi.subset ?_)
  have : ∀ hs ∈ loadKinds, ∀ x ∈ hs, '[' ∈ x := by decide
  exact this hs hh x hx

theorem first_lines {date : Text} (hdate : '[' ∉ date) :
    ∀ line ∈ ["[GENERAL]\n".toList, "DATE=".toList ++ date ++ ['\n'], "CYME_VERSION=8.02\n".toList, "\n".toList, "[SI]\n".toList, "\n".toList],
      ∀ hs ∈ loadKinds, ¬Heads hs line := by
  have closed : ∀ line ∈ ["[GENERAL]\n".toList, "CYME_VERSION=8.02\n".toList, "\n".toList, "[SI]\n".toList], ∀ hs ∈ loadKinds,
      isHeader hs line = false := by decide +kernel
  have closed' : ∀ line ∈ ["[GENERAL]\n".toList, "CYME_VERSION=8.02\n".toList, "\n".toList, "[SI]\n".toList], ∀ hs ∈ loadKinds, ¬Heads hs line := by
    intro line hl hs hh
    rw [← isHeader_iff, closed line hl hs hh]
    decide
  intro line hl
  simp only [List.mem_cons, List.not_mem_nil, or_false] at hl
  rcases hl with rfl | rfl | rfl | rfl | rfl | rfl
  · exact closed' _ (by decide)
  · refine no_heads ?_
    rw [List.mem_append, List.mem_append, not_or, not_or]
    exact ⟨⟨by decide, hdate⟩, by decide⟩
  · exact closed' _ (by decide)
  · exact closed' _ (by decide)
  · exact closed' _ (by decide)
  · exact closed' _ (by decide)

/-- the file has the two tables -/
theorem load_file_tables {date : Text} (hdate : '[' ∉ date) {rows customers : List (List Text)} (hne : customers ≠ [])
    (h1 : ∀ r ∈ rows, 4 ≤ r.length ∧ ∀ c ∈ r, CellText c) (h2 : ∀ r ∈ customers, 4 ≤ r.length ∧ ∀ c ∈ r, CellText c) :
    Mixed loadKinds (loadFileOf date rows customers)
      [(loadsQuery.headers, ⟨loadNames, rows⟩), (customerQuery.headers, ⟨customerNames, customers⟩)] := by
  have hlines : ∀ rs : List (List Text), (∀ r ∈ rs, 4 ≤ r.length ∧ ∀ c ∈ r, CellText c) →
      List.Forall₂ RowLine (rs.map fun r => joinCells r ++ ['\n']) rs := by
    intro rs hrs
    rw [List.forall₂_map_left_iff, List.forall₂_same]
    exact fun r hr => rowLine_cells (hrs r hr).1 (hrs r hr).2
  have huniq1 : ∀ hs' ∈ loadKinds, Heads hs' ("[LOADS]".toList ++ ['\n']) → hs' = loadsQuery.headers := by
    intro hs' hm hh
    rw [← isHeader_iff] at hh
    exact (show ∀ hs' ∈ loadKinds, isHeader hs' ("[LOADS]".toList ++ ['\n']) = true → hs' = loadsQuery.headers by decide +kernel) hs' hm hh
  have huniq2 : ∀ hs' ∈ loadKinds, Heads hs' ("[CUSTOMER LOADS]".toList ++ ['\n']) → hs' = customerQuery.headers := by
    intro hs' hm hh
    rw [← isHeader_iff] at hh
    exact (show ∀ hs' ∈ loadKinds, isHeader hs' ("[CUSTOMER LOADS]".toList ++ ['\n']) = true → hs' = customerQuery.headers by decide +kernel) hs' hm hh
  unfold loadFileOf tableLines
  rw [List.append_assoc, List.append_assoc]
  refine mixed_pre (first_lines hdate) ?_
  refine Mixed.table (hs := loadsQuery.headers) (h := "[LOADS]".toList ++ ['\n']) (t := ⟨loadNames, rows⟩) (blank := "\n".toList) (by decide)
    ⟨_, List.mem_singleton.mpr rfl, [], ['\n'], rfl⟩ huniq1 loads_format (hlines rows h1) (by decide) ?_
  exact Mixed.last (hs := customerQuery.headers) (h := "[CUSTOMER LOADS]".toList ++ ['\n']) (t := ⟨customerNames, customers⟩) (by decide)
    ⟨_, List.mem_singleton.mpr rfl, [], ['\n'], rfl⟩ huniq2 customers_format (hlines customers h2) hne

end numbers

/-! ### rows -/

theorem written_row {num : Text → Option ℝ} {int : Text → Option ℤ} (h0 : int "0".toList = some 0) (hempty : num [] = none) {pr : ℝ → Text}
    {hash : Text → Text} {l : LoadOut ℝ} {e : Text} (ha : num (pr (activeOf l)) = some (activeOf l)) (hb : num (pr (reactiveOf l)) = some (reactiveOf l))
    {loads classes secs : List (Text × Values)} {feeders : List (Text × Text)} {v : Values}
    (hv : RowRead customerQuery.attrs customerNames ((customerColumns pr hash l e).map (·.2)) v) (dups : List Text) (vars : LoadVars) (key : Text) :
    (∀ vars', loadRow ⟨num, int, loads, classes, secs, feeders⟩ dups vars (key, v) = .ok vars' → vars'.loads = vars.loads) ∧
    (∀ err, loadRow ⟨num, int, loads, classes, secs, feeders⟩ dups vars (key, v) = .error err → err = .keyError ∨ err = .valueError) ∧
    ((l.tapped = true ∨ (activeOf l ≠ 0 ∧ (0 ≤ activeOf l ∨ 0 ≤ reactiveOf l))) →
      ∃ err, loadRow ⟨num, int, loads, classes, secs, feeders⟩ dups vars (key, v) = .error err) := by
  have g1 : getEntry "value1".toList v = some (shown pr (untapped l (activeOf l))) :=
    rowRead_inner hv (by decide) (inner_at (cols := customerNames) 5 (by decide) rfl (by decide) (by show 6 < 16; omega))
  have g2 : getEntry "value2".toList v = some (shown pr (untapped l (reactiveOf l))) :=
    rowRead_inner hv (by decide) (inner_at (cols := customerNames) 6 (by decide) rfl (by decide) (by show 7 < 16; omega))
  have g3 : getEntry "valuetype".toList v = some "0".toList :=
    rowRead_inner hv (by decide) (inner_at (cols := customerNames) 3 (by decide) rfl (by decide) (by show 4 < 16; omega))
  have g4 : getEntry "connectedkva".toList v = none :=
    hasCells_none (hasCells_read hv []) (fun hh => no_cell (cols := customerNames) (by decide) hh.2)
  have g5 : getEntry "numberofcustomer".toList v = none :=
    hasCells_none (hasCells_read hv []) (fun hh => no_cell (cols := customerNames) (by decide) hh.2)
  unfold loadRow rowConnected rowType
  dsimp only
  rw [g4]
  dsimp only
  rw [g3]
  dsimp only
  rw [h0]
  dsimp only
  rw [g1, g2]
  dsimp only
  unfold untapped
  by_cases ht : l.tapped = true
  · rw [if_pos ht, if_pos ht]
    have : rowPowers ⟨num, int, loads, classes, secs, feeders⟩ none { vars with valueType := some 0 } (shown pr none) (shown pr none) =
        .error .valueError := by
      unfold rowPowers
      show (match num [] with | none => _ | some a => _) = _
      rw [hempty]
    rw [this]
    exact ⟨(fun _ h => nomatch h), (fun err h => Or.inr (by injection h with h; exact h.symm)), fun _ => ⟨_, rfl⟩⟩
  · rw [if_neg ht, if_neg ht]
    have hpow : rowPowers ⟨num, int, loads, classes, secs, feeders⟩ none { vars with valueType := some 0 } (shown pr (some (activeOf l)))
        (shown pr (some (reactiveOf l))) = .ok (true, some (activeOf l), some (reactiveOf l)) := by
      show rowPowers _ none _ (pr (activeOf l)) (pr (reactiveOf l)) = _
      unfold rowPowers
      dsimp only
      rw [ha, hb]
      dsimp only
      unfold powersOf
      dsimp only
      rw [if_pos rfl]
      split_ifs with h1 h2
      · rw [h1, h2]
      · rfl
      · rfl
    rw [hpow]
    dsimp only
    unfold rowLoad keepsRow
    dsimp only
    by_cases hkeep : 0 ≤ activeOf l ∨ 0 ≤ reactiveOf l
    · rw [decide_eq_true hkeep]
      dsimp only
      unfold addLoad
      dsimp only
      by_cases hd : rowSection key ∈ dups ∧ some (activeOf l) = some 0
      · rw [if_pos hd]
        refine ⟨fun vars' h => ?_, (fun _ h => nomatch h), ?_⟩
        · injection h with h
          rw [← h]
        · rintro (hc | ⟨hc, -⟩)
          · exact absurd hc ht
          · injection hd.2 with hd2
            exact absurd hd2 hc
      · rw [if_neg hd]
        have husers : rowUsers ⟨num, int, loads, classes, secs, feeders⟩ v = .error .keyError := by
          unfold rowUsers
          rw [g5]
        rw [husers]
        dsimp only
        split
        · exact ⟨(fun _ h => nomatch h), (fun err h => Or.inl (by injection h with h; exact h.symm)), fun _ => ⟨_, rfl⟩⟩
        · exact ⟨(fun _ h => nomatch h), (fun err h => Or.inl (by injection h with h; exact h.symm)), fun _ => ⟨_, rfl⟩⟩
    · rw [decide_eq_false hkeep]
      refine ⟨fun vars' h => ?_, (fun _ h => nomatch h), ?_⟩
      · injection h with h
        rw [← h]
      · rintro (hc | ⟨-, hc⟩)
        · exact absurd hc ht
        · exact absurd hc hkeep

/-- A written load file cannot be read back: no load is made from it, and if there is one with power, or a center tap, the reading fails. The rows do not
have the number of customers that the reader wants. -/
theorem C82_back_violated {num : Text → Option ℝ} {int : Text → Option ℤ} (h0 : int "0".toList = some 0) (hempty : num [] = none) {pr : ℝ → Text}
    (hpr : ∀ x, CellText (pr x)) {hash : Text → Text} {date : Text} (hdate : '[' ∉ date) {loads : List (LoadOut ℝ)}
    (h : ∀ l ∈ loads, ∃ e, Connected l e ∧ LoadText hash l e)
    (hread : ∀ l ∈ loads, num (pr (activeOf l)) = some (activeOf l) ∧ num (pr (reactiveOf l)) = some (reactiveOf l)) (hne : loads ≠ [])
    (secs : List (Text × Values)) (feeders : List (Text × Text)) :
    (∀ back, parseLoadFile num int secs feeders (writeLoads pr hash date loads).1 = .ok back → back = []) ∧
    ((∃ l ∈ loads, l.tapped = true ∨ (activeOf l ≠ 0 ∧ (0 ≤ activeOf l ∨ 0 ≤ reactiveOf l))) →
      parseLoadFile num int secs feeders (writeLoads pr hash date loads).1 = .error .keyError ∨
      parseLoadFile num int secs feeders (writeLoads pr hash date loads).1 = .error .valueError) := by
  have hw : ∀ l : LoadOut ℝ, ∃ e, l ∈ loads → Connected l e ∧ LoadText hash l e := by
    intro l
    by_cases hl : l ∈ loads
    · obtain ⟨e, he⟩ := h l hl
      exact ⟨e, fun _ => he⟩
    · exact ⟨[], fun hc => absurd hc hl⟩
  choose e he using hw
  rw [loads_file pr hash date (fun l hl => (he l hl).1)]
  have hmix := load_file_tables hdate (rows := loads.map fun l => (loadColumns hash l (e l) (connectionField l)).map (·.2))
    (customers := loads.map fun l => (customerColumns pr hash l (e l)).map (·.2)) (by simpa using hne)
    (by
      intro r hr
      obtain ⟨l, hl, rfl⟩ := List.mem_map.mp hr
      exact ⟨by show 4 ≤ 5; omega, loadCells_text (he l hl).2⟩)
    (by
      intro r hr
      obtain ⟨l, hl, rfl⟩ := List.mem_map.mp hr
      exact ⟨by show 4 ≤ 16; omega, customerCells_text hpr (he l hl).2⟩)
  obtain ⟨ld, cd, kd, hparse, -, r2, -⟩ := load_tables (num := num) (int := int) (secs := secs) (feeders := feeders) hmix
    (show [loadsQuery.headers, customerQuery.headers].Nodup by decide) (by
    intro t ht r hr
    simp only [List.mem_cons, List.not_mem_nil, or_false] at ht
    rcases ht with rfl | rfl
    · obtain ⟨l, hl, rfl⟩ := List.mem_map.mp hr
      show '*' ∉ Net.pyStrip (sectionOfLoad hash l (e l))
      rw [(he l hl).2.section_.2.1]
      exact (he l hl).2.section_.2.2
    · obtain ⟨l, hl, rfl⟩ := List.mem_map.mp hr
      show '*' ∉ Net.pyStrip (sectionOfLoad hash l (e l))
      rw [(he l hl).2.section_.2.1]
      exact (he l hl).2.section_.2.2)
  obtain ⟨-, hrows⟩ := r2 customerNames _ (Or.inl (List.mem_cons_of_mem _ (List.mem_singleton.mpr rfl)))
  rw [hparse]
  unfold parseLoads
  generalize duplicateLoads (cd.map (·.1)) = dups
  rw [List.forall₂_map_left_iff] at hrows
  have key : ∀ vars : LoadVars,
      (∀ vars', loadRows ⟨num, int, ld, kd, secs, feeders⟩ dups vars cd = .ok vars' → vars'.loads = vars.loads) ∧
      (∀ err, loadRows ⟨num, int, ld, kd, secs, feeders⟩ dups vars cd = .error err → err = .keyError ∨ err = .valueError) ∧
      ((∃ l ∈ loads, l.tapped = true ∨ (activeOf l ≠ 0 ∧ (0 ≤ activeOf l ∨ 0 ≤ reactiveOf l))) →
        ∃ err, loadRows ⟨num, int, ld, kd, secs, feeders⟩ dups vars cd = .error err) := by
    clear hparse r2 hmix hne h he
    induction hrows with
    | nil =>
      intro vars
      refine ⟨fun vars' h => ?_, (fun _ h => nomatch h), ?_⟩
      · injection h with h
        rw [← h]
      · rintro ⟨l, hl, -⟩
        cases hl
    | @cons l p loads cd hp _ ih =>
      intro vars
      obtain ⟨w1, w2, w3⟩ := written_row h0 hempty (hread l List.mem_cons_self).1 (hread l List.mem_cons_self).2 (loads := ld) (classes := kd)
        (secs := secs) (feeders := feeders) hp dups vars p.1
      have hstep : loadRows ⟨num, int, ld, kd, secs, feeders⟩ dups vars (p :: cd) =
          match loadRow ⟨num, int, ld, kd, secs, feeders⟩ dups vars (p.1, p.2) with
          | .error e => .error e
          | .ok vars' => loadRows ⟨num, int, ld, kd, secs, feeders⟩ dups vars' cd := rfl
      rw [hstep]
      cases hrow : loadRow ⟨num, int, ld, kd, secs, feeders⟩ dups vars (p.1, p.2) with
      | error err =>
        rw [hrow] at w2
        dsimp only
        exact ⟨(fun _ h => nomatch h), (fun err' h => by injection h with h; exact h ▸ w2 err rfl), fun _ => ⟨_, rfl⟩⟩
      | ok vars1 =>
        rw [hrow] at w1 w3
        dsimp only
        obtain ⟨i1, i2, i3⟩ := ih (fun l hl => hread l (List.mem_cons_of_mem _ hl)) vars1
        refine ⟨fun vars' h => (i1 vars' h).trans (w1 vars1 rfl), i2, ?_⟩
        rintro ⟨x, hx, hbad⟩
        rcases List.mem_cons.mp hx with rfl | hx
        · obtain ⟨err, herr⟩ := w3 hbad
          cases herr
        · exact i3 ⟨x, hx, hbad⟩
  obtain ⟨k1, k2, k3⟩ := key {}
  cases hres : loadRows ⟨num, int, ld, kd, secs, feeders⟩ dups {} cd with
  | error err =>
    dsimp only
    refine ⟨(fun _ h => nomatch h), fun _ => ?_⟩
    rcases k2 err hres with rfl | rfl
    · exact Or.inl rfl
    · exact Or.inr rfl
  | ok vars' =>
    dsimp only
    refine ⟨fun back h => ?_, fun hbad => ?_⟩
    · injection h with h
      rw [← h]
      exact k1 vars' hres
    · obtain ⟨err, herr⟩ := k3 hbad
      rw [hres] at herr
      cases herr

/-- The row of a load without a node lacks its first two cells, and the comma between them. Everything stands one column too early: nothing is the
section, and what the row has as the first power is the reactive one. -/
theorem C82_no_element_violated {K : Type} [Field K] (pr : K → Text) (hash : Text → Text) {l : LoadOut K} (he : l.element = none) (ht : l.tapped = false)
    (hp : ∀ p ∈ phaseLoadsOf l, p.phase ≠ none) :
    loadSection hash l = none ∧
    ∃ row, customerLine pr hash l = joinCells row ∧ row.length + 1 = customerNames.length ∧ keyOf row = [] ∧
      Cell customerNames row "value1".toList (pr (reactiveOf l)) ∧ Cell customerNames row "loadphase".toList (pr (activeOf l)) := by
  refine ⟨by unfold loadSection; rw [he], [] :: (["SPOT".toList, "0".toList, phaseText (phasesOut l), powerField pr l (totalKilo (·.p) (phasesOut l)),
    powerField pr l (totalKilo (·.q) (phasesOut l)), "0".toList, customerType l] ++ tapFields pr l ++ ["0".toList]), ?_, ?_⟩
  · unfold customerLine loadStart
    rw [he]
    exact join_commas [] _
  · have hpow : ∀ x : K, powerField pr l x = pr x := fun x => by unfold powerField; rw [ht]; rfl
    rw [hpow, hpow, phasesOut_eq, totalKilo_sum hp, totalKilo_sum hp, tapFields_eq pr hp]
    exact ⟨rfl, rfl, cell_at (cols := customerNames) 5 (by decide) rfl (by decide), cell_at (cols := customerNames) 4 (by decide) rfl (by decide)⟩

theorem skip_lines {pre : List Text} {slots : List (Query × List (Text × Values))} (h : ∀ line ∈ pre, ∀ s ∈ slots, ¬Heads s.1.headers line)
    (n : Nat) (rest : List Text) : manyLoop (pre.length + n) slots (pre ++ rest) = manyLoop n slots rest := by
  induction pre with
  | nil => rw [List.length_nil, Nat.zero_add, List.nil_append]
  | cons line pre ih =>
    rw [List.length_cons, List.cons_append, Nat.add_right_comm, manyLoop, helpers_none (h line List.mem_cons_self)]
    exact ih fun x hx => h x (List.mem_cons_of_mem _ hx)

/-- The file for no loads ends with the names of the columns. Its reader stops there with an exception. -/
theorem C82_empty_violated {K : Type} [Field K] (num : Text → Option ℝ) (int : Text → Option ℤ) (pr : K → Text) (hash : Text → Text) {date : Text}
    (hdate : '[' ∉ date) (secs : List (Text × Values)) (feeders : List (Text × Text)) :
    parseLoadFile num int secs feeders (writeLoads pr hash date []).1 = .error .stopIteration := by
  have hfile := loads_file pr hash date (loads := []) (e := fun _ => []) (fun l hl => absurd hl List.not_mem_nil)
  rw [hfile, List.map_nil, List.map_nil]
  have hread : readMany [loadsQuery, customerQuery, classQuery] (loadFileOf date [] []) = .error .stopIteration := by
    unfold readMany
    have hskip := skip_lines (slots := [(loadsQuery, []), (customerQuery, []), (classQuery, [])]) (fun line hl s hs => first_lines hdate line hl s.1.headers
      (show s.1.headers ∈ [(loadsQuery, ([] : List (Text × Values))), (customerQuery, []), (classQuery, [])].map (·.1.headers) from
        List.mem_map_of_mem (f := fun s : Query × List (Text × Values) => s.1.headers) hs)) 5
      (tableLines "[LOADS]".toList "FORMAT_LOADS".toList loadNames [] ++ ["\n".toList] ++
        tableLines "[CUSTOMER LOADS]".toList "FORMAT_CUSTOMERLOADS".toList customerNames [])
    have hlast : manyLoop 5 [(loadsQuery, []), (customerQuery, []), (classQuery, [])]
        (tableLines "[LOADS]".toList "FORMAT_LOADS".toList loadNames [] ++ ["\n".toList] ++
          tableLines "[CUSTOMER LOADS]".toList "FORMAT_CUSTOMERLOADS".toList customerNames []) = .error .stopIteration := by rfl
    rw [hlast] at hskip
    have hform : loadFileOf date [] [] =
        ["[GENERAL]\n".toList, "DATE=".toList ++ date ++ ['\n'], "CYME_VERSION=8.02\n".toList, "\n".toList, "[SI]\n".toList, "\n".toList] ++
        (tableLines "[LOADS]".toList "FORMAT_LOADS".toList loadNames [] ++ ["\n".toList] ++
          tableLines "[CUSTOMER LOADS]".toList "FORMAT_CUSTOMERLOADS".toList customerNames []) := by
      unfold loadFileOf
      rw [List.append_assoc, List.append_assoc]
      rfl
    rw [hform]
    exact (congrArg (fun r : Py (List (Query × List (Text × Values))) => readMany.match_1 (fun _ => Py (List (List (Text × Values)))) r
      (fun e => .error e) (fun slots => .ok (slots.map (·.2)))) hskip)
  unfold parseLoadFile
  rw [hread]

/-! ### an example -/

/-- three loads -/
def exampleOut : List (LoadOut ℚ) :=
  [⟨"l1".toList, some "n1".toList, some "D".toList, false, none, none, none, [⟨some "C".toList, some 3000, some 4000, false⟩, ⟨some "B".toList, some 1, none, true⟩],
      none⟩,
    ⟨"l2".toList, some "n1".toList, some "Y".toList, true, some (1 / 2), some (1 / 4), some 0, [⟨some "A".toList, some 8000, some 4000, false⟩], some "home".toList⟩,
    ⟨"l3".toList, some "n2".toList, some "X".toList, false, none, none, none,
      [⟨some "A".toList, some 1000, none, false⟩, ⟨some "B".toList, some 2000, some 5000, false⟩], some []⟩]

/-- what is written for them -/
example : writeLoads (fun x : ℚ => (toString x.num).toList) id "today".toList exampleOut =
    (["[GENERAL]\n".toList, "DATE=today\n".toList, "CYME_VERSION=8.02\n".toList, "\n".toList, "[SI]\n".toList, "\n".toList, "[LOADS]\n".toList,
      "FORMAT_LOADS=SectionID,DeviceNumber,LoadType,Connection,Location\n".toList, "n1_l1,n1_l1,SPOT,2,0\n".toList, "n1_l2,n1_l2,SPOT,6,0\n".toList,
      "n2_l3,n2_l3,SPOT,,0\n".toList, "\n".toList, "[CUSTOMER LOADS]\n".toList,
      ("FORMAT_CUSTOMERLOADS=SectionID,DeviceNumber,LoadType,ValueType,LoadPhase,Value1,Value2,CustomerNumber,CustomerType,CenterTapPercent," ++
        "CenterTapPercent2,LoadValue1N1,LoadValue1N2,LoadValue2N1,LoadValue2N2,ConnectionStatus\n").toList,
      "n1_l1,n1_l1,SPOT,0,C,3,4,0,PQ,,,,,,,0\n".toList, "n1_l2,n1_l2,SPOT,0,A,,,0,home,50,25,4,2,2,1,0\n".toList,
      "n2_l3,n2_l3,SPOT,0,AB,3,5,0,PQ,,,,,,,0\n".toList],
    ["n1_l1,n1,0,l1,0,AC".toList, "n1_l2,n1,0,l2,0,A".toList, "n2_l3,n2,0,l3,0,AB".toList]) := by
  decide +kernel

theorem exampleOut_connected : ∀ l ∈ exampleOut, ∃ e, Connected l e := by
  intro l hl
  simp only [exampleOut, List.mem_cons, List.not_mem_nil, or_false] at hl
  rcases hl with rfl | rfl | rfl
  · exact ⟨"n1".toList, rfl, by decide +kernel⟩
  · exact ⟨"n1".toList, rfl, by decide +kernel⟩
  · exact ⟨"n2".toList, rfl, by decide +kernel⟩

/-- the example is such a case -/
example (pr : ℚ → Text) (hash : Text → Text) (date : Text) : ∃ rows customers sections,
    writeLoads pr hash date exampleOut = (loadFileOf date rows customers, sections) ∧ rows.length = 3 := by
  obtain ⟨rows, customers, sections, h, h1, -⟩ := C82_loads_partial pr hash date exampleOut_connected
  exact ⟨rows, customers, sections, h, h1.length_eq.symm⟩

/-- a center tap without shares, and another one with other powers -/
example (pr : ℚ → Text) :
    customerLine pr id ⟨"l2".toList, some "n1".toList, some "Y".toList, true, none, none, none, [⟨some "A".toList, some 7, none, false⟩], none⟩ =
    customerLine pr id ⟨"l2".toList, some "n1".toList, some "Y".toList, true, none, none, none, [⟨some "A".toList, some 8000, some 4000, false⟩], none⟩ :=
  (C82_tap_violated pr id (l := ⟨"l2".toList, some "n1".toList, some "Y".toList, true, none, none, none, [⟨some "A".toList, some 8000, some 4000, false⟩], none⟩)
    rfl (Or.inl rfl) (ps := [⟨some "A".toList, some 7, none, false⟩]) rfl rfl).1

/-- a phase load without phase -/
example (pr : ℚ → Text) :
    customerLine pr id ⟨"l2".toList, some "n1".toList, none, false, none, none, none, [⟨none, some 7, none, false⟩, ⟨some "A".toList, some 1, none, false⟩], none⟩ =
    customerLine pr id ⟨"l2".toList, some "n1".toList, none, false, none, none, none, [⟨some "A".toList, some 1, none, false⟩], none⟩ :=
  C82_unphased_violated pr id ⟨"l2".toList, some "n1".toList, none, false, none, none, none, [⟨none, some 7, none, false⟩, ⟨some "A".toList, some 1, none, false⟩], none⟩
    (ps := []) (qs := [⟨some "A".toList, some 1, none, false⟩]) (p := ⟨none, some 7, none, false⟩) rfl rfl

/-- a load without a node -/
example : customerLine (fun x : ℚ => (toString x.num).toList) id
    ⟨"l1".toList, none, none, false, none, none, none, [⟨some "A".toList, some 3000, some 4000, false⟩], none⟩ =
    ",SPOT,0,A,3,4,0,PQ,,,,,,,0".toList := by
  decide +kernel

/-- a load of 1 kW and 1 kvar -/
noncomputable def kiloLoad : LoadOut ℝ where
  name := "l1".toList
  element := some "n1".toList
  connection := some "Y".toList
  tapped := false
  first := none
  second := none
  both := none
  phases := [⟨some "A".toList, some 1000, some 1000, false⟩]
  label := none

/-- it cannot be read back -/
example : parseLoadFile (fun t => if t = "1".toList then some 1 else none) (fun t => if t = "0".toList then some 0 else none) [] []
      (writeLoads (fun _ => "1".toList) id "today".toList [kiloLoad]).1 = .error .keyError ∨
    parseLoadFile (fun t => if t = "1".toList then some 1 else none) (fun t => if t = "0".toList then some 0 else none) [] []
      (writeLoads (fun _ => "1".toList) id "today".toList [kiloLoad]).1 = .error .valueError := by
  have ha : activeOf kiloLoad = 1 := by
    show ([(1000 : ℝ)]).sum / 1000 = 1
    norm_num
  have hb : reactiveOf kiloLoad = 1 := by
    show ([(1000 : ℝ)]).sum / 1000 = 1
    norm_num
  refine (C82_back_violated (if_pos rfl) (if_neg (by decide)) (fun _ => (cellText_iff _).mpr (by decide)) (by decide) ?_ ?_ (List.cons_ne_nil _ _) [] []).2
    ⟨kiloLoad, List.mem_singleton.mpr rfl, Or.inr ⟨?_, Or.inl ?_⟩⟩
  · intro l hl
    rw [List.mem_singleton.mp hl]
    refine ⟨"n1".toList, ⟨rfl, ?_⟩, ⟨(cellText_iff "n1_l1".toList).mpr (by decide), show Net.pyStrip "n1_l1".toList = "n1_l1".toList by decide,
      show '*' ∉ "n1_l1".toList by decide⟩, (cellText_iff "A".toList).mpr (by decide), (cellText_iff []).mpr rfl⟩
    intro p hp
    rw [List.mem_singleton.mp (show p ∈ [(⟨some "A".toList, some 1000, some 1000, false⟩ : PhaseOut ℝ)] from hp)]
    exact Option.some_ne_none _
  · intro l hl
    rw [List.mem_singleton.mp hl, ha, hb, if_pos rfl]
    exact ⟨rfl, rfl⟩
  · rw [ha]; exact one_ne_zero
  · rw [ha]; exact zero_le_one

end Ditto.Cyme
