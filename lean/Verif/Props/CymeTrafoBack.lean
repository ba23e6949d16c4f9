import Verif.Props.CymeTrafoWrite
import Verif.Props.CymeTrafos
import Verif.Props.CymeRegBack

/-! C85: the transformers that the CYME writer writes, read back. -/
namespace Ditto.Cyme
open Ditto Glm Spec

/-- the names of the columns of the settings and of the equipment -/
def writtenSettingCols : List Text := (settingCells [] none [] [] [] [] []).map (·.1)
def writtenTrafoCols : List Text := (deviceCells [] [] [] [] [] [] [] [] [] [] []).map (·.1)

theorem trafoSettings_format : FormatLine (trafoSettingFormat ++ ['\n']) writtenSettingCols := by
  refine ⟨by decide, ?_, "FORMAT_TRANSFORMERSETTING".toList, ['\n'], Or.inr (Or.inl rfl), by decide, ?_, by decide +kernel⟩
  · intro c hc
    rw [cellText_iff]
    exact (show ∀ c ∈ writtenSettingCols, c.all (fun x => x ≠ ',' && x ≠ '=' && x ≠ '\n' && x ≠ '\r') = true by decide) c hc
  · exact ⟨[], "_transformersetting".toList, by decide⟩

theorem trafos_format : FormatLine (trafoFormat ++ ['\n']) writtenTrafoCols := by
  refine ⟨by decide, ?_, "FORMAT_TRANSFORMER".toList, ['\n'], Or.inr (Or.inl rfl), by decide, ?_, by decide +kernel⟩
  · intro c hc
    rw [cellText_iff]
    exact (show ∀ c ∈ writtenTrafoCols, c.all (fun x => x ≠ ',' && x ≠ '=' && x ≠ '\n' && x ≠ '\r') = true by decide) c hc
  · exact ⟨[], "_transformer".toList, by decide⟩

theorem trafoName_text (k : Nat) : CellText (trafoName k) ∧ Net.pyStrip (trafoName k) = trafoName k ∧ '*' ∉ trafoName k := by
  unfold trafoName
  have no : ∀ c : Char, c.isDigit = false → c ∉ "transformer_".toList → c ∉ "transformer_".toList ++ k.repr.toList := by
    intro c h1 h2
    rw [List.mem_append, not_or]
    exact ⟨h2, Dss.not_mem_repr h1 k⟩
  refine ⟨⟨no _ (by decide) (by decide), no _ (by decide) (by decide), no _ (by decide) (by decide), no _ (by decide) (by decide)⟩,
    Net.pyStrip_plain ?_, no _ (by decide) (by decide)⟩
  intro c hc
  rcases List.mem_append.mp hc with hc | hc
  · exact (show ∀ c ∈ "transformer_".toList, c.isWhitespace = false by decide) c hc
  · by_contra hw
    have hw : c.isWhitespace = true := by simpa using hw
    refine Dss.not_mem_repr ?_ k hc
    unfold Char.isWhitespace at hw
    simp only [Bool.or_eq_true, decide_eq_true_eq] at hw
    rcases hw with ((rfl | rfl) | rfl) | rfl <;> rfl

/-- The reader finds the connections of the windings by the code in the equipment. -/
theorem C85_codes {a b : WindingIn} {code : Text × Text × Text × Text} (hm : code ∈ connectionCodes) (h : WindingsConnected a b code) :
    (windingConnections code.2.2.2).map (fun p => (some p.1, some p.2)) = some (a.connection, b.connection) := by
  rw [h.1, h.2]
  have : ∀ code ∈ connectionCodes, windingConnections code.2.2.2 = some (code.1, code.2.1) := by decide +kernel
  rw [this code hm]
  rfl

/-! ### cells -/

theorem code_text (s : Bool) (ws : List WindingIn) : CellText (windingsCode s ws) := by
  rw [cellText_iff]
  unfold windingsCode
  split
  · unfold windingPairCode
    split_ifs <;> decide
  · rfl

theorem shift_text (c : Text) : CellText (shiftOf c) := by
  rw [cellText_iff]
  unfold shiftOf
  split_ifs <;> decide

theorem loss_text {pr : ℝ → Text} (hpr : ∀ x, CellText (pr x)) (l : Option ℝ) (p : ℝ) : CellText (lossOf pr l p) := by
  cases l with
  | none => exact (cellText_iff []).mpr rfl
  | some l => exact hpr _

theorem tap_text {pr : ℝ → Text} (hpr : ∀ x, CellText (pr x)) (ws : List WindingIn) : CellText (tapText pr ws) := by
  unfold tapText
  split
  · split
    · split
      · exact (cellText_iff []).mpr rfl
      · exact hpr _
    · exact (cellText_iff []).mpr rfl
  · exact (cellText_iff []).mpr rfl

theorem typeCode_text (n : Nat) : CellText (typeCode n) ∧ CellText (unitCode n) := by
  rw [cellText_iff, cellText_iff]
  unfold typeCode unitCode
  split_ifs <;> decide

/-- the row of a transformer, with cells that can be read -/
def IsSetting (sec : Text) (k : Nat) (row : Text) : Prop :=
  ∃ place conn letters shift tap, row = rowText (settingCells sec place conn letters (trafoName k) shift tap) ∧
    ∀ c ∈ settingCells sec place conn letters (trafoName k) shift tap, CellText c.2

/-- the row of its equipment -/
def IsDevice (pr : ℝ → Text) (name line : Text) : Prop :=
  ∃ type kva unit prim sec z xr conn loss shift, line = rowText (deviceCells name type kva unit prim sec (pr z) (pr xr) conn loss shift) ∧
    ∀ c ∈ deviceCells name type kva unit prim sec (pr z) (pr xr) conn loss shift, CellText c.2

theorem setting_texts {sec conn letters eq shift tap : Text} {place : Option (Text × Text)} (h1 : CellText sec)
    (h2 : CellText (placeOf place).1 ∧ CellText (placeOf place).2) (h3 : CellText conn) (h4 : CellText letters) (h5 : CellText eq) (h6 : CellText shift)
    (h7 : CellText tap) : ∀ c ∈ settingCells sec place conn letters eq shift tap, CellText c.2 := by
  intro c hc
  unfold settingCells at hc
  simp only [List.mem_cons, List.not_mem_nil, or_false] at hc
  rcases hc with rfl | rfl | rfl | rfl | rfl | rfl | rfl | rfl | rfl | rfl | rfl | rfl | rfl | rfl | rfl | rfl | rfl | rfl | rfl | rfl
  · exact h1
  · exact h2.1
  · exact h2.2
  · exact h3
  · exact h4
  · exact h5
  · exact h1
  · exact h6
  · exact (cellText_iff _).mpr (by decide)
  · exact (cellText_iff _).mpr (by decide)
  · exact (cellText_iff _).mpr (by decide)
  · exact (cellText_iff _).mpr (by decide)
  · exact (cellText_iff _).mpr (by decide)
  · exact h7
  all_goals exact (cellText_iff _).mpr (by decide)

theorem device_texts {eq type kva unit prim sec z xr conn loss shift : Text} (h1 : CellText eq) (h2 : CellText type) (h3 : CellText kva)
    (h4 : CellText unit) (h5 : CellText prim) (h6 : CellText sec) (h7 : CellText z) (h8 : CellText xr) (h9 : CellText conn) (h10 : CellText loss)
    (h11 : CellText shift) : ∀ c ∈ deviceCells eq type kva unit prim sec z xr conn loss shift, CellText c.2 := by
  intro c hc
  unfold deviceCells at hc
  simp only [List.mem_cons, List.not_mem_nil, or_false] at hc
  rcases hc with rfl | rfl | rfl | rfl | rfl | rfl | rfl | rfl | rfl | rfl | rfl | rfl | rfl | rfl | rfl
  · exact h1
  · exact h2
  · exact h3
  · exact h4
  · exact h5
  · exact h6
  · exact h7
  · exact h7
  · exact h8
  · exact h8
  · exact h9
  · exact (cellText_iff _).mpr (by decide)
  · exact h10
  · exact h11
  · exact (cellText_iff _).mpr (by decide)

/-- the rows of a transformer can be read -/
theorem cells_of {pr : ℝ → Text} {rnd : ℝ → ℝ} {hash : Text → Text} (hpr : ∀ x, CellText (pr x)) {t : TrafoIn} (h : Writable t)
    (ht : TrafoText hash t) {i : TrafoItem} (hi : Writes pr rnd hash t i) (k : Nat) :
    ∃ start stop, t.start = some start ∧ t.stop = some stop ∧ IsSetting (sectionBetween hash start stop) k (writtenTrafoRow i [k]) ∧
      IsDevice pr (trafoName k) (deviceLine (trafoName k) i.object) := by
  rcases h with ⟨start, stop, a, b, n, h⟩ | ⟨start, stop, a, b, c, s, v1, v2, v3, r1, r2, r3, x12, x13, x23, h, hr⟩
  · have e := writes_unique hi fun v => ⟨_, two_written hash h v⟩
    subst e
    refine ⟨start, stop, h.start, h.stop, ⟨_, _, _, _, _, item_row h.plain h.windings _ _ k, ?_⟩, ⟨_, _, _, _, _, _, _, _, _, _, device_row t a b n _ _ _, ?_⟩⟩
    · exact setting_texts (ht.section_ _ _ h.start h.stop).1 ht.place (code_text _ _) (ht.letters a (by rw [h.windings]; exact List.mem_cons_self))
        (trafoName_text k).1 (shift_text _) (tap_text hpr _)
    · exact device_texts (trafoName_text k).1 (typeCode_text _).1 (hpr _) (typeCode_text _).2 (hpr _) (hpr _) (hpr _) (hpr _) (code_text _ _)
        (loss_text hpr _ _) (shift_text _)
  · have e := writes_unique hi fun v => center_written hash h hr v
    subst e
    refine ⟨start, stop, h.start, h.stop, ⟨_, _, _, _, _, center_row (center_type h.center h.phase) _ _ k, ?_⟩,
      ⟨_, _, _, _, _, _, _, _, _, _, center_device t _ _ _ _ _ _ _, ?_⟩⟩
    · exact setting_texts (ht.section_ _ _ h.start h.stop).1 ht.place ((cellText_iff _).mpr (by decide))
        (ht.letters a (by rw [h.windings]; exact List.mem_cons_self)) (trafoName_text k).1 ((cellText_iff _).mpr (by decide)) (tap_text hpr _)
    · exact device_texts (trafoName_text k).1 ((cellText_iff _).mpr (by decide)) (hpr _) ((cellText_iff _).mpr (by decide)) (hpr _) (hpr _) (hpr _)
        (hpr _) ((cellText_iff _).mpr (by decide)) (loss_text hpr _ _) ((cellText_iff _).mpr (by decide))

/-- the cells of a row of the settings, and those of a row of the equipment -/
def SettingOf (sec : Text) (k : Nat) (cells : List Text) : Prop :=
  ∃ place conn letters shift tap, cells = (settingCells sec place conn letters (trafoName k) shift tap).map (·.2)

def DeviceOf (pr : ℝ → Text) (cells : List Text) : Prop :=
  ∃ name type kva unit prim sec z xr conn loss shift, cells = (deviceCells name type kva unit prim sec (pr z) (pr xr) conn loss shift).map (·.2)

theorem forall₂_choose {A B : Type} {R : A → B → Prop} : ∀ {as : List A}, (∀ a ∈ as, ∃ b, R a b) → ∃ bs, List.Forall₂ R as bs
  | [], _ => ⟨[], .nil⟩
  | a :: as, h => by
    obtain ⟨b, hb⟩ := h a List.mem_cons_self
    obtain ⟨bs, hbs⟩ := forall₂_choose fun x hx => h x (List.mem_cons_of_mem _ hx)
    exact ⟨b :: bs, .cons hb hbs⟩

theorem device_cells {pr : ℝ → Text} {names lines : List Text} (h : List.Forall₂ (IsDevice pr) names lines)
    (hn : ∀ n ∈ names, ∃ k : Nat, n = trafoName k) :
    ∃ erows, List.Forall₂ RowLine (lines.map fun r => r ++ ['\n']) erows ∧ erows.map keyOf = names ∧ ∀ e ∈ erows, DeviceOf pr e := by
  induction h with
  | nil => exact ⟨[], .nil, rfl, fun _ h => absurd h List.not_mem_nil⟩
  | @cons name line names lines hr _ ih =>
    obtain ⟨erows, h1, h2, h3⟩ := ih fun n hm => hn n (List.mem_cons_of_mem _ hm)
    obtain ⟨k, rfl⟩ := hn name List.mem_cons_self
    obtain ⟨type, kva, unit, prim, sec, z, xr, conn, loss, shift, rfl, ht⟩ := hr
    refine ⟨(deviceCells (trafoName k) type kva unit prim sec (pr z) (pr xr) conn loss shift).map (·.2) :: erows, .cons ?_ h1, ?_, ?_⟩
    · refine rowLine_cells (by show 4 ≤ 15; omega) fun c hc => ?_
      obtain ⟨p, hp, rfl⟩ := List.mem_map.mp hc
      exact ht p hp
    · rw [List.map_cons, h2]
      congr 1
      exact (trafoName_text k).2.1
    · intro e he
      rcases List.mem_cons.mp he with rfl | he
      · exact ⟨_, _, _, _, _, _, _, _, _, _, _, rfl⟩
      · exact h3 e he

/-- the equipment of a written row, and what its column for load tap changers says -/
theorem back_row {num : Text → Option ℝ} (hn : BlankFree num) {pr : ℝ → Text} (hnum : ∀ x, ∃ y, num (pr x) = some y) {erows : List (List Text)}
    {twos : List (Text × Values)} (htwos : List.Forall₂ (fun r p => RowRead twoQuery.attrs writtenTrafoCols r p.2) erows twos)
    (hkeys : twos.map (·.1) = starred [] (erows.map keyOf)) (hes : ∀ r ∈ erows, '*' ∉ keyOf r) (hdev : ∀ e ∈ erows, DeviceOf pr e)
    (hnd : (erows.map keyOf).Nodup) {sec : Text} {k : Nat} {cells : List Text} (hset : SettingOf sec k cells) (hk : trafoName k ∈ erows.map keyOf)
    {v w : Values} (hv : SettingRead twoSettingQuery "transformer".toList writtenSettingCols cells v w) (feeder phases : Text) :
    twoWindings num twos feeder phases v = .error .keyError := by
  obtain ⟨erow, hmem, hkey⟩ := List.mem_map.mp hk
  obtain ⟨place, conn, letters, shift, tap, rfl⟩ := hset
  obtain ⟨data, h1, h2⟩ := twoData_ok hv htwos hkeys hes (erow := erow) ⟨trafoName k,
    inner_at (cols := writtenSettingCols) 5 (by decide) rfl (by decide) (by show 6 < 20; omega), (trafoName_text k).2.2,
    Or.inl (by rw [← hkey]; exact find_first hnd hmem)⟩
  obtain ⟨name, type, kva, unit, prim, sec', z, xr, conn', loss, shift', rfl⟩ := hdev erow hmem
  obtain ⟨y, hy⟩ := hnum z
  obtain ⟨y', hy'⟩ := hnum xr
  unfold twoWindings
  rw [h1]
  dsimp only
  have f : ∀ (key : Text) (i : Nat) (c : Text) (x : ℝ), key ∈ twoQuery.attrs → (writtenTrafoCols[i]?).map (List.map Char.toLower) = some key →
      ((deviceCells name type kva unit prim sec' (pr z) (pr xr) conn' loss shift').map (·.2))[i]? = some c →
      key ∉ (writtenTrafoCols.drop (i + 1)).map (List.map Char.toLower) → num c = some x → floatAt num data key = .ok x := by
    intro key i c x ha hc hrow hlast hx
    exact number_read hn h2 ha ⟨c, cell_at i hc hrow hlast, hx⟩
  rw [floatsAt_ok (.cons (f "z1".toList 6 (pr z) y (by decide) (by decide) rfl (by decide) hy)
    (.cons (f "z0".toList 7 (pr z) y (by decide) (by decide) rfl (by decide) hy)
    (.cons (f "xr".toList 8 (pr xr) y' (by decide) (by decide) rfl (by decide) hy')
    (.cons (f "xr0".toList 9 (pr xr) y' (by decide) (by decide) rfl (by decide) hy') .nil))))]
  dsimp only
  have hltc : ltcOf num feeder v data = .error .keyError := by
    have hcell : Cell writtenTrafoCols ((deviceCells name type kva unit prim sec' (pr z) (pr xr) conn' loss shift').map (·.2)) "isltc".toList "0".toList :=
      cell_at 14 (by decide) rfl (by decide)
    obtain ⟨x, hx1, hx2⟩ := hasCells_get (hasCells_read h2 []) (show "isltc".toList ∈ twoQuery.attrs by decide) hcell
    have hne : x ≠ [] := by
      rintro rfl
      exact absurd hx2 (by unfold Same; decide)
    obtain ⟨ch, cs, rfl⟩ := List.exists_cons_of_ne_nil hne
    unfold ltcOf
    rw [show getEntry "isltc".toList data = some (ch :: cs) from hx1]
    dsimp only
    have : floatAt num data "taps".toList = .error .keyError := by
      unfold floatAt
      rw [missing_read h2 (no_cell (by decide))]
    rw [floatsAt, this]
  rw [hltc]

/-- Written transformers cannot be read back. The column for load tap changers is never empty, and the reader then wants a number of taps, for which
there is no column: it raises a KeyError for the first transformer. -/
theorem C85_back_violated {num : Text → Option ℝ} (hn : BlankFree num) (int : Text → Option ℤ) {pr : ℝ → Text} (hpr : ∀ x, CellText (pr x))
    (hnum : ∀ x, ∃ y, num (pr x) = some y) (rnd : ℝ → ℝ) (hash : Text → Text) {ts : List TrafoIn} (hne : ts ≠ []) (h : ∀ t ∈ ts, Writable t)
    (htext : ∀ t ∈ ts, TrafoText hash t) {rows lines network equipment : List Text} (hw : writeTrafos pr rnd hash ts = .ok (rows, lines))
    (hnet : WrittenTable "[TRANSFORMER SETTING]".toList trafoSettingFormat rows network)
    (hno : ∀ q ∈ trafoSettingQueries, q.headers ≠ ["[TRANSFORMER SETTING]".toList] → ∀ l ∈ network, ¬Heads q.headers l)
    (hequ : WrittenTable "[TRANSFORMER]".toList trafoFormat lines equipment)
    (hno' : ∀ q ∈ trafoQueries, q.headers ≠ ["[TRANSFORMER]".toList] → ∀ l ∈ equipment, ¬Heads q.headers l)
    {secs : List (Text × Values)} {feeders : List (Text × Text)} (hsec : ∀ t ∈ ts, KnowsSection hash secs feeders t) :
    parseTrafos num int secs feeders network equipment = .error .keyError := by
  obtain ⟨rows', lines', names, h1, h2, h3, h4, h5, h6⟩ := trafos_written (pr := pr) (rnd := rnd) (hash := hash) h
  rw [hw] at h1
  injection h1 with h1
  injection h1 with e1 e2
  subst e1 e2
  have h3 : ∀ n ∈ names, ∃ k : Nat, n = trafoName k := h3
  have hdev : List.Forall₂ (IsDevice pr) names lines := by
    refine h5.imp ?_
    rintro name line ⟨t, ht, i, k, hi, rfl, rfl⟩
    obtain ⟨_, _, -, -, -, hd⟩ := cells_of hpr (h t ht) (htext t ht) hi k
    exact hd
  obtain ⟨erows, g1, g2, g3⟩ := device_cells hdev h3
  have hrow : ∀ row ∈ rows, ∃ cells, ∃ t ∈ ts, ∃ start stop k, t.start = some start ∧ t.stop = some stop ∧ RowLine (row ++ ['\n']) cells ∧
      SettingOf (sectionBetween hash start stop) k cells ∧ trafoName k ∈ names := by
    intro row hr
    obtain ⟨t, ht, i, k, hi, hk, -, rfl⟩ := forall₂_left h6 hr
    obtain ⟨start, stop, c1, c2, ⟨place, conn, letters, shift, tap, c3, c4⟩, -⟩ := cells_of hpr (h t ht) (htext t ht) hi k
    refine ⟨_, t, ht, start, stop, k, c1, c2, ?_, ⟨place, conn, letters, shift, tap, rfl⟩, hk⟩
    rw [c3]
    refine rowLine_cells (by show 4 ≤ 20; omega) fun c hc => ?_
    obtain ⟨p, hp, rfl⟩ := List.mem_map.mp hc
    exact c4 p hp
  obtain ⟨cells, hcells⟩ := forall₂_choose hrow
  have hkeyOf : ∀ t ∈ ts, ∀ start stop k c, t.start = some start → t.stop = some stop → SettingOf (sectionBetween hash start stop) k c →
      keyOf c = sectionBetween hash start stop := by
    rintro t ht start stop k c e1 e2 ⟨place, conn, letters, shift, tap, rfl⟩
    exact ((htext t ht).section_ start stop e1 e2).2.1
  have hlen : cells ≠ [] := by
    rintro rfl
    have e1 := h6.length_eq
    have e2 := hcells.length_eq
    rw [List.length_nil] at e2
    exact hne (List.length_eq_zero_iff.mp (by omega))
  have herows : erows ≠ [] := by
    rintro rfl
    obtain ⟨t0, ht0⟩ := List.exists_mem_of_ne_nil ts hne
    obtain ⟨i, hi⟩ := List.mem_iff_getElem.mp ht0
    have hl := h6.length_eq
    cases hrows : rows with
    | nil =>
      rw [hrows] at hl
      exact hne (List.length_eq_zero_iff.mp (by simpa using hl))
    | cons r rs =>
      obtain ⟨t, ht, i, k, hi, hk, -, -⟩ := forall₂_left h6 (show r ∈ rows by rw [hrows]; exact List.mem_cons_self)
      rw [← g2] at hk
      cases hk
  have m1 : Mixed (trafoSettingQueries.map (·.headers)) network [(["[TRANSFORMER SETTING]".toList], ⟨writtenSettingCols, cells⟩)] := by
    refine written_among (by decide) ?_ hnet trafoSettings_format ?_ hlen
    · intro hs hh he l hl
      obtain ⟨q, hq, rfl⟩ := List.mem_map.mp hh
      exact hno q hq he l hl
    · rw [List.forall₂_map_left_iff]
      exact hcells.imp fun row c ⟨t, _, _, _, _, _, _, hc, _⟩ => hc
  have m2 : Mixed (trafoQueries.map (·.headers)) equipment [(["[TRANSFORMER]".toList], ⟨writtenTrafoCols, erows⟩)] := by
    refine written_among (by decide) ?_ hequ trafos_format g1 herows
    intro hs hh he l hl
    obtain ⟨q, hq, rfl⟩ := List.mem_map.mp hh
    exact hno' q hq he l hl
  have hstar : ∀ t ∈ [((["[TRANSFORMER SETTING]".toList] : List Text), (⟨writtenSettingCols, cells⟩ : Table))] ++
      [((["[TRANSFORMER]".toList] : List Text), (⟨writtenTrafoCols, erows⟩ : Table))], ∀ r ∈ t.2.rows, '*' ∉ keyOf r := by
    intro t ht r hr
    rcases List.mem_cons.mp ht with rfl | ht
    · obtain ⟨row, -, t, ht, start, stop, k, e1, e2, -, hs, -⟩ := forall₂_left hcells hr
      rw [hkeyOf t ht start stop k r e1 e2 hs]
      exact ((htext t ht).section_ start stop e1 e2).2.2
    · obtain rfl := List.mem_singleton.mp ht
      have : keyOf r ∈ names := by rw [← g2]; exact List.mem_map_of_mem hr
      obtain ⟨k, hk⟩ := h3 _ this
      rw [hk]
      exact (trafoName_text k).2.2
  obtain ⟨d, grounds, twos, k1, k2, k3, -⟩ := files_read num int secs feeders m1 m2 (List.nodup_singleton _) hstar (List.pairwise_singleton _ _)
    (gcols := []) (grows := []) (ecols := writtenTrafoCols) (erows := erows)
    ⟨Or.inr ⟨fun t ht => by rw [List.mem_singleton.mp ht]; exact show ["[TRANSFORMER]".toList] ≠ groundQuery.headers by decide, rfl⟩, Or.inl (List.mem_singleton.mpr rfl)⟩
  rw [k1]
  obtain ⟨c0, cs, hc0⟩ := List.exists_cons_of_ne_nil hlen
  obtain ⟨row, -, t, ht, start, stop, k, e1, e2, -, hs, hk⟩ := forall₂_left hcells (show c0 ∈ cells by rw [hc0]; exact List.mem_cons_self)
  have hfile : fileRows [((["[TRANSFORMER SETTING]".toList] : List Text), (⟨writtenSettingCols, cells⟩ : Table))] =
      (["[TRANSFORMER SETTING]".toList], writtenSettingCols, c0) :: cs.map fun r => (["[TRANSFORMER SETTING]".toList], writtenSettingCols, r) := by
    unfold fileRows
    rw [hc0]
    simp
  rw [hfile] at k2
  cases k2 with
  | @cons _ p _ d hp _ =>
    obtain ⟨⟨n, hn1⟩, q, hq, hq1, hq2⟩ := hp
    have hq : q = twoSettingQuery := (show ∀ q ∈ trafoSettingQueries, q.headers = ["[TRANSFORMER SETTING]".toList] → q = twoSettingQuery by
      intro q hq he
      unfold trafoSettingQueries at hq
      simp only [List.mem_cons, List.not_mem_nil, or_false] at hq
      rcases hq with rfl | rfl | rfl | rfl | rfl | rfl <;> first | rfl | exact absurd he (by decide)) q hq hq1
    subst hq
    obtain ⟨w, hw'⟩ := setting_read (type := "transformer".toList) rfl (by decide) hq2
    have hkey := hkeyOf t ht start stop k c0 e1 e2 hs
    obtain ⟨ends, feeder, phases, s1, s2, s3⟩ := hsec t ht start stop e1 e2
    have hpl : Placed secs feeders c0 ends feeder phases := ⟨by rw [hkey]; exact s1, s2, by rw [hkey]; exact s3⟩
    rw [allTrafos, show p.1 = _ from hn1, trafo_at hpl (by rw [hkey]; exact ((htext t ht).section_ start stop e1 e2).2.2) n hw'.type]
    unfold windingsOf
    rw [if_neg (by decide), if_pos rfl, back_row hn hnum k3.eread k3.ekeys k3.estar g3 (by rw [g2]; exact h2) hs
      (by rw [g2]; exact hk) hw']

/-! ### an example -/

/-- every number is printed as a one -/
def onePr : ℝ → Text := fun _ => "1".toList

theorem onePr_text (x : ℝ) : CellText (onePr x) := (cellText_iff "1".toList).mpr (by decide)

/-- a file with one table -/
def tableFile (header format : Text) (rows : List Text) : List Text := (header ++ ['\n']) :: (format ++ ['\n']) :: rows.map fun r => r ++ ['\n']

theorem tableFile_written (header format : Text) (rows : List Text) : WrittenTable header format rows (tableFile header format rows) :=
  ⟨[], [], by rw [List.append_nil]; rfl, fun _ h => absurd h List.not_mem_nil, Or.inl rfl⟩

theorem mem_join {c : Char} : ∀ {cells : List Text}, c ∈ joinCells cells → c = ',' ∨ ∃ t ∈ cells, c ∈ t
  | [], h => absurd h List.not_mem_nil
  | [t], h => Or.inr ⟨t, List.mem_cons_self, h⟩
  | t :: u :: cells, h => by
    rw [joinCells, List.mem_append, List.mem_cons] at h
    rcases h with h | rfl | h
    · exact Or.inr ⟨t, List.mem_cons_self, h⟩
    · exact Or.inl rfl
    · rcases mem_join h with h | ⟨x, hx, hc⟩
      · exact Or.inl h
      · exact Or.inr ⟨x, List.mem_cons_of_mem _ hx, hc⟩

theorem file_heads {headers : List Text} (hh : ∀ h ∈ headers, '[' ∈ h) {header format : Text} {rows : List Text} (h1 : ¬Heads headers (header ++ ['\n']))
    (h2 : ¬Heads headers (format ++ ['\n'])) (hr : ∀ r ∈ rows, '[' ∉ r) : ∀ l ∈ tableFile header format rows, ¬Heads headers l := by
  intro l hl
  rcases List.mem_cons.mp hl with rfl | hl
  · exact h1
  · rcases List.mem_cons.mp hl with rfl | hl
    · exact h2
    · obtain ⟨r, hr', rfl⟩ := List.mem_map.mp hl
      rintro ⟨h, hm, hin⟩
      have := hin.subset (hh h hm)
      rcases List.mem_append.mp this with h | h
      · exact hr r hr' h
      · exact absurd h (by decide)

theorem name_bracket (k : Nat) : '[' ∉ "transformer_".toList ++ k.repr.toList := by
  rw [List.mem_append, not_or]
  exact ⟨by decide, Dss.not_mem_repr (by decide) k⟩

/-- one transformer, written and read back -/
example : ∃ rows lines, writeTrafos onePr id id [exampleTwo] = .ok (rows, lines) ∧
    parseTrafos realOf tapOf
      [("n1_n2".toList, [("fromnodeid".toList, "n1".toList), ("tonodeid".toList, "n2".toList), ("phase".toList, "ABC".toList)])]
      [("n1_n2".toList, "F".toList)] (tableFile "[TRANSFORMER SETTING]".toList trafoSettingFormat rows)
      (tableFile "[TRANSFORMER]".toList trafoFormat lines) = .error .keyError := by
  have hwr : ∀ t ∈ [exampleTwo], Writable t := fun t ht => by
    rw [List.mem_singleton.mp ht]
    exact Or.inl ⟨_, _, _, _, _, example_two⟩
  obtain ⟨rows, lines, names, h1, -, h3, -, h5, h6⟩ := C85_transformers_partial onePr id id hwr
  have code : WindingsConnected exampleHigh exampleLow ("D".toList, "Y".toList, "1".toList, "1".toList) := ⟨rfl, rfl⟩
  have bracket : ∀ {name row line : Text}, (∃ k : Nat, name = "transformer_".toList ++ k.repr.toList) → RowsOf onePr id exampleTwo name row line →
      '[' ∉ row ∧ '[' ∉ line := by
    rintro name row line ⟨k, rfl⟩ hrow
    obtain ⟨z, xr, ⟨tap, htap, rfl, rfl⟩, -⟩ := hrow.two _ _ _ _ _ example_two _ (by decide) code (by decide)
    have htap : tap = "1".toList := htap.1 (some 'A') 1 _ rfl one_ne_zero
    subst htap
    constructor
    · intro hm
      rcases mem_join hm with h | ⟨t, ht, hc⟩
      · exact absurd h (by decide)
      · have hall : ∀ t ∈ (settingCells (sectionBetween id "n1".toList "n2".toList) exampleTwo.place "1".toList (windingLetters exampleHigh)
            ("transformer_".toList ++ k.repr.toList) "1".toList "1".toList).map (·.2), '[' ∉ t := by
          simp only [settingCells, List.map_cons, List.map_nil, List.forall_mem_cons]
          exact ⟨by decide, by decide, by decide, by decide, by decide, name_bracket k, by decide, by decide, by decide, by decide, by decide, by decide,
            by decide, by decide, by decide, by decide, by decide, by decide, by decide, by decide, fun _ h => absurd h List.not_mem_nil⟩
        exact hall t ht hc
    · intro hm
      rcases mem_join hm with h | ⟨t, ht, hc⟩
      · exact absurd h (by decide)
      · have hall : ∀ t ∈ (deviceCells ("transformer_".toList ++ k.repr.toList) (typeCode 3) "1".toList (unitCode 3) "1".toList "1".toList "1".toList
            "1".toList "1".toList "1".toList "1".toList).map (·.2), '[' ∉ t := by
          simp only [deviceCells, List.map_cons, List.map_nil, List.forall_mem_cons]
          exact ⟨name_bracket k, by decide, by decide, by decide, by decide, by decide, by decide, by decide, by decide, by decide, by decide, by decide,
            by decide, by decide, by decide, fun _ h => absurd h List.not_mem_nil⟩
        exact hall t ht hc
  refine ⟨rows, lines, h1, C85_back_violated realOf_blank tapOf onePr_text (fun x => ⟨1, ?_⟩) id id (List.cons_ne_nil _ _) hwr ?_ h1
    (tableFile_written _ _ _) ?_ (tableFile_written _ _ _) ?_ ?_⟩
  · unfold realOf
    rw [show digitOf (onePr x) = some 1 from show digitOf "1".toList = some 1 by decide +kernel]
    norm_num
  · intro t ht
    rw [List.mem_singleton.mp ht]
    refine ⟨?_, ⟨(cellText_iff _).mpr (by decide), (cellText_iff _).mpr (by decide)⟩, ?_⟩
    · rintro _ _ ⟨⟩ ⟨⟩
      exact ⟨(cellText_iff _).mpr (by decide), by decide, by decide⟩
    · intro w hw
      rcases List.mem_cons.mp hw with rfl | hw
      · exact (cellText_iff _).mpr (by decide)
      · rw [List.mem_singleton.mp hw]
        exact (cellText_iff _).mpr (by decide)
  · intro q hq hne
    refine file_heads ?_ ?_ ?_ ?_
    · exact (show ∀ q ∈ trafoSettingQueries, ∀ h ∈ q.headers, '[' ∈ h by decide) q hq
    · rw [← isHeader_iff]
      exact (show ∀ q ∈ trafoSettingQueries, q.headers ≠ ["[TRANSFORMER SETTING]".toList] →
        ¬isHeader q.headers ("[TRANSFORMER SETTING]".toList ++ ['\n']) = true by decide +kernel) q hq hne
    · rw [← isHeader_iff]
      exact (show ∀ q ∈ trafoSettingQueries, ¬isHeader q.headers (trafoSettingFormat ++ ['\n']) = true by decide +kernel) q hq
    · intro r hr
      obtain ⟨t, ht, eq, he, line, -, hrow⟩ := forall₂_left h6 hr
      rw [List.mem_singleton.mp ht] at hrow
      exact (bracket (h3 eq he) hrow).1
  · intro q hq hne
    refine file_heads ?_ ?_ ?_ ?_
    · exact (show ∀ q ∈ trafoQueries, ∀ h ∈ q.headers, '[' ∈ h by decide) q hq
    · rw [← isHeader_iff]
      exact (show ∀ q ∈ trafoQueries, q.headers ≠ ["[TRANSFORMER]".toList] →
        ¬isHeader q.headers ("[TRANSFORMER]".toList ++ ['\n']) = true by decide +kernel) q hq hne
    · rw [← isHeader_iff]
      exact (show ∀ q ∈ trafoQueries, ¬isHeader q.headers (trafoFormat ++ ['\n']) = true by decide +kernel) q hq
    · intro l hl
      obtain ⟨name, hn, t, ht, row, hrow⟩ := forall₂_left h5 hl
      rw [List.mem_singleton.mp ht] at hrow
      exact (bracket (h3 name hn) hrow).2
  · intro t ht
    rw [List.mem_singleton.mp ht]
    rintro _ _ ⟨⟩ ⟨⟩
    exact ⟨_, _, _, rfl, rfl, rfl⟩

end Ditto.Cyme
