import Verif.Spec.CymeLoadFile
import Verif.Props.CymeLoads
import Verif.Props.CymeSources

/-! C75, from the lines of the load file. -/
namespace Ditto.Cyme
open Ditto Glm Spec

/-- the kinds of tables in the load file -/
def loadKinds : List (List Text) := [loadsQuery.headers, customerQuery.headers, classQuery.headers]

theorem load_tables {num : Text → Option ℝ} {int : Text → Option ℤ} {secs : List (Text × Values)} {feeders : List (Text × Text)} {content : List Text}
    {ts : List (List Text × Table)} (h : Mixed loadKinds content ts) (hts : (ts.map (·.1)).Nodup) (hstar : ∀ t ∈ ts, ∀ r ∈ t.2.rows, '*' ∉ keyOf r) :
    ∃ loads customers classes, parseLoadFile num int secs feeders content = parseLoads ⟨num, int, loads, classes, secs, feeders⟩ customers ∧
      TableRead loadsQuery ts loads ∧ TableRead customerQuery ts customers ∧ TableRead classQuery ts classes := by
  obtain ⟨ds, h1, h2⟩ := readMany_tables (qs := [loadsQuery, customerQuery, classQuery]) h (by decide) (by
    intro q hq
    simp only [List.mem_cons, List.not_mem_nil, or_false] at hq
    rcases hq with rfl | rfl | rfl <;> exact ⟨rfl, by decide⟩) hts hstar
  rw [List.forall₂_cons_left_iff] at h2
  obtain ⟨d1, ds, hd1, h2, rfl⟩ := h2
  rw [List.forall₂_cons_left_iff] at h2
  obtain ⟨d2, ds, hd2, h2, rfl⟩ := h2
  rw [List.forall₂_cons_left_iff] at h2
  obtain ⟨d3, ds, hd3, h2, rfl⟩ := h2
  obtain rfl := List.forall₂_nil_left_iff.mp h2
  refine ⟨d1, d2, d3, ?_, hd1, hd2, hd3⟩
  unfold parseLoadFile
  rw [h1]

theorem numberCell_read {N : Type} {num : Text → Option N} (hn : BlankFree num) {attrs cols row : List Text} {v : Values} (h : RowRead attrs cols row v)
    {k : Text} (hk : k ∈ attrs) {x : N} (hc : NumberCell num cols row k x) : Number num v k x := by
  obtain ⟨c, hc, hx⟩ := hc
  obtain ⟨t, ht, hs⟩ := hasCells_get (hasCells_read h []) hk hc
  exact ⟨t, ht, by rw [hn _ _ hs]; exact hx⟩

theorem rows_say {num : Text → Option ℝ} (hn : BlankFree num) {int : Text → Option ℤ} (hi : BlankFree int) {loads classes secs : List (Text × Values)}
    {feeders : List (Text × Text)} {cols : List Text} {rows : List (List Text)} {ds : List Demand}
    (h : List.Forall₂ (RowDemand num int cols) rows ds) : ∀ (done : List Text) (d : List (Text × Values)), (∀ r ∈ rows, '*' ∉ keyOf r) →
    ds.map (·.again) = repeats done (rows.map keyOf) → d.map (·.1) = starred done (rows.map keyOf) →
    List.Forall₂ (fun r p => RowRead customerQuery.attrs cols r p.2) rows d →
    List.Forall₂ (Says ⟨num, int, loads, classes, secs, feeders⟩) d ds := by
  induction h with
  | nil =>
    intro done d _ _ _ hd
    rw [List.forall₂_nil_left_iff.mp hd]
    exact .nil
  | @cons row x rows ds hx _ ih =>
    intro done d hs ha hk hd
    rw [List.forall₂_cons_left_iff] at hd
    obtain ⟨p, d, hp, hd, rfl⟩ := hd
    rw [List.map_cons, List.map_cons, repeats, List.cons.injEq] at ha
    rw [List.map_cons, List.map_cons, starred, List.cons.injEq] at hk
    refine .cons ?_ (ih (done ++ [keyOf row]) d (fun r hr => hs r (List.mem_cons_of_mem _ hr)) ha.2 hk.2 hd)
    obtain ⟨t, a, b, h1, h2, h3, h4⟩ := hx.values
    refine ⟨⟨⟨keyOf row, done.count (keyOf row), hk.1, hs row List.mem_cons_self, hx.section_, ?_⟩, rowRead_inner hp (by decide) hx.phases.1,
      hx.phases.2, numberCell_read hn hp (by decide) hx.users, ?_⟩,
      t, a, b, ⟨numberCell_read hi hp (by decide) h1, numberCell_read hn hp (by decide) h2, numberCell_read hn hp (by decide) h3⟩, h4⟩
    · rw [ha.1, decide_eq_true_iff, List.count_pos_iff]
    · rcases hx.connected with ⟨hc, hn'⟩ | ⟨y, hc, hy⟩
      · exact Or.inl ⟨hasCells_none (hasCells_read hp []) (fun hh => hc hh.2), hn'⟩
      · exact Or.inr ⟨y, numberCell_read hn hp (by decide) hc, hy⟩

/-- keys that are repeated, by the sections of the rows -/
theorem repeats_sections {rows : List (List Text)} {ds : List Demand} (h : List.Forall₂ (fun r d => d.sec = (keyOf r).map Char.toLower) rows ds) (sec : Text) :
    ∀ done : List Text, (∀ k ∈ done ++ rows.map keyOf, ∀ k' ∈ done ++ rows.map keyOf, k.map Char.toLower = k'.map Char.toLower → k = k') →
    ds.map (·.again) = repeats done (rows.map keyOf) →
    ((∃ d ∈ ds, d.sec = sec ∧ d.again = true) ↔
      2 ≤ (ofSection ds sec).length ∨ ((∃ k ∈ done, k.map Char.toLower = sec) ∧ ofSection ds sec ≠ [])) := by
  induction h with
  | nil =>
    intro done _ _
    constructor
    · rintro ⟨d, hd, -⟩; cases hd
    · rintro (hc | ⟨-, hc⟩)
      · exact absurd hc (show ¬2 ≤ 0 by decide)
      · exact absurd rfl hc
  | @cons row x rows ds hx _ ih =>
    intro done hcase ha
    rw [List.map_cons, List.map_cons, repeats, List.cons.injEq] at ha
    have hsplit : done ++ (row :: rows).map keyOf = (done ++ [keyOf row]) ++ rows.map keyOf := by simp
    have := ih (done ++ [keyOf row]) (by rw [← hsplit]; exact hcase) ha.2
    have hmem : ∀ k ∈ done, k ∈ done ++ (row :: rows).map keyOf := fun k hk => List.mem_append_left _ hk
    have hrow : keyOf row ∈ done ++ (row :: rows).map keyOf := List.mem_append_right _ List.mem_cons_self
    have hof : ofSection (x :: ds) sec = if x.sec = sec then x :: ofSection ds sec else ofSection ds sec := by
      unfold ofSection
      rw [List.filter_cons]
      by_cases he : x.sec = sec
      · rw [if_pos (decide_eq_true he), if_pos he]
      · rw [if_neg (fun hc => he (of_decide_eq_true hc)), if_neg he]
    have hagain : x.sec = sec → (x.again = true ↔ ∃ k ∈ done, k.map Char.toLower = sec) := by
      intro he
      rw [ha.1, decide_eq_true_iff]
      constructor
      · intro hk
        exact ⟨_, hk, by rw [← hx, he]⟩
      · rintro ⟨k, hk, hks⟩
        rw [← hcase k (hmem k hk) _ hrow (by rw [hks, ← he, hx])]
        exact hk
    rw [hof]
    by_cases he : x.sec = sec
    · rw [if_pos he]
      constructor
      · rintro ⟨d, hd, h1, h2⟩
        rcases List.mem_cons.mp hd with rfl | hd
        · exact Or.inr ⟨(hagain he).mp h2, by simp⟩
        · left
          have : ofSection ds sec ≠ [] := by
            intro hn
            have : d ∈ ofSection ds sec := List.mem_filter.mpr ⟨hd, decide_eq_true h1⟩
            rw [hn] at this
            cases this
          have := List.length_pos_iff.mpr this
          simp only [List.length_cons]
          omega
      · rintro (hc | ⟨hc, -⟩)
        · have hne : ofSection ds sec ≠ [] := by
            rintro hn
            rw [hn] at hc
            exact absurd hc (show ¬2 ≤ 1 by decide)
          obtain ⟨d, hd, h1, h2⟩ := this.mpr (Or.inr ⟨⟨_, List.mem_append_right _ (List.mem_singleton.mpr rfl), by rw [← hx, he]⟩, hne⟩)
          exact ⟨d, List.mem_cons_of_mem _ hd, h1, h2⟩
        · exact ⟨x, List.mem_cons_self, he, (hagain he).mpr hc⟩
    · rw [if_neg he]
      have hiff : (∃ d ∈ x :: ds, d.sec = sec ∧ d.again = true) ↔ ∃ d ∈ ds, d.sec = sec ∧ d.again = true := by
        constructor
        · rintro ⟨d, hd, h1, h2⟩
          rcases List.mem_cons.mp hd with rfl | hd
          · exact absurd h1 he
          · exact ⟨d, hd, h1, h2⟩
        · rintro ⟨d, hd, h1, h2⟩
          exact ⟨d, List.mem_cons_of_mem _ hd, h1, h2⟩
      rw [hiff, this]
      constructor
      · rintro (hc | ⟨⟨k, hk, hks⟩, hc⟩)
        · exact Or.inl hc
        · rcases List.mem_append.mp hk with hk | hk
          · exact Or.inr ⟨⟨k, hk, hks⟩, hc⟩
          · rw [List.mem_singleton.mp hk, ← hx] at hks
            exact absurd hks he
      · rintro (hc | ⟨⟨k, hk, hks⟩, hc⟩)
        · exact Or.inl hc
        · exact Or.inr ⟨⟨k, List.mem_append_left _ hk, hks⟩, hc⟩

/-- C75, for a file. Each section of the customer loads has one load with the powers, phases, users and transformers of its rows, and the connection of
the first row of the loads with its name in small letters. The names of two sections differ in more than the case of letters. Missing is what is missing
in `C75_loads_partial`. -/
theorem C75_file_partial {num : Text → Option ℝ} (hn : BlankFree num) {int : Text → Option ℤ} (hi : BlankFree int) {secs : List (Text × Values)}
    {feeders : List (Text × Text)} {content : List Text} {ts : List (List Text × Table)} (h : Mixed loadKinds content ts) (hts : (ts.map (·.1)).Nodup)
    (hstar : ∀ t ∈ ts, ∀ r ∈ t.2.rows, '*' ∉ keyOf r) {lcols cols : List Text} {lrows rows : List (List Text)}
    (hl : TableIs ts loadsQuery.headers lcols lrows) (hc : TableIs ts customerQuery.headers cols rows) {ds : List Demand}
    (hrows : List.Forall₂ (RowDemand num int cols) rows ds) (hagain : ds.map (·.again) = repeats [] (rows.map keyOf))
    (hcase : ∀ r ∈ rows, ∀ r' ∈ rows, (keyOf r).map Char.toLower = (keyOf r').map Char.toLower → keyOf r = keyOf r')
    (hpos : ∀ d ∈ ds, (0 ≤ d.p ∨ 0 ≤ d.q) ∧ ∃ f, getEntry d.sec feeders = some f) :
    ∃ loads, parseLoadFile num int secs feeders content = .ok loads ∧ ∀ sec,
      (counted ds sec = [] → getEntry sec loads = none) ∧
      (counted ds sec ≠ [] → ∃ l, getEntry sec loads = some l ∧ ServesFile secs feeders lcols lrows sec (counted ds sec) l) := by
  obtain ⟨ld, cd, kd, e, r1, r2, -⟩ := load_tables (num := num) (int := int) (secs := secs) (feeders := feeders) h hts hstar
  obtain ⟨hk, hr⟩ := r2 cols rows hc
  have hsr : ∀ r ∈ rows, '*' ∉ keyOf r := by
    rcases hc with hc | ⟨-, rfl⟩
    · exact fun r hr => hstar _ hc r hr
    · exact fun r hr => absurd hr List.not_mem_nil
  have hsl : ∀ r ∈ lrows, '*' ∉ keyOf r := by
    rcases hl with hl | ⟨-, rfl⟩
    · exact fun r hr => hstar _ hl r hr
    · exact fun r hr => absurd hr List.not_mem_nil
  have hsays := rows_say hn hi (loads := ld) (classes := kd) (secs := secs) (feeders := feeders) hrows [] cd hsr hagain hk hr
  obtain ⟨loads, h1, h2⟩ := C75_loads_partial hsays hpos (by
    intro sec
    rw [repeats_sections (hrows.imp fun _ _ hx => hx.section_) sec [] (by
      intro k hk k' hk' he
      rw [List.nil_append] at hk hk'
      obtain ⟨r, hr, rfl⟩ := List.mem_map.mp hk
      obtain ⟨r', hr', rfl⟩ := List.mem_map.mp hk'
      exact hcase r hr r' hr' he) hagain]
    constructor
    · rintro (hc | ⟨⟨k, hk, -⟩, -⟩)
      · exact hc
      · cases hk
    · exact Or.inl)
  refine ⟨loads, by rw [e]; exact h1, fun sec => ⟨(h2 sec).1, fun hne => ?_⟩⟩
  obtain ⟨l, hl1, hl2⟩ := (h2 sec).2 hne
  refine ⟨l, hl1, hl2.name, hl2.phases, hl2.feeder, hl2.element, ⟨?_, ?_⟩, hl2.users, hl2.kva⟩
  · intro row c hfirst hinner
    obtain ⟨lk, lr⟩ := r1 lcols lrows hl
    have hsec : '*' ∉ sec := by
      have := List.find?_some hfirst
      have hrow := List.mem_of_find?_eq_some hfirst
      rw [decide_eq_true_iff] at this
      rw [← this]
      exact hsl row hrow
    obtain ⟨v, hv, hread⟩ := (first_starred lr hsec hsl [] List.not_mem_nil lk).1 row hfirst
    rw [hl2.connection]
    show ((getEntry sec ld).bind fun d => getEntry "connection".toList d).bind wiring = _
    rw [hv, Option.bind_some, rowRead_inner hread (by decide) hinner, Option.bind_some]
  · intro hno
    obtain ⟨lk, lr⟩ := r1 lcols lrows hl
    have hsec : '*' ∉ sec := by
      obtain ⟨d, hd⟩ := List.exists_mem_of_ne_nil _ hne
      obtain ⟨hd, hds⟩ := List.mem_filter.mp (List.mem_filter.mp hd).1
      rw [decide_eq_true_iff] at hds
      have h3 : List.Forall₂ (fun r d => '*' ∉ keyOf r ∧ d.sec = (keyOf r).map Char.toLower) rows ds :=
        List.forall₂_and_left _ _ |>.mpr ⟨hsr, hrows.imp fun _ _ hx => hx.section_⟩
      obtain ⟨r, -, hr1, hr2⟩ := forall₂_left h3 hd
      rw [← hds, hr2]
      exact not_mem_lower (by decide) hr1
    rw [hl2.connection]
    show ((getEntry sec ld).bind fun d => getEntry "connection".toList d).bind wiring = _
    rw [(first_starred lr hsec hsl [] List.not_mem_nil lk).2 hno]
    rfl

/-! ### an example -/

/-- a file with one load, of two customers -/
def demandFile : List Text :=
  ["[LOADS]\n".toList, "FORMAT_LOADS=SectionID,DeviceNumber,Connection,Location\n".toList, "S1,D1,Yg,S\n".toList, "\n".toList,
    "[CUSTOMER LOADS]\n".toList, "FORMAT_CUSTOMERLOADS=SectionID,ValueType,LoadPhase,Value1,Value2,NumberOfCustomer,Year\n".toList,
    "S1,0,AB,3,4,3,2020\n".toList, "S1,1,C,5,60,3,2020\n".toList, "\n".toList]

def demandCols : List Text := ["SectionID".toList, "DeviceNumber".toList, "Connection".toList, "Location".toList]

def demandRow : List Text := ["S1".toList, "D1".toList, "Yg".toList, "S".toList]

def customerCols : List Text :=
  ["SectionID".toList, "ValueType".toList, "LoadPhase".toList, "Value1".toList, "Value2".toList, "NumberOfCustomer".toList, "Year".toList]

def firstCustomer : List Text := ["S1".toList, "0".toList, "AB".toList, "3".toList, "4".toList, "3".toList, "2020".toList]

def secondCustomer : List Text := ["S1".toList, "1".toList, "C".toList, "5".toList, "60".toList, "3".toList, "2020".toList]

theorem demandFile_mixed : Mixed loadKinds demandFile
    [(loadsQuery.headers, ⟨demandCols, [demandRow]⟩), (customerQuery.headers, ⟨customerCols, [firstCustomer, secondCustomer]⟩)] := by
  have huniq : ∀ line hs, (∀ hs' ∈ loadKinds, isHeader hs' line = true → hs' = hs) → ∀ hs' ∈ loadKinds, Heads hs' line → hs' = hs :=
    fun line hs h hs' hm hh => h hs' hm ((isHeader_iff _ _).mpr hh)
  exact Mixed.table (lines := ["S1,D1,Yg,S\n".toList]) (blank := "\n".toList) (by decide) ((isHeader_iff _ _).mp (by decide))
    (huniq _ _ (by decide +kernel))
    (ex_format (name := "FORMAT_LOADS".toList) (e := ['\n']) (by decide) (by decide) (Or.inr (Or.inl rfl)) (by decide) (by decide) (by decide))
    (.cons (ex_row (e := ['\n']) (by decide) (by decide) (Or.inr (Or.inl rfl)) (by decide) (by decide)) .nil) (by decide)
    (Mixed.table (lines := ["S1,0,AB,3,4,3,2020\n".toList, "S1,1,C,5,60,3,2020\n".toList]) (blank := "\n".toList) (by decide)
      ((isHeader_iff _ _).mp (by decide)) (huniq _ _ (by decide +kernel))
      (ex_format (name := "FORMAT_CUSTOMERLOADS".toList) (e := ['\n']) (by decide) (by decide) (Or.inr (Or.inl rfl)) (by decide) (by decide) (by decide))
      (.cons (ex_row (e := ['\n']) (by decide) (by decide) (Or.inr (Or.inl rfl)) (by decide) (by decide))
        (.cons (ex_row (e := ['\n']) (by decide) (by decide) (Or.inr (Or.inl rfl)) (by decide) (by decide)) .nil)) (by decide) .nil)

theorem stripped_blank {N : Type} (num : Text → Option N) : BlankFree fun t => num (Net.pyStrip t) := by
  intro a b h
  show num _ = num _
  rw [show Net.pyStrip a = Net.pyStrip b from h]

theorem first_demand : RowDemand (fun t => exampleNum (Net.pyStrip t)) (fun t => exampleInt (Net.pyStrip t)) customerCols firstCustomer
    (exampleDemand false "AB".toList 3 4) where
  section_ := by decide
  phases := ⟨inner_at (cols := customerCols) 2 (by decide) rfl (by decide) (by decide), by decide⟩
  users := ⟨"3".toList, cell_at (cols := customerCols) 5 (by decide) rfl (by decide), rfl⟩
  connected := Or.inl ⟨no_cell (cols := customerCols) (by decide), rfl⟩
  values := ⟨0, 3, 4, ⟨"0".toList, cell_at (cols := customerCols) 1 (by decide) rfl (by decide), rfl⟩,
    ⟨"3".toList, cell_at (cols := customerCols) 3 (by decide) rfl (by decide), rfl⟩,
    ⟨"4".toList, cell_at (cols := customerCols) 4 (by decide) rfl (by decide), rfl⟩, Stated.power⟩

theorem second_demand : RowDemand (fun t => exampleNum (Net.pyStrip t)) (fun t => exampleInt (Net.pyStrip t)) customerCols secondCustomer
    (exampleDemand true "C".toList 3 4) where
  section_ := by decide
  phases := ⟨inner_at (cols := customerCols) 2 (by decide) rfl (by decide) (by decide), by decide⟩
  users := ⟨"3".toList, cell_at (cols := customerCols) 5 (by decide) rfl (by decide), rfl⟩
  connected := Or.inl ⟨no_cell (cols := customerCols) (by decide), rfl⟩
  values := ⟨1, 5, 60, ⟨"1".toList, cell_at (cols := customerCols) 1 (by decide) rfl (by decide), rfl⟩,
    ⟨"5".toList, cell_at (cols := customerCols) 3 (by decide) rfl (by decide), rfl⟩,
    ⟨"60".toList, cell_at (cols := customerCols) 4 (by decide) rfl (by decide), rfl⟩,
    Stated.apparent (Or.inr rfl) (by norm_num) (show (100 : ℝ) * 3 = 5 * 60 by norm_num) (show (3 : ℝ) ^ 2 + 4 ^ 2 = 5 ^ 2 by norm_num)
      (show (0 : ℝ) ≤ 4 by norm_num)⟩

/-- the file of the example has a load on three phases -/
example : ∃ loads l, parseLoadFile (fun t => exampleNum (Net.pyStrip t)) (fun t => exampleInt (Net.pyStrip t))
      [("s1".toList, [("fromnodeid".toList, "n1".toList)])] [("s1".toList, "f".toList)] demandFile = .ok loads ∧
    getEntry "s1".toList loads = some l ∧ l.name = "Load_s1_A_B_C".toList ∧ l.element = some "n1".toList := by
  have n3 : (3 : ℝ) ≠ 0 := by norm_num
  obtain ⟨loads, h1, h2⟩ := C75_file_partial (stripped_blank exampleNum) (stripped_blank exampleInt)
    (secs := [("s1".toList, [("fromnodeid".toList, "n1".toList)])]) (feeders := [("s1".toList, "f".toList)]) demandFile_mixed
    (show [loadsQuery.headers, customerQuery.headers].Nodup by decide) (by decide)
    (Or.inl List.mem_cons_self) (Or.inl (List.mem_cons_of_mem _ (List.mem_singleton.mpr rfl)))
    (.cons first_demand (.cons second_demand .nil)) (by decide) (by decide) (by
      intro d hd
      simp only [List.mem_cons, List.not_mem_nil, or_false] at hd
      rcases hd with rfl | rfl
      · exact ⟨Or.inl (show (0 : ℝ) ≤ 3 by norm_num), "f".toList, rfl⟩
      · exact ⟨Or.inl (show (0 : ℝ) ≤ 3 by norm_num), "f".toList, rfl⟩)
  have hc : counted [exampleDemand false "AB".toList 3 4, exampleDemand true "C".toList 3 4] "s1".toList =
      [exampleDemand false "AB".toList 3 4, exampleDemand true "C".toList 3 4] := by
    unfold counted
    have hof : ofSection [exampleDemand false "AB".toList 3 4, exampleDemand true "C".toList 3 4] "s1".toList =
        [exampleDemand false "AB".toList 3 4, exampleDemand true "C".toList 3 4] := rfl
    rw [hof, List.filter_eq_self]
    intro d hd
    simp only [List.mem_cons, List.not_mem_nil, or_false] at hd
    rw [decide_eq_true_iff]
    rcases hd with rfl | rfl <;> exact Or.inl n3
  obtain ⟨l, h3, h4⟩ := (h2 "s1".toList).2 (by rw [hc]; exact List.cons_ne_nil _ _)
  refine ⟨loads, l, h1, h3, ?_, ?_⟩
  · rw [h4.name, hc]; decide
  · rw [h4.element]; decide

end Ditto.Cyme
