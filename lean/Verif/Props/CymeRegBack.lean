import Verif.Props.CymeRegRead
import Verif.Props.CymeRegWrite

/-! C79: the regulators that the CYME writer writes (C78), read back. -/
namespace Ditto.Cyme
open Ditto Glm Spec

/-! ### tables that are written -/

theorem mixed_pre {kinds : List (List Text)} {pre rest : List Text} {ts : List (List Text × Table)} (hp : ∀ l ∈ pre, ∀ hs ∈ kinds, ¬Heads hs l)
    (h : Mixed kinds rest ts) : Mixed kinds (pre ++ rest) ts := by
  induction pre with
  | nil => exact h
  | cons l pre ih => exact .other (hp l List.mem_cons_self) (ih fun x hx => hp x (List.mem_cons_of_mem _ hx))

theorem written_among {kinds : List (List Text)} {header format : Text} {lines content cols : List Text} {rows : List (List Text)} (hk : [header] ∈ kinds)
    (hother : ∀ hs ∈ kinds, hs ≠ [header] → ∀ l ∈ content, ¬Heads hs l) (h : WrittenTable header format lines content)
    (hf : FormatLine (format ++ ['\n']) cols) (hl : List.Forall₂ RowLine (lines.map fun r => r ++ ['\n']) rows) (hne : rows ≠ []) :
    Mixed kinds content [([header], ⟨cols, rows⟩)] := by
  obtain ⟨pre, rest, rfl, hno, hrest⟩ := h
  have no : ∀ l ∈ pre ++ rest, ∀ hs ∈ kinds, ¬Heads hs l := by
    intro l hl hs hh
    by_cases he : hs = [header]
    · rw [he]
      rintro ⟨x, hx, hc⟩
      rw [List.mem_singleton.mp hx] at hc
      exact hno l hl hc
    · refine hother hs hh he l ?_
      rcases List.mem_append.mp hl with hl | hl
      · exact List.mem_append_left _ hl
      · exact List.mem_append_right _ (List.mem_cons_of_mem _ (List.mem_cons_of_mem _ (List.mem_append_right _ hl)))
  have hheads : Heads [header] (header ++ ['\n']) := ⟨header, List.mem_singleton.mpr rfl, [], ['\n'], rfl⟩
  have huniq : ∀ hs' ∈ kinds, Heads hs' (header ++ ['\n']) → hs' = [header] := by
    intro hs' hm hh
    by_contra he
    exact hother hs' hm he _ (List.mem_append_right _ List.mem_cons_self) hh
  refine mixed_pre (fun l hl => no l (List.mem_append_left _ hl)) ?_
  rcases hrest with rfl | ⟨post, rfl⟩
  · rw [List.append_nil]
    exact .last hk hheads huniq hf hl hne
  · refine .table hk hheads huniq hf hl (by decide) ?_
    have := mixed_pre (kinds := kinds) (pre := post) (rest := [])
      (fun l hl => no l (List.mem_append_right _ (List.mem_cons_of_mem _ hl))) .nil
    rwa [List.append_nil] at this

theorem written_mixed {header format : Text} {lines content cols : List Text} {rows : List (List Text)} (h : WrittenTable header format lines content)
    (hf : FormatLine (format ++ ['\n']) cols) (hl : List.Forall₂ RowLine (lines.map fun r => r ++ ['\n']) rows) (hne : rows ≠ []) :
    Mixed [[header]] content [([header], ⟨cols, rows⟩)] :=
  written_among (List.mem_singleton.mpr rfl) (fun _ hh hne => absurd (List.mem_singleton.mp hh) hne) h hf hl hne

/-- the names of the columns of the settings -/
def settingCols : List Text :=
  ["SectionID".toList, "CoordX".toList, "CoordY".toList, "PhaseON".toList, "BandWidth".toList, "CT".toList, "PT".toList, "VsetA".toList,
    "VsetB".toList, "VsetC".toList, "EqID".toList, "DeviceNumber".toList, "Location".toList, "MaxBuck".toList, "MaxBoost".toList,
    "SettingOption".toList, "RsetA".toList, "RsetB".toList, "RsetC".toList, "XsetA".toList, "XsetB".toList, "XsetC".toList, "TapA".toList,
    "TapB".toList, "TapC".toList, "ConnectionStatus".toList]

/-- the names of the columns of the equipment -/
def regulatorCols : List Text :=
  ["ID".toList, "KVA".toList, "Bandwidth".toList, "CT".toList, "PT".toList, "Type".toList, "KVLN".toList, "MaxBuck".toList, "MaxBoost".toList,
    "Taps".toList, "Reversible".toList]

theorem cellText_iff (c : Text) : CellText c ↔ c.all (fun x => x ≠ ',' && x ≠ '=' && x ≠ '\n' && x ≠ '\r') = true := by
  unfold CellText
  simp only [List.all_eq_true, Bool.and_eq_true, decide_eq_true_eq]
  constructor
  · rintro ⟨h1, h2, h3, h4⟩ x hx
    exact ⟨⟨⟨fun h => h1 (h ▸ hx), fun h => h2 (h ▸ hx)⟩, fun h => h3 (h ▸ hx)⟩, fun h => h4 (h ▸ hx)⟩
  · intro h
    exact ⟨fun hx => (h _ hx).1.1.1 rfl, fun hx => (h _ hx).1.1.2 rfl, fun hx => (h _ hx).1.2 rfl, fun hx => (h _ hx).2 rfl⟩

theorem settings_format : FormatLine (settingFormat ++ ['\n']) settingCols := by
  refine ⟨by decide, ?_, "FORMAT_REGULATORSETTING".toList, ['\n'], Or.inr (Or.inl rfl), by decide, ?_, by decide +kernel⟩
  · intro c hc
    rw [cellText_iff]
    exact (show ∀ c ∈ settingCols, c.all (fun x => x ≠ ',' && x ≠ '=' && x ≠ '\n' && x ≠ '\r') = true by decide) c hc
  · exact ⟨[], "_regulatorsetting".toList, by decide⟩

theorem regulators_format : FormatLine (regulatorFormat ++ ['\n']) regulatorCols := by
  refine ⟨by decide, ?_, "FORMAT_REGULATOR".toList, ['\n'], Or.inr (Or.inl rfl), by decide, ?_, by decide +kernel⟩
  · intro c hc
    rw [cellText_iff]
    exact (show ∀ c ∈ regulatorCols, c.all (fun x => x ≠ ',' && x ≠ '=' && x ≠ '\n' && x ≠ '\r') = true by decide) c hc
  · exact ⟨[], "_regulator".toList, by decide⟩

/-! ### rows of the equipment -/

/-- the cells of a row of the equipment -/
def equipmentCells (eq : Text) (r : RegIn) : List Text :=
  [eq, r.kva, orNone r.band, orNone r.ct, orNone r.pt, "0".toList, r.kvln, "10".toList, "10".toList, "32".toList, "0".toList]

theorem orNone_text {t : Option Text} (h : CellText (orEmpty t)) : CellText (orNone t) := by
  cases t with
  | none => exact (cellText_iff _).mpr (by decide)
  | some t => exact h

theorem name_text {n : Text} (h : ∃ k : Nat, n = "regulator_".toList ++ k.repr.toList) : CellText n ∧ Net.pyStrip n = n ∧ '*' ∉ n ∧ n ≠ [] := by
  obtain ⟨k, rfl⟩ := h
  have no : ∀ c : Char, c.isDigit = false → c ∉ "regulator_".toList → c ∉ "regulator_".toList ++ k.repr.toList := by
    intro c h1 h2
    rw [List.mem_append, not_or]
    exact ⟨h2, Dss.not_mem_repr h1 k⟩
  refine ⟨⟨no _ (by decide) (by decide), no _ (by decide) (by decide), no _ (by decide) (by decide), no _ (by decide) (by decide)⟩,
    Net.pyStrip_plain ?_, no _ (by decide) (by decide), by simp⟩
  intro c hc
  rcases List.mem_append.mp hc with hc | hc
  · exact (show ∀ c ∈ "regulator_".toList, c.isWhitespace = false by decide) c hc
  · by_contra hw
    have hw : c.isWhitespace = true := by simpa using hw
    refine Dss.not_mem_repr ?_ k hc
    unfold Char.isWhitespace at hw
    simp only [Bool.or_eq_true, decide_eq_true_eq] at hw
    rcases hw with ((rfl | rfl) | rfl) | rfl <;> rfl

theorem equipmentCells_text {eq : Text} {hash : Text → Text} {r : RegIn} (he : CellText eq) (hr : Printable hash r) :
    ∀ c ∈ equipmentCells eq r, CellText c := by
  obtain ⟨h1, h2, h3, h4, h5, h6⟩ := hr.values
  intro c hc
  unfold equipmentCells at hc
  simp only [List.mem_cons, List.not_mem_nil, or_false] at hc
  rcases hc with rfl | rfl | rfl | rfl | rfl | rfl | rfl | rfl | rfl | rfl | rfl
  · exact he
  · exact h5
  · exact orNone_text h1
  · exact orNone_text h2
  · exact orNone_text h3
  · exact (cellText_iff _).mpr (by decide)
  · exact h6
  all_goals exact (cellText_iff _).mpr (by decide)

theorem join_length (cells : List Text) : cells.length ≤ (joinCells cells).length + 1 := by
  induction cells with
  | nil => exact Nat.zero_le _
  | cons c cs ih =>
    cases cs with
    | nil => simp
    | cons d cs =>
      rw [joinCells]
      simp only [List.length_append, List.length_cons] at ih ⊢
      omega

theorem rowLine_cells {cells : List Text} (h2 : 4 ≤ cells.length) (hc : ∀ c ∈ cells, CellText c) : RowLine (joinCells cells ++ ['\n']) cells := by
  refine ⟨by omega, hc, ?_, ['\n'], Or.inr (Or.inl rfl), rfl⟩
  rw [List.length_append]
  have := join_length cells
  simp only [List.length_cons, List.length_nil]
  omega

theorem join_inj {a b : List Text} (ha : a ≠ []) (hb : b ≠ []) (hca : ∀ c ∈ a, ',' ∉ c) (hcb : ∀ c ∈ b, ',' ∉ c) (h : joinCells a = joinCells b) :
    a = b := by
  rw [← split_join ha hca, h, split_join hb hcb]

theorem find_first {rows : List (List Text)} (hn : (rows.map keyOf).Nodup) {row : List Text} (h : row ∈ rows) : FirstRow rows (keyOf row) row := by
  unfold FirstRow
  induction rows with
  | nil => cases h
  | cons r rows ih =>
    rw [List.map_cons, List.nodup_cons] at hn
    rcases List.mem_cons.mp h with rfl | h
    · rw [List.find?_cons, decide_eq_true rfl]
    · rw [List.find?_cons, decide_eq_false, ih hn.2 h]
      intro he
      exact hn.1 (he ▸ List.mem_map_of_mem h)

/-- the rows of the equipment as lists of cells -/
theorem equipment_cells {hash : Text → Text} {regs : List RegIn} {names equipment : List Text}
    (h : List.Forall₂ (fun name row => ∃ r ∈ regs, row = equipmentRow name r) names equipment)
    (hn : ∀ n ∈ names, ∃ k : Nat, n = "regulator_".toList ++ k.repr.toList) (hp : ∀ r ∈ regs, Printable hash r) :
    ∃ erows, List.Forall₂ RowLine (equipment.map fun r => r ++ ['\n']) erows ∧ erows.map keyOf = names ∧ erows.length = equipment.length ∧
      ∀ n, CellText n → ∀ r ∈ regs, equipmentRow n r ∈ equipment → equipmentCells n r ∈ erows := by
  induction h with
  | nil => exact ⟨[], .nil, rfl, rfl, fun n _ r _ hr => by cases hr⟩
  | @cons name row names equipment hr _ ih =>
    obtain ⟨r, hr, rfl⟩ := hr
    obtain ⟨erows, h1, h2, h3, h4⟩ := ih fun n hm => hn n (List.mem_cons_of_mem _ hm)
    have hname := name_text (hn name List.mem_cons_self)
    have hcells := equipmentCells_text hname.1 (hp r hr)
    refine ⟨equipmentCells name r :: erows, .cons (rowLine_cells (by show 4 ≤ 11; omega) hcells) h1, ?_, by rw [List.length_cons, h3, List.length_cons], ?_⟩
    · rw [List.map_cons, h2]
      congr 1
      exact hname.2.1
    · intro n hm x hx hmem
      have htx := equipmentCells_text hm (hp x hx)
      rcases List.mem_cons.mp hmem with he | hmem
      · have : equipmentCells n x = equipmentCells name r :=
          join_inj (by simp [equipmentCells]) (by simp [equipmentCells]) (fun c hc => (htx c hc).1) (fun c hc => (hcells c hc).1) he
        rw [this]
        exact List.mem_cons_self
      · exact List.mem_cons_of_mem _ (h4 n hm x hx hmem)

/-! ### rows of the settings -/

/-- the cells of the row of a section -/
def sectionCells (sec : Text) (g : List RegIn) (eq ph : Text) (r : RegIn) : List Text :=
  [sec, (placeOf r.place).1, (placeOf r.place).2, ph, orEmpty r.band, orEmpty r.ct, orEmpty r.pt, orEmpty r.setpoint,
    orEmpty r.setpoint, orEmpty r.setpoint, eq, sec, "M".toList, "10".toList, "10".toList, "T".toList, valueFor (·.2.1) g 'A',
    valueFor (·.2.1) g 'B', valueFor (·.2.1) g 'C', valueFor (·.2.2) g 'A', valueFor (·.2.2) g 'B', valueFor (·.2.2) g 'C', "0".toList,
    "0".toList, "0".toList, "0".toList]

theorem valueFor_text {f : Char × Text × Text → Text} {g : List RegIn} (h : ∀ r ∈ g, ∀ p ∈ r.phases, CellText (f p)) (c : Char) :
    CellText (valueFor f g c) := by
  unfold valueFor
  cases hf : (g.flatMap (·.phases)).find? fun p => p.1 = c with
  | none => exact (cellText_iff "0".toList).mpr (by decide)
  | some p =>
    obtain ⟨r, hr, hp⟩ := List.mem_flatMap.mp (List.mem_of_find?_eq_some hf)
    exact h r hr p hp

theorem letters_text {ph : Text} (h : ∀ p ∈ ph, p = 'A' ∨ p = 'B' ∨ p = 'C') : CellText ph := by
  rw [cellText_iff, List.all_eq_true]
  intro x hx
  rcases h x hx with rfl | rfl | rfl <;> decide

theorem sectionCells_text {hash : Text → Text} {sec : Text} {g : List RegIn} {eq ph : Text} {r : RegIn} (hg : ∀ x ∈ g, Printable hash x) (hr : r ∈ g)
    (hs : CellText sec) (he : CellText eq) (hph : CellText ph) : ∀ c ∈ sectionCells sec g eq ph r, CellText c := by
  obtain ⟨h1, h2, h3, h4, h5, h6⟩ := (hg r hr).values
  have ha := fun c => valueFor_text (f := (·.2.1)) (g := g) (fun x hx p hp => ((hg x hx).numbers p hp).1) c
  have hb := fun c => valueFor_text (f := (·.2.2)) (g := g) (fun x hx p hp => ((hg x hx).numbers p hp).2) c
  intro c hc
  unfold sectionCells at hc
  simp only [List.mem_cons, List.not_mem_nil, or_false] at hc
  rcases hc with rfl | rfl | rfl | rfl | rfl | rfl | rfl | rfl | rfl | rfl | rfl | rfl | rfl | rfl | rfl | rfl | rfl | rfl | rfl | rfl | rfl | rfl |
    rfl | rfl | rfl | rfl
  · exact hs
  · exact (hg r hr).place.1
  · exact (hg r hr).place.2
  · exact hph
  · exact h1
  · exact h2
  · exact h3
  · exact h4
  · exact h4
  · exact h4
  · exact he
  · exact hs
  · exact (cellText_iff _).mpr (by decide)
  · exact (cellText_iff _).mpr (by decide)
  · exact (cellText_iff _).mpr (by decide)
  · exact (cellText_iff _).mpr (by decide)
  · exact ha _
  · exact ha _
  · exact ha _
  · exact hb _
  · exact hb _
  · exact hb _
  all_goals exact (cellText_iff _).mpr (by decide)

/-- the rows of the settings as lists of cells -/
theorem setting_cells {hash : Text → Text} {regs : List RegIn} {names equipment secs rows : List Text}
    (h : List.Forall₂ (fun sec row => ∃ eq ∈ names, RowOf sec (regsIn hash regs sec) eq row ∧
        ∀ r ∈ regsIn hash regs sec, equipmentRow eq r ∈ equipment) secs rows)
    (hsecs : ∀ s ∈ secs, ∃ r ∈ regs, sectionOf hash r = s)
    (hok : ∀ r ∈ regs, RegOk hash r) (hn : ∀ n ∈ names, ∃ k : Nat, n = "regulator_".toList ++ k.repr.toList) (hp : ∀ r ∈ regs, Printable hash r) :
    ∃ cells, List.Forall₂ RowLine (rows.map fun r => r ++ ['\n']) cells ∧
      List.Forall₂ (fun sec row => ∃ eq ∈ names, ∃ ph : Text, ph.Perm (lettersOf (regsIn hash regs sec)) ∧
        (∀ r ∈ regsIn hash regs sec, row = sectionCells sec (regsIn hash regs sec) eq ph r ∧ equipmentRow eq r ∈ equipment)) secs cells := by
  induction h with
  | nil => exact ⟨[], .nil, .nil⟩
  | @cons sec row secs rows hr _ ih =>
    obtain ⟨cells, h1, h2⟩ := ih fun s hs => hsecs s (List.mem_cons_of_mem _ hs)
    obtain ⟨eq, heq, ⟨ph, hph, -, hrow⟩, hequ⟩ := hr
    obtain ⟨r, hr, hs⟩ := hsecs sec List.mem_cons_self
    have hin : r ∈ regsIn hash regs sec := List.mem_filter.mpr ⟨hr, by simpa using hs⟩
    have hsub : ∀ x ∈ regsIn hash regs sec, x ∈ regs := fun x hx => (List.mem_filter.mp hx).1
    have hletters : ∀ p ∈ ph, p = 'A' ∨ p = 'B' ∨ p = 'C' := by
      intro p hpp
      obtain ⟨x, hx, hpx⟩ := List.mem_flatMap.mp (hph.mem_iff.mp hpp)
      obtain ⟨q, hq, rfl⟩ := List.mem_map.mp hpx
      exact (hok x (hsub x hx)).letters q hq
    have htext : ∀ x ∈ regsIn hash regs sec, ∀ c ∈ sectionCells sec (regsIn hash regs sec) eq ph x, CellText c := fun x hx =>
      sectionCells_text (fun y hy => hp y (hsub y hy)) hx (by rw [← hs]; exact (hp r hr).name.1) (name_text (hn eq heq)).1 (letters_text hletters)
    refine ⟨sectionCells sec (regsIn hash regs sec) eq ph r :: cells, .cons ?_ h1, .cons ⟨eq, heq, ph, hph, fun x hx => ⟨?_, hequ x hx⟩⟩ h2⟩
    · rw [hrow r hin]
      exact rowLine_cells (by show 4 ≤ 26; omega) (htext r hin)
    · refine join_inj (by simp [sectionCells]) (by simp [sectionCells]) (fun c hc => (htext r hin c hc).1) (fun c hc => (htext x hx c hc).1) ?_
      exact (hrow r hin).symm.trans (hrow x hx)

/-! ### reading back -/

theorem cell_unique {cols row : List Text} {k c d : Text} (hc : Cell cols row k c) (hd : Cell cols row k d) : c = d := by
  obtain ⟨i, hi, hi2⟩ := hc
  obtain ⟨j, hj, hj2⟩ := hd
  have : i = j := by
    rcases Nat.lt_trichotomy i j with h | h | h
    · exact absurd hj.1 (hi.2 j h)
    · exact h
    · exact absurd hi.1 (hj.2 i h)
  rw [this, hj2] at hi2
  injection hi2 with h
  exact h.symm

theorem inner_cell {cols row : List Text} {k c : Text} (h : Inner cols row k c) : Cell cols row k c := by
  obtain ⟨i, h1, h2, -⟩ := h
  exact ⟨i, h1, h2⟩

theorem orEmpty_bind {N : Type} {num : Text → Option N} (h : num [] = none) (t : Option Text) : num (orEmpty t) = t.bind num := by
  cases t with
  | none => exact h
  | some t => rfl

theorem orNone_bind {N : Type} {num : Text → Option N} (h : num "None".toList = none) (t : Option Text) : num (orNone t) = t.bind num := by
  cases t with
  | none => exact h
  | some t => rfl

/-- what is read from the rows of a regulator -/
theorem read_back {N : Type} [Semiring N] {num : Text → Option N} (hn : BlankFree num) (he : num [] = none) (hnone : num "None".toList = none)
    {sec eq ph feeder : Text} (hs : Net.pyStrip sec = sec) {g : List RegIn} {ends v ev : Values} {row erow : List Text}
    (hrow : ∀ r ∈ g, row = sectionCells sec g eq ph r) (herow : ∀ r ∈ g, erow = equipmentCells eq r) (hkey : keyOf row = sec)
    (hv : RowRead settingQuery.attrs settingCols row v) (hev : RowRead regulatorQuery.attrs regulatorCols erow ev) {p : Char}
    (hp : p = 'A' ∨ p = 'B' ∨ p = 'C') : ReadBack num sec feeder ends g p (regulatorOf num (lower (keyOf row)) feeder ends v ev p) := by
  rw [hkey]
  refine ⟨?_, rfl, rfl, rfl, rfl, fun r hr => ?_⟩
  · show "Reg_".toList ++ lower sec ++ '_' :: [p] = _
    rw [List.append_assoc _ "_".toList]
    rfl
  have h1 := hrow r hr
  have h2 := herow r hr
  subst h1 h2
  have hno : ∀ k, k ∉ settingCols.map (List.map Char.toLower) → getEntry k v = none := fun k hk =>
    hasCells_none (hasCells_read hv []) fun hh => no_cell hk hh.2
  have hno' : ∀ k, k ∉ regulatorCols.map (List.map Char.toLower) → getEntry k ev = none := fun k hk =>
    hasCells_none (hasCells_read hev []) fun hh => no_cell hk hh.2
  have number : ∀ {k c : Text} (i : Nat), k ∈ regulatorQuery.attrs → (regulatorCols[i]?).map (List.map Char.toLower) = some k →
      (equipmentCells eq r)[i]? = some c → k ∉ (regulatorCols.drop (i + 1)).map (List.map Char.toLower) → valueAt num ev k = num c :=
    fun i hk h1 h2 h3 => (valueAt_cell hn hev hk).1 _ (cell_at i h1 h2 h3)
  have number' : ∀ {k c : Text} (i : Nat), k ∈ settingQuery.attrs → (settingCols[i]?).map (List.map Char.toLower) = some k →
      (sectionCells sec g eq ph r)[i]? = some c → k ∉ (settingCols.drop (i + 1)).map (List.map Char.toLower) → valueAt num v k = num c :=
    fun i hk h1 h2 h3 => (valueAt_cell hn hv hk).1 _ (cell_at i h1 h2 h3)
  refine ⟨?_, ?_, ?_, ?_, ?_⟩
  · rw [← orEmpty_bind he]
    exact number' 6 (by decide) (by decide) rfl (by decide)
  · rw [← orEmpty_bind he]
    exact number' 5 (by decide) (by decide) rfl (by decide)
  · rw [← orEmpty_bind he]
    show centerOf num v p = _
    rcases hp with rfl | rfl | rfl
    · exact number' (k := "vseta".toList) 7 (by decide) (by decide) rfl (by decide)
    · exact number' (k := "vsetb".toList) 8 (by decide) (by decide) rfl (by decide)
    · exact number' (k := "vsetc".toList) 9 (by decide) (by decide) rfl (by decide)
  · rw [← orNone_bind hnone]
    show bandOf num v ev p = _
    rw [bandOf_shared]
    · unfold equipmentBand
      rw [hno' _ (by decide)]
      exact number (k := "bandwidth".toList) 2 (by decide) (by decide) rfl (by decide)
    · intro c hc _
      refine hno _ ?_
      exact (show ∀ c ∈ ['A', 'B', 'C'], columnOf "bandwidth".toList c ∉ settingCols.map (List.map Char.toLower) by decide) c hc
  · have hw : regWinding num v ev p = ⟨(num r.kva).map fun x => 1000 * x, none, num r.kvln, p⟩ := by
      unfold regWinding
      rw [number (k := "kvln".toList) 6 (by decide) (by decide) rfl (by decide), (thousandAt_cell hn hev (by decide)).1 r.kva
        (cell_at 1 (by decide) rfl (by decide))]
      unfold regConnection
      rw [hno _ (by decide)]
    show [regWinding num v ev p, regWinding num v ev p] = _
    rw [hw]
    rfl

theorem forall₂_right_mem {α β : Type} {R : α → β → Prop} {as : List α} {bs : List β} (h : List.Forall₂ R as bs) : ∀ b ∈ bs, ∃ a, R a b := by
  induction h with
  | nil => intro b hb; cases hb
  | @cons a b as bs h _ ih =>
    intro x hx
    rcases List.mem_cons.mp hx with rfl | hx
    · exact ⟨a, h⟩
    · exact ih x hx

theorem forall₂_through {α β γ : Type} {R : α → β → Prop} {S : β → γ → Prop} {as : List α} {bs : List β} (h : List.Forall₂ R as bs) :
    ∀ {cs : List γ}, List.Forall₂ S bs cs → List.Forall₂ (fun a c => ∃ b, R a b ∧ S b c) as cs := by
  induction h with
  | nil => intro cs h; cases h; exact .nil
  | cons h _ ih =>
    intro cs h'
    cases h' with
    | cons h1 h2 => exact .cons ⟨_, h, h1⟩ (ih h2)

/-- C79. Regulators that are written (C78) and read again: for each section one regulator for each of its phases, with the ratios, the voltage
and the bandwidth that were written, and windings with the power that was written. Missing: the sections are not those that the writer writes, the
voltages of the windings stay in kV, and the compensators are lost. -/
theorem C79_written_partial {N : Type} [Semiring N] {num : Text → Option N} (hn : BlankFree num) (he : num [] = none)
    (hnone : num "None".toList = none) {hash : Text → Text} {regs : List RegIn} (hne : regs ≠ []) (hok : ∀ r ∈ regs, RegOk hash r)
    (halike : ∀ a ∈ regs, ∀ b ∈ regs, sectionOf hash a = sectionOf hash b → Alike a b)
    (honce : ∀ sec, (lettersOf (regsIn hash regs sec)).Nodup) (htext : ∀ r ∈ regs, Printable hash r) {secs : List (Text × Values)}
    {feeders : List (Text × Text)} (hsecs : ∀ r ∈ regs, ∃ ends feeder t, getEntry ((sectionOf hash r).map Char.toLower) secs = some ends ∧
      getEntry "phase".toList ends = some t ∧ getEntry ((sectionOf hash r).map Char.toLower) feeders = some feeder)
    {rows lines network equipment : List Text} (hw : writeRegulators hash regs = .ok (rows, lines))
    (hnet : WrittenTable "[REGULATOR SETTING]".toList settingFormat rows network)
    (hequ : WrittenTable "[REGULATOR]".toList regulatorFormat lines equipment) :
    ∃ parts sections, parseRegulators num secs feeders network equipment = .ok parts.flatten ∧
      sections.Nodup ∧ (∀ s, s ∈ sections ↔ ∃ r ∈ regs, sectionOf hash r = s) ∧
      List.Forall₂ (fun sec part => ∃ ends feeder ph, getEntry (sec.map Char.toLower) secs = some ends ∧
        getEntry (sec.map Char.toLower) feeders = some feeder ∧ ph.Perm (lettersOf (regsIn hash regs sec)) ∧
        List.Forall₂ (ReadBack num sec feeder ends (regsIn hash regs sec)) ph part) sections parts := by
  obtain ⟨rows', lines', sections, names, hw', hnd, hmem, hnn, hnames, hlines, hrows⟩ := C78_regulators_partial hok halike honce
  rw [hw] at hw'
  injection hw' with hw'
  injection hw' with hw1 hw2
  subst hw1 hw2
  obtain ⟨erows, e1, e2, -, e4⟩ := equipment_cells hlines hnames htext
  obtain ⟨cells, c1, c2⟩ := setting_cells hrows (fun s hs => (hmem s).mp hs) hok hnames htext
  have some_sec : sections ≠ [] := by
    intro h
    cases regs with
    | nil => exact hne rfl
    | cons r regs =>
      have := (hmem (sectionOf hash r)).mpr ⟨r, List.mem_cons_self, rfl⟩
      rw [h] at this
      cases this
  have some_cells : cells ≠ [] := by
    rintro rfl
    exact some_sec (List.forall₂_nil_right_iff.mp c2)
  have some_erows : erows ≠ [] := by
    rintro rfl
    cases c2 with
    | nil => exact some_sec rfl
    | cons h _ =>
      obtain ⟨eq, heq, -⟩ := h
      rw [← e2] at heq
      cases heq
  have hsec : ∀ sec ∈ sections, CellText sec ∧ Net.pyStrip sec = sec ∧ '*' ∉ sec := by
    intro sec hm
    obtain ⟨r, hr, rfl⟩ := (hmem sec).mp hm
    exact (htext r hr).name
  have hends : ∀ sec ∈ sections, ∃ ends feeder t, getEntry (sec.map Char.toLower) secs = some ends ∧
      getEntry "phase".toList ends = some t ∧ getEntry (sec.map Char.toLower) feeders = some feeder := by
    intro sec hm
    obtain ⟨r, hr, rfl⟩ := (hmem sec).mp hm
    exact hsecs r hr
  have hrow : List.Forall₂ (fun sec row => sec ∈ sections ∧ keyOf row = sec ∧ ∃ eq ph erow, ph.Perm (lettersOf (regsIn hash regs sec)) ∧
      (∀ r ∈ regsIn hash regs sec, row = sectionCells sec (regsIn hash regs sec) eq ph r ∧ erow = equipmentCells eq r) ∧
      Inner settingCols row "phaseon".toList ph ∧ Inner settingCols row "eqid".toList eq ∧ FirstRow erows eq erow) sections cells := by
    refine (List.forall₂_and_left _ _ |>.mpr ⟨fun r hr => hr, c2⟩ : List.Forall₂ (fun sec row => sec ∈ sections ∧ _) sections cells).imp ?_
    rintro sec row ⟨hm, eq, heq, ph, hph, hall⟩
    obtain ⟨r, hr, hs⟩ := (hmem sec).mp hm
    have hin : r ∈ regsIn hash regs sec := List.mem_filter.mpr ⟨hr, by simpa using hs⟩
    have hfirst : ∀ x ∈ regsIn hash regs sec, FirstRow erows eq (equipmentCells eq x) := by
      intro x hx
      have hcell := e4 eq (name_text (hnames eq heq)).1 x (List.mem_filter.mp hx).1 (hall x hx).2
      have := find_first (by rw [e2]; exact hnn) hcell
      rwa [show keyOf (equipmentCells eq x) = eq from (name_text (hnames eq heq)).2.1] at this
    have hr1 := (hall r hin).1
    refine ⟨hm, ?_, eq, ph, equipmentCells eq r, hph, fun x hx => ⟨(hall x hx).1, ?_⟩, ?_, ?_, hfirst r hin⟩
    · rw [hr1]
      exact (hsec sec hm).2.1
    · have h1 := hfirst r hin
      have h2 := hfirst x hx
      unfold FirstRow at h1 h2
      rw [h1] at h2
      injection h2
    · rw [hr1]
      exact inner_at 3 (by decide) rfl (by decide) (by show 4 < 26; omega)
    · rw [hr1]
      exact inner_at 10 (by decide) rfl (by decide) (by show 11 < 26; omega)
  obtain ⟨parts, p1, p2⟩ := all_made (cols := settingCols) (ecols := regulatorCols) (rows := cells) (erows := erows) num
    (written_mixed hnet settings_format c1 some_cells) (List.nodup_singleton _) (written_mixed hequ regulators_format e1 some_erows)
    (List.nodup_singleton _) (secs := secs) (feeders := feeders) (by
      intro t ht r hr
      rcases List.mem_append.mp ht with ht | ht
      · rw [List.mem_singleton.mp ht] at hr
        obtain ⟨sec, hm, hk, -⟩ := forall₂_right_mem hrow r hr
        rw [hk]
        exact (hsec sec hm).2.2
      · rw [List.mem_singleton.mp ht] at hr
        have : keyOf r ∈ names := by rw [← e2]; exact List.mem_map_of_mem hr
        exact (name_text (hnames _ this)).2.2.1) (Or.inl (List.mem_singleton.mpr rfl)) (Or.inl (List.mem_singleton.mpr rfl)) (by
      intro r hr
      obtain ⟨sec, hm, hk, eq, ph, erow, -, -, h3, h4, h5⟩ := forall₂_right_mem hrow r hr
      obtain ⟨ends, feeder, t, g1, g2, g3⟩ := hends sec hm
      exact ⟨ends, feeder, ph, erow, by rw [hk]; exact g1, ⟨t, g2⟩, by rw [hk]; exact g3, h3, eq, h4, h5⟩)
  refine ⟨parts, sections, p1, hnd, hmem, (forall₂_through hrow p2).imp ?_⟩
  rintro sec part ⟨row, ⟨hm, hk, eq, ph, erow, hph, hall, h3, h4, h5⟩, ends, feeder, phases, erow', v, ev, hrefers, hv, hev, rfl⟩
  have heq1 : phases = ph := cell_unique (inner_cell hrefers.on) (inner_cell h3)
  obtain ⟨eq', g1, g2⟩ := hrefers.equipment
  have heq2 : eq' = eq := cell_unique (inner_cell g1) (inner_cell h4)
  subst heq1 heq2
  have heq3 : erow' = erow := by
    unfold FirstRow at g2 h5
    rw [g2] at h5
    injection h5
  subst heq3
  refine ⟨ends, feeder, phases, by rw [← hk]; exact hrefers.section_, by rw [← hk]; exact hrefers.network, hph, ?_⟩
  rw [List.forall₂_map_right_iff, List.forall₂_same]
  intro p hp
  refine read_back hn he hnone (hsec sec hm).2.1 (fun r hr => (hall r hr).1) (fun r hr => (hall r hr).2) hk hv hev ?_
  obtain ⟨x, hx, hpx⟩ := List.mem_flatMap.mp (hph.mem_iff.mp hp)
  obtain ⟨q, hq, rfl⟩ := List.mem_map.mp hpx
  exact (hok x (List.mem_filter.mp hx).1).letters q hq

/-! ### example -/

/-- the part of a number before the point -/
def wholeOf (t : Text) : Option Nat :=
  match (Net.pyStrip t).takeWhile Char.isDigit with
  | [] => none
  | c :: cs => some ((c :: cs).foldl (fun n d => 10 * n + (d.toNat - 48)) 0)

theorem wholeOf_blank : BlankFree wholeOf := by
  intro a b h
  unfold wholeOf
  rw [show Net.pyStrip a = Net.pyStrip b from h]

/-- the sections and feeders of the example -/
def exampleEnds (a : Text) : Values := [("fromnodeid".toList, a), ("tonodeid".toList, "n2".toList), ("phase".toList, "ABC".toList)]

def exampleSecs : List (Text × Values) := [("n1_n2".toList, exampleEnds "n1".toList), ("n7_n2".toList, exampleEnds "n7".toList)]

def exampleFeeders : List (Text × Text) := [("n1_n2".toList, "F".toList), ("n7_n2".toList, "F".toList)]

def exampleSettings : List Text :=
  ["n1_n2,1.5,2.5,ABC,2.0,700.0,20.0,120.0,120.0,120.0,regulator_1,n1_n2,M,10,10,T,4.0,3.0,0,9.0,9.0,9.0,0,0,0,0".toList,
    "n7_n2,1.5,2.5,A,2.0,700.0,20.0,120.0,120.0,120.0,regulator_1,n7_n2,M,10,10,T,3.0,0,0,9.0,0,0,0,0,0,0".toList]

def exampleEquipment : List Text := ["regulator_1,10000.0,2.0,700.0,20.0,0,7.2,10,10,32,0".toList]

def exampleNetworkFile : List Text :=
  "[GENERAL]\n".toList :: ("[REGULATOR SETTING]".toList ++ ['\n']) :: (settingFormat ++ ['\n']) :: (exampleSettings.map (fun r => r ++ ['\n']) ++ [['\n']])

def exampleEquipmentFile : List Text :=
  ("[REGULATOR]".toList ++ ['\n']) :: (regulatorFormat ++ ['\n']) :: exampleEquipment.map (fun r => r ++ ['\n'])

theorem exampleReg_text (r : RegIn) (hr : r ∈ exampleRegs) : Printable id r := by
  have hall : ∀ r ∈ exampleRegs, (∀ p ∈ r.phases, ∀ t ∈ [p.2.1, p.2.2], t.all (fun x => x ≠ ',' && x ≠ '=' && x ≠ '\n' && x ≠ '\r') = true) ∧
      (∀ t ∈ [(placeOf r.place).1, (placeOf r.place).2, orEmpty r.band, orEmpty r.ct, orEmpty r.pt, orEmpty r.setpoint, r.kva, r.kvln, sectionOf id r],
        t.all (fun x => x ≠ ',' && x ≠ '=' && x ≠ '\n' && x ≠ '\r') = true) ∧ Net.pyStrip (sectionOf id r) = sectionOf id r ∧ '*' ∉ sectionOf id r := by
    decide +kernel
  obtain ⟨h1, h2, h3, h4⟩ := hall r hr
  have ht : ∀ t ∈ [(placeOf r.place).1, (placeOf r.place).2, orEmpty r.band, orEmpty r.ct, orEmpty r.pt, orEmpty r.setpoint, r.kva, r.kvln,
      sectionOf id r], CellText t := fun t hm => (cellText_iff t).mpr (h2 t hm)
  exact ⟨fun p hp => ⟨(cellText_iff _).mpr (h1 p hp _ (by simp)), (cellText_iff _).mpr (h1 p hp _ (by simp))⟩, ⟨ht _ (by simp), ht _ (by simp)⟩,
    ⟨ht _ (by simp), ht _ (by simp), ht _ (by simp), ht _ (by simp), ht _ (by simp), ht _ (by simp)⟩, ht _ (by simp), h3, h4⟩

example : ∃ parts sections, parseRegulators wholeOf exampleSecs exampleFeeders exampleNetworkFile exampleEquipmentFile = .ok parts.flatten ∧
      sections.Nodup ∧ (∀ s, s ∈ sections ↔ ∃ r ∈ exampleRegs, sectionOf id r = s) ∧
      List.Forall₂ (fun sec part => ∃ ends feeder ph, getEntry (sec.map Char.toLower) exampleSecs = some ends ∧
        getEntry (sec.map Char.toLower) exampleFeeders = some feeder ∧ ph.Perm (lettersOf (regsIn id exampleRegs sec)) ∧
        List.Forall₂ (ReadBack wholeOf sec feeder ends (regsIn id exampleRegs sec)) ph part) sections parts := by
  refine C79_written_partial (rows := exampleSettings) (lines := exampleEquipment) wholeOf_blank (by decide) (by decide) (by simp [exampleRegs])
    exampleRegs_ok exampleRegs_alike exampleRegs_once exampleReg_text ?_ (by decide +kernel) ⟨["[GENERAL]\n".toList], [['\n']], rfl, ?_, Or.inr ⟨[], rfl⟩⟩
    ⟨[], [], by unfold exampleEquipmentFile; rw [List.append_nil]; rfl, fun l hl => absurd hl List.not_mem_nil, Or.inl rfl⟩
  · intro r hr
    have hm : sectionOf id r ∈ exampleRegs.map (sectionOf id) := List.mem_map_of_mem hr
    rw [exampleRegs_sections] at hm
    simp only [List.mem_cons, List.not_mem_nil, or_false] at hm
    rcases hm with h | h | h | h <;> rw [h] <;> exact ⟨_, _, _, rfl, rfl, rfl⟩
  · intro l hl hc
    have := (inText_iff _ _).mpr hc
    revert this
    revert l
    decide +kernel

/-- what is read back for the first regulator -/
example : (parseRegulators wholeOf exampleSecs exampleFeeders exampleNetworkFile exampleEquipmentFile).map (fun rs => rs.take 1) = .ok [
    ⟨"Reg_n1_n2_A".toList, "F".toList, some "n1".toList, some "n2".toList, 'A', some 20, some 700, some 120, some 2,
      List.replicate 2 ⟨some 10000000, none, some 7, 'A'⟩⟩] := by
  decide +kernel

end Ditto.Cyme
