import Verif.Props.CymeCapWrite
import Verif.Props.CymeRegBack
import Verif.Props.CymeCaps
import Mathlib.Tactic.FieldSimp
import Mathlib.Tactic.NormNum
import Mathlib.Algebra.Order.Field.Basic

/-! C81: the capacitors that the CYME writer writes, read back. -/
namespace Ditto.Cyme
open Ditto Glm Spec

/-- the names of the columns of the settings -/
def capSettingCols : List Text :=
  ["SectionID".toList, "Connection".toList, "SwitchedKVARA".toList, "SwitchedKVARB".toList, "SwitchedKVARC".toList, "KV".toList, "Control".toList,
    "OnValueA".toList, "OnValueB".toList, "OnValueC".toList, "OffValueA".toList, "OffValueB".toList, "OffValueC".toList, "DeviceNumber".toList,
    "ShuntCapacitorID".toList, "Location".toList, "ConnectionStatus".toList]

/-- the names of the columns of the equipment -/
def capCols : List Text := ["ID".toList, "KVAR".toList, "KV".toList, "CostForFixedBank".toList, "CostForSwitchedBank".toList, "Type".toList]

theorem cap_settings_format : FormatLine (capSettingFormat ++ ['\n']) capSettingCols := by
  refine ⟨by decide, ?_, "FORMAT_SHUNTCAPACITORSETTING".toList, ['\n'], Or.inr (Or.inl rfl), by decide, ?_, by decide +kernel⟩
  · intro c hc
    rw [cellText_iff]
    exact (show ∀ c ∈ capSettingCols, c.all (fun x => x ≠ ',' && x ≠ '=' && x ≠ '\n' && x ≠ '\r') = true by decide) c hc
  · exact ⟨[], "_shuntcapacitorsetting".toList, by decide⟩

theorem caps_format : FormatLine (capFormat ++ ['\n']) capCols := by
  refine ⟨by decide, ?_, "FORMAT_SHUNTCAPACITOR".toList, ['\n'], Or.inr (Or.inl rfl), by decide, ?_, by decide +kernel⟩
  · intro c hc
    rw [cellText_iff]
    exact (show ∀ c ∈ capCols, c.all (fun x => x ≠ ',' && x ≠ '=' && x ≠ '\n' && x ≠ '\r') = true by decide) c hc
  · exact ⟨[], "_shuntcapacitor".toList, by decide⟩

theorem capName_text (k : Nat) : CellText (capName k) ∧ Net.pyStrip (capName k) = capName k ∧ '*' ∉ capName k := by
  unfold capName
  have no : ∀ c : Char, c.isDigit = false → c ∉ "capacitor_".toList → c ∉ "capacitor_".toList ++ k.repr.toList := by
    intro c h1 h2
    rw [List.mem_append, not_or]
    exact ⟨h2, Dss.not_mem_repr h1 k⟩
  refine ⟨⟨no _ (by decide) (by decide), no _ (by decide) (by decide), no _ (by decide) (by decide), no _ (by decide) (by decide)⟩,
    Net.pyStrip_plain ?_, no _ (by decide) (by decide)⟩
  intro c hc
  rcases List.mem_append.mp hc with hc | hc
  · exact (show ∀ c ∈ "capacitor_".toList, c.isWhitespace = false by decide) c hc
  · by_contra hw
    have hw : c.isWhitespace = true := by simpa using hw
    refine Dss.not_mem_repr ?_ k hc
    unfold Char.isWhitespace at hw
    simp only [Bool.or_eq_true, decide_eq_true_eq] at hw
    rcases hw with ((rfl | rfl) | rfl) | rfl <;> rfl

section numbers
variable {K : Type} [Field K] [LinearOrder K]

/-- the cells of the row of a capacitor -/
def capCells (pr : K → Text) (s3 : K) (hash : Text → Text) (c : CapIn K) (v : K) (k : Nat) : List Text :=
  firstCells pr hash c ++ kvFor pr s3 c v :: lastCells pr hash c (modeField c.mode) (capName k)

theorem kvarFor_text {pr : K → Text} (hpr : ∀ x, CellText (pr x)) (c : CapIn K) (p : Char) : CellText (kvarFor pr c p) := by
  unfold kvarFor
  cases varFor c p with
  | none => exact (cellText_iff []).mpr rfl
  | some x => exact hpr _

theorem mode_text (m : Option Text) : CellText (modeField m) := by
  rw [cellText_iff]
  cases m with
  | none => decide
  | some m =>
    unfold modeField
    dsimp only
    split_ifs <;> decide

theorem orEmpty_text {pr : K → Text} (hpr : ∀ x, CellText (pr x)) (o : Option K) : CellText (orEmpty (o.map pr)) := by
  cases o with
  | none => exact (cellText_iff []).mpr rfl
  | some x => exact hpr _

theorem capCells_text {pr : K → Text} (hpr : ∀ x, CellText (pr x)) (s3 : K) {hash : Text → Text} {c : CapIn K} (hc : CapText hash c) (v : K) (k : Nat) :
    ∀ t ∈ capCells pr s3 hash c v k, CellText t := by
  have hconn : CellText (orEmpty c.connection) := by
    rcases hc.connection with h | h <;> rw [h] <;> exact (cellText_iff _).mpr (by decide)
  intro t ht
  unfold capCells firstCells lastCells at ht
  simp only [List.cons_append, List.nil_append, List.mem_cons, List.not_mem_nil, or_false] at ht
  rcases ht with rfl | rfl | rfl | rfl | rfl | rfl | rfl | rfl | rfl | rfl | rfl | rfl | rfl | rfl | rfl | rfl | rfl
  · exact hc.section_.1
  · exact hconn
  · exact kvarFor_text hpr c _
  · exact kvarFor_text hpr c _
  · exact kvarFor_text hpr c _
  · exact kvFor_text (P := CellText) hpr s3 c v
  · exact mode_text _
  · exact orEmpty_text hpr _
  · exact orEmpty_text hpr _
  · exact orEmpty_text hpr _
  · exact orEmpty_text hpr _
  · exact orEmpty_text hpr _
  · exact orEmpty_text hpr _
  · exact hc.section_.1
  · exact (capName_text k).1
  · exact (cellText_iff _).mpr (by decide)
  · exact (cellText_iff _).mpr (by decide)

theorem capEquipment_text {pr : K → Text} (hpr : ∀ x, CellText (pr x)) (s3 : K) (c : CapIn K) (x v : K) {eq : Text} (he : CellText eq) :
    ∀ t ∈ capEquipment pr s3 eq c x v, CellText t := by
  intro t ht
  unfold capEquipment at ht
  simp only [List.mem_cons, List.not_mem_nil, or_false] at ht
  rcases ht with rfl | rfl | rfl | rfl | rfl | rfl
  · exact he
  · exact hpr _
  · exact kvFor_text (P := CellText) hpr s3 c v
  all_goals exact (cellText_iff _).mpr (by decide)

/-! ### the tables -/

/-- the cells of the equipment -/
theorem cap_equipment_cells {pr : K → Text} (hpr : ∀ x, CellText (pr x) ∧ pr x ≠ []) {s3 : K} {caps : List (CapIn K)} (hok : ∀ c ∈ caps, CapOk c)
    (hvolt : ∀ c ∈ caps, c.voltage ≠ none) {names lines : List Text} (hn : ∀ n ∈ names, ∃ k : Nat, n = capName k)
    (h : List.Forall₂ (fun name line => ∃ c ∈ caps, line = equipmentLine name (capObject pr s3 c)) names lines) :
    ∃ erows, List.Forall₂ RowLine (lines.map fun r => r ++ ['\n']) erows ∧ erows.map keyOf = names := by
  induction h with
  | nil => exact ⟨[], .nil, rfl⟩
  | @cons name line names lines hr _ ih =>
    obtain ⟨c, hc, rfl⟩ := hr
    obtain ⟨erows, h1, h2⟩ := ih fun n hm => hn n (List.mem_cons_of_mem _ hm)
    obtain ⟨k, rfl⟩ := hn name List.mem_cons_self
    obtain ⟨v, hv⟩ := Option.ne_none_iff_exists'.mp (hvolt c hc)
    refine ⟨capEquipment pr s3 (capName k) c (oneVar c.phases) v :: erows, .cons ?_ h1, ?_⟩
    · unfold equipmentLine
      rw [equipment_full (fun x => ⟨(hpr x).1.1, (hpr x).2⟩) (hok c hc) hv]
      exact rowLine_cells (by show 4 ≤ 6; omega) (capEquipment_text (fun x => (hpr x).1) s3 c _ v (capName_text k).1)
    · rw [List.map_cons, h2]
      congr 1
      exact (capName_text k).2.1

/-- the tables of written capacitors -/
theorem cap_tables {pr : K → Text} (hpr : ∀ x, CellText (pr x) ∧ pr x ≠ []) (s3 : K) {hash : Text → Text} {caps : List (CapIn K)} (hne : caps ≠ [])
    (hok : ∀ c ∈ caps, CapOk c) (hvolt : ∀ c ∈ caps, c.voltage ≠ none) (htext : ∀ c ∈ caps, CapText hash c)
    {srows rows lines network equipment : List Text} (hw : writeCapacitors pr s3 hash caps = (srows, rows, lines))
    (hnet : WrittenTable "[SHUNT CAPACITOR SETTING]".toList capSettingFormat rows network)
    (hno : ∀ l ∈ network, ¬"[SERIES CAPACITOR SETTING]".toList <:+: l)
    (hequ : WrittenTable "[SHUNT CAPACITOR]".toList capFormat lines equipment) (hno' : ∀ l ∈ equipment, ¬"[SERIES CAPACITOR]".toList <:+: l) :
    ∃ (erows : List (List Text)) (w : CapIn K → K) (k : CapIn K → Nat), (∀ c ∈ caps, c.voltage = some (w c)) ∧ (erows.map keyOf).Nodup ∧
      (∀ r ∈ erows, '*' ∉ keyOf r) ∧ (∀ c ∈ caps, capName (k c) ∈ erows.map keyOf) ∧
      Mixed [seriesSettingQuery.headers, shuntSettingQuery.headers] network
        [(shuntSettingQuery.headers, ⟨capSettingCols, caps.map fun c => capCells pr s3 hash c (w c) (k c)⟩)] ∧
      Mixed [seriesQuery.headers, shuntQuery.headers] equipment [(shuntQuery.headers, ⟨capCols, erows⟩)] := by
  obtain ⟨names, lines', k, h1, h2, h3, h4, h5⟩ := caps_written pr s3 hash caps
  rw [hw] at h1
  injection h1 with _ h1
  injection h1 with hrows hlines
  subst hrows hlines
  have h3 : ∀ n ∈ names, ∃ k : Nat, n = capName k := h3
  obtain ⟨erows, e1, e2⟩ := cap_equipment_cells hpr hok hvolt h3 h4
  have hw : ∀ c : CapIn K, ∃ v, c.voltage ≠ none → c.voltage = some v := by
    intro c
    cases c.voltage with
    | none => exact ⟨0, fun h => absurd rfl h⟩
    | some v => exact ⟨v, fun _ => rfl⟩
  choose w hw using hw
  have hw' : ∀ c ∈ caps, c.voltage = some (w c) := fun c hc => hw c (hvolt c hc)
  have hrowsEq : List.Forall₂ RowLine (((caps.map fun c => capRow pr s3 (capSection hash c) c [k c])).map fun r => r ++ ['\n'])
      (caps.map fun c => capCells pr s3 hash c (w c) (k c)) := by
    rw [List.map_map, List.forall₂_map_left_iff, List.forall₂_map_right_iff, List.forall₂_same]
    intro c hc
    show RowLine (capRow pr s3 (capSection hash c) c [k c] ++ ['\n']) _
    rw [capRow_cells hash (hok c hc).letters (hok c hc).once]
    unfold kvFields
    rw [hw' c hc]
    exact rowLine_cells (by show 4 ≤ 17; omega) (capCells_text (fun x => (hpr x).1) s3 (htext c hc) (w c) (k c))
  obtain ⟨c0, hc0⟩ := List.exists_mem_of_ne_nil caps hne
  refine ⟨erows, w, k, hw', by rw [e2]; exact h2, ?_, fun c hc => by rw [e2]; exact (h5 c hc).1, ?_, ?_⟩
  · intro r hr
    have : keyOf r ∈ names := by rw [← e2]; exact List.mem_map_of_mem hr
    obtain ⟨j, hj⟩ := h3 _ this
    rw [hj]
    exact (capName_text j).2.2
  · refine written_among (header := "[SHUNT CAPACITOR SETTING]".toList) (by decide) ?_ hnet cap_settings_format hrowsEq ?_
    · intro hs hh he l hl
      rcases List.mem_cons.mp hh with rfl | hh
      · rintro ⟨x, hx, hc⟩
        rw [List.mem_singleton.mp hx] at hc
        exact hno l hl hc
      · exact absurd (List.mem_singleton.mp hh) he
    · intro he
      exact hne (List.map_eq_nil_iff.mp he)
  · refine written_among (header := "[SHUNT CAPACITOR]".toList) (by decide) ?_ hequ caps_format e1 ?_
    · intro hs hh he l hl
      rcases List.mem_cons.mp hh with rfl | hh
      · rintro ⟨x, hx, hc⟩
        rw [List.mem_singleton.mp hx] at hc
        exact hno' l hl hc
      · exact absurd (List.mem_singleton.mp hh) he
    · rintro rfl
      have := (h5 c0 hc0).1
      rw [← e2] at this
      cases this

/-! ### one row -/

variable [IsStrictOrderedRing K]

/-- the power of a phase in kvar -/
def kvarValue (c : CapIn K) (p : Char) : K :=
  match varFor c p with
  | none => 0
  | some x => x / 1000

theorem thousand_div (x : K) : 1000 * (x / 1000) = x := by
  have : (1000 : K) ≠ 0 := by norm_num
  field_simp

theorem switched_cell (pr : K → Text) (s3 : K) (hash : Text → Text) (c : CapIn K) (v : K) (k : Nat) {p : Char} (hp : p ∈ ['A', 'B', 'C']) :
    Cell capSettingCols (capCells pr s3 hash c v k) (columnOf "switchedkvar".toList p) (kvarFor pr c p) := by
  rcases mem_abc.mp hp with rfl | rfl | rfl
  · exact cell_at 2 (by decide) rfl (by decide)
  · exact cell_at 3 (by decide) rfl (by decide)
  · exact cell_at 4 (by decide) rfl (by decide)

theorem not_fixed {num : Text → Option K} (row : List Text) : Idle num capSettingCols row "fixedkvar".toList :=
  Or.inl ⟨'A', by decide, no_cell (by decide)⟩

theorem varFor_mem {c : CapIn K} (hn : (capLetters c).Nodup) {p : Char × Option K} (hp : p ∈ c.phases) : varFor c p.1 = p.2 := by
  unfold varFor capLetters at *
  generalize c.phases = l at hn hp
  induction l with
  | nil => cases hp
  | cons q l ih =>
    rw [List.map_cons, List.nodup_cons] at hn
    rw [List.find?_cons]
    rcases List.mem_cons.mp hp with rfl | hp
    · rw [decide_eq_true rfl]
      rfl
    · rw [decide_eq_false]
      · exact ih hn.2 hp
      · intro he
        exact hn.1 (he ▸ List.mem_map_of_mem hp)

theorem same_phases {c : CapIn K} (hn : (capLetters c).Nodup) {l : List (Char × Option K)} (h1 : l.map (·.1) = capLetters c)
    (h2 : ∀ p ∈ l, p.2 = varFor c p.1) : l = c.phases := by
  have : l.map (fun p => (p.1, varFor c p.1)) = l := by
    conv_rhs => rw [← List.map_id l]
    exact List.map_congr_left fun p hp => by rw [← h2 p hp]; rfl
  rw [← this, show (fun p : Char × Option K => (p.1, varFor c p.1)) = (fun x : Char => (x, varFor c x)) ∘ (·.1) from rfl, ← List.map_map, h1]
  unfold capLetters
  rw [List.map_map]
  conv_rhs => rw [← List.map_id c.phases]
  exact List.map_congr_left fun p hp => by
    show (p.1, varFor c p.1) = p
    rw [varFor_mem hn hp]

theorem some_positive {l : List K} (h : 0 < l.sum) : ∃ x ∈ l, 0 < x := by
  by_contra hc
  have : l.sum ≤ 0 := by
    induction l with
    | nil => exact le_refl _
    | cons x l ih =>
      rw [List.sum_cons]
      have h1 : x ≤ 0 := not_lt.mp fun hx => hc ⟨x, List.mem_cons_self, hx⟩
      by_cases h2 : 0 < l.sum
      · exact absurd (ih h2 fun ⟨y, hy, hpos⟩ => hc ⟨y, List.mem_cons_of_mem _ hy, hpos⟩) (not_le.mpr h2)
      · exact add_nonpos h1 (not_lt.mp h2)
  exact absurd h (not_lt.mpr this)

theorem switched_bank {num : Text → Option K} {pr : K → Text} {s3 : K} (hash : Text → Text) {c : CapIn K} (hok : CapOk c) (hread : Reads num pr s3 c)
    (hfull : ∀ p ∈ ['A', 'B', 'C'], varFor c p ≠ none) (v : K) (k : Nat) :
    Bank num capSettingCols (capCells pr s3 hash c v k) "switchedkvar".toList (kvarValue c) := by
  constructor
  · intro p hp
    refine ⟨_, switched_cell pr s3 hash c v k hp, ?_⟩
    obtain ⟨x, hx⟩ := Option.ne_none_iff_exists'.mp (hfull p hp)
    unfold kvarFor kvarValue
    rw [hx]
    exact hread.1 p x hx
  · obtain ⟨x, hx, hpos⟩ := some_positive hok.power
    obtain ⟨q, hq, hqx⟩ := List.mem_filterMap.mp hx
    refine ⟨q.1, mem_abc.mpr (hok.letters q.1 (List.mem_map_of_mem hq)), ?_⟩
    unfold kvarValue
    rw [varFor_mem hok.once hq, hqx]
    exact div_pos hpos (by norm_num)

theorem letters_three {c : CapIn K} (hok : PhasesOk c) (hfull : ∀ p ∈ ['A', 'B', 'C'], varFor c p ≠ none) : (capLetters c).length = 3 := by
  have h1 := three_letters hok.once hok.letters
  have h2 : ['A', 'B', 'C'] ⊆ capLetters c := by
    intro p hp
    have := hfull p hp
    unfold varFor at this
    cases hf : c.phases.find? fun x => x.1 = p with
    | none => rw [hf] at this; exact absurd rfl this
    | some q =>
      have hq : q.1 = p := by simpa using List.find?_some hf
      rw [← hq]
      exact List.mem_map_of_mem (List.mem_of_find?_eq_some hf)
  have h3 := (List.subperm_of_subset (by decide) h2).length_le
  simp only [List.length_cons, List.length_nil] at h3
  omega

/-- the equipment of a row -/
theorem cap_device {pr : K → Text} {s3 : K} {hash : Text → Text} {c : CapIn K} {v : K} {k : Nat} {erows : List (List Text)}
    (hn : (erows.map keyOf).Nodup) (hk : capName k ∈ erows.map keyOf) :
    ∃ e, DeviceFor [(shuntQuery.headers, ⟨capCols, erows⟩)] (shuntSettingQuery.headers, capSettingCols, capCells pr s3 hash c v k) e := by
  obtain ⟨erow, he, hkey⟩ := List.mem_map.mp hk
  refine ⟨some (capCols, erow), Or.inr ⟨rfl, Or.inl ⟨capName k, ?_, ?_⟩⟩⟩
  · exact inner_at (cols := capSettingCols) 14 (by decide) rfl (by decide) (by show 15 < 17; omega)
  · refine EquipmentFor.found (t := ⟨capCols, erows⟩) (List.mem_singleton.mpr rfl) ?_
    rw [← hkey]
    exact find_first hn he

theorem cap_key {pr : K → Text} {s3 : K} {hash : Text → Text} {c : CapIn K} (hc : CapText hash c) (v : K) (k : Nat) :
    keyOf (capCells pr s3 hash c v k) = sectionOfCap hash c := hc.section_.2.1

theorem cap_good {num : Text → Option K} {pr : K → Text} {s3 : K} {hash : Text → Text} {c : CapIn K} (hok : CapOk c) (htext : CapText hash c)
    (hread : Reads num pr s3 c) (hfull : ∀ p ∈ ['A', 'B', 'C'], varFor c p ≠ none) {secs : List (Text × Values)} {feeders : List (Text × Text)}
    {feeder : Text} (hsec : OnSection hash secs feeders c feeder) (v : K) (k : Nat) :
    GoodRow num secs feeders (shuntSettingQuery.headers, capSettingCols, capCells pr s3 hash c v k) := by
  obtain ⟨ends, h1, h2, h3, h4⟩ := hsec
  refine ⟨⟨ends, feeder, capLetters c, ⟨?_, h2, ?_⟩, fun p hp => mem_abc.mpr (hok.letters p hp)⟩, fun _ => ?_⟩
  · show getEntry ((keyOf (capCells pr s3 hash c v k)).map Char.toLower) secs = _
    rw [cap_key htext]
    exact h1
  · show getEntry ((keyOf (capCells pr s3 hash c v k)).map Char.toLower) feeders = _
    rw [cap_key htext]
    exact h4
  · intro x hx
    rcases List.mem_cons.mp hx with rfl | hx
    · exact Or.inl (not_fixed _)
    · rw [List.mem_singleton.mp hx]
      exact Or.inr ⟨_, switched_bank hash hok hread hfull v k⟩

/-! ### all rows -/

/-- C81. Capacitors with three phases that are written and read again have their connection, their voltage and the power of each phase. Missing: the
control and its limits, which are not read, capacitors without one of the phases (`C81_missing_phase_violated`), and the sections are not those that
the writer writes. -/
theorem C81_back_partial {num : Text → Option K} (hn : BlankFree num) {pr : K → Text} (hpr : ∀ x, CellText (pr x) ∧ pr x ≠ []) {s3 : K} (hs3 : s3 ≠ 0)
    {hash : Text → Text} {caps : List (CapIn K)} (hne : caps ≠ []) (hok : ∀ c ∈ caps, CapOk c) (hvolt : ∀ c ∈ caps, c.voltage ≠ none)
    (htext : ∀ c ∈ caps, CapText hash c) (hread : ∀ c ∈ caps, Reads num pr s3 c) (hfull : ∀ c ∈ caps, ∀ p ∈ ['A', 'B', 'C'], varFor c p ≠ none)
    {secs : List (Text × Values)} {feeders : List (Text × Text)} (hsecs : ∀ c ∈ caps, ∃ feeder, OnSection hash secs feeders c feeder)
    {srows rows lines network equipment : List Text} (hw : writeCapacitors pr s3 hash caps = (srows, rows, lines))
    (hnet : WrittenTable "[SHUNT CAPACITOR SETTING]".toList capSettingFormat rows network)
    (hno : ∀ l ∈ network, ¬"[SERIES CAPACITOR SETTING]".toList <:+: l)
    (hequ : WrittenTable "[SHUNT CAPACITOR]".toList capFormat lines equipment) (hno' : ∀ l ∈ equipment, ¬"[SERIES CAPACITOR]".toList <:+: l) :
    ∃ back, parseCapacitors num s3 secs feeders network equipment = .ok back ∧
      List.Forall₂ (fun c b => ∃ feeder, OnSection hash secs feeders c feeder ∧ b = capBack hash feeder c) caps back := by
  obtain ⟨erows, w, k, t1, t2, t3, t4, t5, t6⟩ := cap_tables hpr s3 hne hok hvolt htext hw hnet hno hequ hno'
  have hfile : fileRows [(shuntSettingQuery.headers, ⟨capSettingCols, caps.map fun c => capCells pr s3 hash c (w c) (k c)⟩)] =
      caps.map fun c => (shuntSettingQuery.headers, capSettingCols, capCells pr s3 hash c (w c) (k c)) := by
    unfold fileRows
    rw [List.flatMap_cons, List.flatMap_nil, List.append_nil, List.map_map]
    rfl
  obtain ⟨back, h1, h2⟩ := all_caps hn s3 t5 t6 (secs := secs) (feeders := feeders) (by
      intro t ht r hr
      rcases List.mem_append.mp ht with ht | ht
      · rw [List.mem_singleton.mp ht] at hr
        obtain ⟨c, hc, rfl⟩ := List.mem_map.mp hr
        rw [cap_key (htext c hc)]
        exact (htext c hc).section_.2.2
      · rw [List.mem_singleton.mp ht] at hr
        exact t3 r hr) (List.pairwise_singleton _ _) (List.pairwise_singleton _ _) (by
      rw [hfile]
      intro r hr
      obtain ⟨c, hc, rfl⟩ := List.mem_map.mp hr
      obtain ⟨feeder, hsec⟩ := hsecs c hc
      exact ⟨cap_good (hok c hc) (htext c hc) (hread c hc) (hfull c hc) hsec _ _, cap_device t2 (t4 c hc)⟩)
  refine ⟨back, h1, ?_⟩
  have hcontrol := C80_control_violated num s3 secs feeders network equipment back h1
  rw [hfile, List.forall₂_map_left_iff] at h2
  have h3 : List.Forall₂ (fun c b => (c ∈ caps ∧ b.control = none) ∧ _) caps back :=
    (List.forall₂_and_left _ _ |>.mpr ⟨fun r hr => hr, List.Forall₂.flip (List.forall₂_and_left _ _ |>.mpr ⟨hcontrol, h2.flip⟩)⟩ :
      List.Forall₂ (fun c b => c ∈ caps ∧ b.control = none ∧ _) caps back).imp fun c b h => ⟨⟨h.1, h.2.1⟩, h.2.2⟩
  refine h3.imp ?_
  rintro c b ⟨⟨hc, hctl⟩, ends, feeder, phases, e, ⟨p1, p2, p3⟩, -, -, g4, g5, -, g7, g8⟩
  obtain ⟨feeder', ends', s1, s2, s3', s4⟩ := hsecs c hc
  have hkey := cap_key (pr := pr) (s3 := s3) (htext c hc) (w c) (k c)
  dsimp only at p1 p3
  rw [hkey] at p1 p3
  rw [s1] at p1
  injection p1 with p1
  subst p1
  rw [s4] at p3
  injection p3 with p3
  subst p3
  rw [s2] at p2
  injection p2 with p2
  subst p2
  refine ⟨feeder', ⟨ends', s1, s2, s3', s4⟩, ?_⟩
  obtain ⟨⟨q1, q2, q3, q4⟩, q5, q6⟩ := g8 rfl
  have hconn : b.connection = c.connection := by
    have hin : ∀ t, c.connection = some t → Inner capSettingCols (capCells pr s3 hash c (w c) (k c)) "connection".toList t := fun t ht =>
      inner_at 1 (by decide) (show some (orEmpty c.connection) = _ by rw [ht]; rfl) (by decide) (by show 2 < 17; omega)
    rcases (htext c hc).connection with h | h
    · rw [g5 rfl _ (hin _ h), h]; decide
    · rw [g5 rfl _ (hin _ h), h]; decide
  have hkv : Cell capSettingCols (capCells pr s3 hash c (w c) (k c)) "kv".toList (pr (w c / 1000 / s3)) := by
    have : kvFor pr s3 c (w c) = pr (w c / 1000 / s3) := by
      unfold kvFor
      rw [if_neg]
      have := letters_three (hok c hc).toPhasesOk (hfull c hc)
      unfold capLetters at this
      rw [List.length_map] at this
      omega
    rw [← this]
    exact cell_at 5 (by decide) rfl (by decide)
  have hval : some (1000 * (w c / 1000 / s3) * s3) = c.voltage := by
    rw [t1 c hc]
    congr 1
    field_simp
  have hvolt : b.voltage = c.voltage := by
    by_cases hD : b.connection = some "D".toList
    · rw [g7 rfl hD _ _ hkv ((hread c hc).2 _ (t1 c hc))]
      exact hval
    · rw [((g4 rfl hD).voltage.1 _ _ hkv ((hread c hc).2 _ (t1 c hc))).1 (letters_three (hok c hc).toPhasesOk (hfull c hc))]
      exact hval
  have hphases : b.phases = c.phases := by
    refine same_phases (hok c hc).once q4 ?_
    intro p hp
    rw [(q5 p hp).switched (not_fixed _) _ (switched_bank hash (hok c hc) (hread c hc) (hfull c hc) (w c) (k c))]
    have hpm : p.1 ∈ ['A', 'B', 'C'] := mem_abc.mpr ((hok c hc).letters p.1 (by rw [← q4]; exact List.mem_map_of_mem hp))
    obtain ⟨x, hx⟩ := Option.ne_none_iff_exists'.mp (hfull c hc p.1 hpm)
    unfold kvarValue
    rw [hx]
    dsimp only
    rw [thousand_div]
  obtain ⟨b1, b2, b3, b4, b5, b6, b7, b8⟩ := b
  dsimp only at hctl hconn hvolt hphases q1 q2 q3 q6
  rw [q1, q2, q3, q6, hctl, hconn, hvolt, hphases, hkey, s3']
  rfl

theorem first_bad {α : Type} {P : α → Prop} : ∀ {l : List α}, (∃ x ∈ l, ¬P x) → ∃ pre x post, l = pre ++ x :: post ∧ (∀ y ∈ pre, P y) ∧ ¬P x := by
  intro l
  induction l with
  | nil => rintro ⟨x, hx, -⟩; cases hx
  | cons y l ih =>
    rintro ⟨x, hx, hb⟩
    by_cases hy : P y
    · have : x ∈ l := by
        rcases List.mem_cons.mp hx with rfl | hx
        · exact absurd hy hb
        · exact hx
      obtain ⟨pre, z, post, h1, h2, h3⟩ := ih ⟨x, this, hb⟩
      refine ⟨y :: pre, z, post, by rw [h1]; rfl, ?_, h3⟩
      intro a ha
      rcases List.mem_cons.mp ha with rfl | ha
      · exact hy
      · exact h2 a ha
    · exact ⟨[], y, l, rfl, fun a ha => absurd ha List.not_mem_nil, hy⟩

/-- If one of the capacitors does not have all three phases, the files that are written cannot be read again. -/
theorem C81_missing_phase_violated {num : Text → Option K} (hn : BlankFree num) (he : num [] = none) {pr : K → Text}
    (hpr : ∀ x, CellText (pr x) ∧ pr x ≠ []) {s3 : K} {hash : Text → Text} {caps : List (CapIn K)} (hok : ∀ c ∈ caps, CapOk c)
    (hvolt : ∀ c ∈ caps, c.voltage ≠ none) (htext : ∀ c ∈ caps, CapText hash c) (hread : ∀ c ∈ caps, Reads num pr s3 c)
    (hmiss : ∃ c ∈ caps, ∃ p ∈ ['A', 'B', 'C'], varFor c p = none)
    {secs : List (Text × Values)} {feeders : List (Text × Text)} (hsecs : ∀ c ∈ caps, ∃ feeder, OnSection hash secs feeders c feeder)
    {srows rows lines network equipment : List Text} (hw : writeCapacitors pr s3 hash caps = (srows, rows, lines))
    (hnet : WrittenTable "[SHUNT CAPACITOR SETTING]".toList capSettingFormat rows network)
    (hno : ∀ l ∈ network, ¬"[SERIES CAPACITOR SETTING]".toList <:+: l)
    (hequ : WrittenTable "[SHUNT CAPACITOR]".toList capFormat lines equipment) (hno' : ∀ l ∈ equipment, ¬"[SERIES CAPACITOR]".toList <:+: l) :
    parseCapacitors num s3 secs feeders network equipment = .error .valueError := by
  have hne : caps ≠ [] := by
    obtain ⟨c, hc, -⟩ := hmiss
    rintro rfl
    cases hc
  obtain ⟨erows, w, k, t1, t2, t3, t4, t5, t6⟩ := cap_tables hpr s3 hne hok hvolt htext hw hnet hno hequ hno'
  have hfile : fileRows [(shuntSettingQuery.headers, ⟨capSettingCols, caps.map fun c => capCells pr s3 hash c (w c) (k c)⟩)] =
      caps.map fun c => (shuntSettingQuery.headers, capSettingCols, capCells pr s3 hash c (w c) (k c)) := by
    unfold fileRows
    rw [List.flatMap_cons, List.flatMap_nil, List.append_nil, List.map_map]
    rfl
  obtain ⟨pre, c, post, hsplit, hgood, hbad⟩ := first_bad (P := fun c : CapIn K => ∀ p ∈ ['A', 'B', 'C'], varFor c p ≠ none) (l := caps) (by
    obtain ⟨c, hc, p, hp, hx⟩ := hmiss
    exact ⟨c, hc, fun h => h p hp hx⟩)
  have hc : c ∈ caps := by rw [hsplit]; exact List.mem_append_right _ List.mem_cons_self
  have hpre : ∀ x ∈ pre, x ∈ caps := fun x hx => by rw [hsplit]; exact List.mem_append_left _ hx
  obtain ⟨p, hp, hpx⟩ : ∃ p ∈ ['A', 'B', 'C'], varFor c p = none := by
    by_contra hcon
    exact hbad fun p hp hx => hcon ⟨p, hp, hx⟩
  refine (C80_errors hn s3 t5 t6 (secs := secs) (feeders := feeders) (by
      intro t ht r hr
      rcases List.mem_append.mp ht with ht | ht
      · rw [List.mem_singleton.mp ht] at hr
        obtain ⟨c, hc, rfl⟩ := List.mem_map.mp hr
        rw [cap_key (htext c hc)]
        exact (htext c hc).section_.2.2
      · rw [List.mem_singleton.mp ht] at hr
        exact t3 r hr) (List.pairwise_singleton _ _) (List.pairwise_singleton _ _)
      (pre := pre.map fun c => (shuntSettingQuery.headers, capSettingCols, capCells pr s3 hash c (w c) (k c)))
      (post := post.map fun c => (shuntSettingQuery.headers, capSettingCols, capCells pr s3 hash c (w c) (k c)))
      (bad := (shuntSettingQuery.headers, capSettingCols, capCells pr s3 hash c (w c) (k c)))
      (by rw [hfile]; conv_lhs => rw [hsplit]
          rw [List.map_append, List.map_cons]) (by
      intro r hr
      obtain ⟨x, hx, rfl⟩ := List.mem_map.mp hr
      obtain ⟨feeder, hsec⟩ := hsecs x (hpre x hx)
      exact ⟨cap_good (hok x (hpre x hx)) (htext x (hpre x hx)) (hread x (hpre x hx)) (hgood x hx) hsec _ _,
        cap_device t2 (t4 x (hpre x hx))⟩)).2.2.2 rfl ?_ (not_fixed _) ?_ ?_
  · obtain ⟨feeder, ends, s1, s2, s3', s4⟩ := hsecs c hc
    have hkey := cap_key (pr := pr) (s3 := s3) (htext c hc) (w c) (k c)
    refine ⟨ends, feeder, capLetters c, ⟨by dsimp only; rw [hkey]; exact s1, s2, by dsimp only; rw [hkey]; exact s4⟩, ?_⟩
    intro h0
    have hp0 := (hok c hc).power
    rw [List.map_eq_nil_iff.mp h0] at hp0
    exact lt_irrefl _ hp0
  · exact fun q hq => ⟨_, switched_cell pr s3 hash c (w c) (k c) hq⟩
  · refine ⟨p, hp, _, switched_cell pr s3 hash c (w c) (k c) hp, ?_⟩
    unfold kvarFor
    rw [hpx]
    exact he

end numbers

/-! ### examples -/

/-- a number before a slash -/
def wholeRat (t : Text) : Option ℚ := (wholeOf t).map fun n => (n : ℚ)

theorem wholeRat_blank : BlankFree wholeRat := by
  intro a b h
  unfold wholeRat
  rw [wholeOf_blank a b h]

theorem ratText_cell (x : ℚ) : CellText (ratText x) ∧ ratText x ≠ [] :=
  ⟨⟨ratText_plain x (by decide) (by decide), ratText_plain x (by decide) (by decide), ratText_plain x (by decide) (by decide),
    ratText_plain x (by decide) (by decide)⟩, (ratText_ok x).2⟩

/-- the sections and feeders of the example -/
def capEnds (a ph : Text) : Values := [("fromnodeid".toList, a), ("tonodeid".toList, "c".toList), ("phase".toList, ph)]

def capSecs : List (Text × Values) :=
  [("n1_c1".toList, capEnds "n1".toList "ACB".toList), ("n1_c2".toList, capEnds "n1".toList "ACB".toList),
    ("n2_c1".toList, capEnds "n2".toList "B".toList)]

def capFeeders : List (Text × Text) := [("n1_c1".toList, "F".toList), ("n1_c2".toList, "F".toList), ("n2_c1".toList, "F".toList)]

/-- the files with some of the capacitors of the example -/
def capNetworkFile (caps : List (CapIn ℚ)) : List Text :=
  "[GENERAL]\n".toList :: ("[SHUNT CAPACITOR SETTING]".toList ++ ['\n']) :: (capSettingFormat ++ ['\n']) ::
    ((writeCapacitors ratText 2 id caps).2.1.map (fun r => r ++ ['\n']) ++ [['\n']])

def capEquipmentFile (caps : List (CapIn ℚ)) : List Text :=
  ("[SHUNT CAPACITOR]".toList ++ ['\n']) :: (capFormat ++ ['\n']) :: (writeCapacitors ratText 2 id caps).2.2.map (fun r => r ++ ['\n'])

/-- the values of the example -/
theorem exampleCaps_text : ∀ c ∈ exampleCaps, CapText id c ∧ ∃ feeder, OnSection id capSecs capFeeders c feeder := by
  intro c hc
  have h : ∀ c ∈ exampleCaps, ((sectionOfCap id c).all (fun x => x ≠ ',' && x ≠ '=' && x ≠ '\n' && x ≠ '\r') = true ∧
      Net.pyStrip (sectionOfCap id c) = sectionOfCap id c ∧ '*' ∉ sectionOfCap id c) ∧
      (c.connection = some "Y".toList ∨ c.connection = some "D".toList) := by decide +kernel
  obtain ⟨⟨h1, h2, h3⟩, h4⟩ := h c hc
  refine ⟨⟨⟨(cellText_iff _).mpr h1, h2, h3⟩, h4⟩, ?_⟩
  unfold exampleCaps at hc
  simp only [List.mem_cons, List.not_mem_nil, or_false] at hc
  rcases hc with rfl | rfl | rfl
  · exact ⟨"F".toList, capEnds "n1".toList "ACB".toList, by decide +kernel, rfl, rfl, by decide +kernel⟩
  · exact ⟨"F".toList, capEnds "n1".toList "ACB".toList, by decide +kernel, rfl, rfl, by decide +kernel⟩
  · exact ⟨"F".toList, capEnds "n2".toList "B".toList, by decide +kernel, rfl, rfl, by decide +kernel⟩

theorem exampleCaps_volt {c : CapIn ℚ} (hc : c ∈ exampleCaps) : c.voltage = some 14000 := by
  have : ∀ c ∈ exampleCaps, c.voltage = some 14000 := by decide +kernel
  exact this c hc

theorem two_full {c : CapIn ℚ} (hc : c ∈ exampleCaps.take 2) : ∀ p ∈ ['A', 'B', 'C'], varFor c p ≠ none := by
  have : ∀ c ∈ exampleCaps.take 2, c.phases = exampleCap.phases := by decide +kernel
  unfold varFor
  rw [this c hc]
  decide +kernel

theorem exampleCaps_read {c : CapIn ℚ} (hc : c ∈ exampleCaps) : Reads wholeRat ratText 2 c := by
  refine ⟨?_, ?_⟩
  · intro p x hx
    unfold varFor at hx
    have hm : x ∈ c.phases.filterMap (·.2) := by
      cases hf : c.phases.find? fun y => y.1 = p with
      | none => rw [hf] at hx; cases hx
      | some q =>
        rw [hf] at hx
        exact List.mem_filterMap.mpr ⟨q, List.mem_of_find?_eq_some hf, hx⟩
    have : ∀ c ∈ exampleCaps, ∀ x ∈ c.phases.filterMap (·.2), wholeRat (ratText (x / 1000)) = some (x / 1000) := by decide +kernel
    exact this c hc x hm
  · intro v hv
    rw [exampleCaps_volt hc] at hv
    injection hv with hv
    rw [← hv]
    decide +kernel

theorem capFile_written (caps : List (CapIn ℚ)) (h : ∀ l ∈ [ "[GENERAL]\n".toList, ['\n']], ¬"[SHUNT CAPACITOR SETTING]".toList <:+: l) :
    WrittenTable "[SHUNT CAPACITOR SETTING]".toList capSettingFormat (writeCapacitors ratText 2 id caps).2.1 (capNetworkFile caps) :=
  ⟨["[GENERAL]\n".toList], [['\n']], rfl, h, Or.inr ⟨[], rfl⟩⟩

theorem capEquipment_written (caps : List (CapIn ℚ)) :
    WrittenTable "[SHUNT CAPACITOR]".toList capFormat (writeCapacitors ratText 2 id caps).2.2 (capEquipmentFile caps) :=
  ⟨[], [], by rw [List.append_nil]; rfl, fun l hl => absurd hl List.not_mem_nil, Or.inl rfl⟩

theorem no_text {t : Text} {ls : List Text} (h : ∀ l ∈ ls, inText t l = false) : ∀ l ∈ ls, ¬t <:+: l := by
  intro l hl hc
  have := h l hl
  rw [(inText_iff _ _).mpr hc] at this
  cases this

example : ∃ back, parseCapacitors wholeRat 2 capSecs capFeeders (capNetworkFile (exampleCaps.take 2)) (capEquipmentFile (exampleCaps.take 2)) = .ok back ∧
      List.Forall₂ (fun c b => ∃ feeder, OnSection id capSecs capFeeders c feeder ∧ b = capBack id feeder c) (exampleCaps.take 2) back :=
  C81_back_partial wholeRat_blank ratText_cell (by decide) (by decide +kernel) (fun c hc => exampleCaps_ok c (List.mem_of_mem_take hc))
    (fun c hc => by rw [exampleCaps_volt (List.mem_of_mem_take hc)]; exact Option.some_ne_none _)
    (fun c hc => (exampleCaps_text c (List.mem_of_mem_take hc)).1) (fun _ hc => exampleCaps_read (List.mem_of_mem_take hc)) (fun _ hc => two_full hc)
    (fun c hc => (exampleCaps_text c (List.mem_of_mem_take hc)).2) rfl (capFile_written _ (no_text (by decide +kernel))) (no_text (by decide +kernel))
    (capEquipment_written _) (no_text (by decide +kernel))

/-- what is read back -/
example : parseCapacitors wholeRat 2 capSecs capFeeders (capNetworkFile (exampleCaps.take 1)) (capEquipmentFile (exampleCaps.take 1)) =
    .ok [⟨"Cap_n1_c1".toList, some "n1".toList, "F".toList, none, some "Y".toList, none, some 14000,
      [('A', some 3000), ('C', some 5000), ('B', some 4000)]⟩] := by
  decide +kernel

/-- with the capacitor that has a single phase -/
example : parseCapacitors wholeRat 2 capSecs capFeeders (capNetworkFile exampleCaps) (capEquipmentFile exampleCaps) = .error .valueError :=
  C81_missing_phase_violated wholeRat_blank (by decide) ratText_cell exampleCaps_ok (fun c hc => by rw [exampleCaps_volt hc]; exact Option.some_ne_none _)
    (fun c hc => (exampleCaps_text c hc).1) (fun _ hc => exampleCaps_read hc)
    ⟨{ exampleCap with element := "n2".toList, phases := [('B', some 6000)] }, by simp [exampleCaps], 'A', by decide, by decide +kernel⟩
    (fun c hc => (exampleCaps_text c hc).2) rfl (capFile_written _ (no_text (by decide +kernel))) (no_text (by decide +kernel))
    (capEquipment_written _) (no_text (by decide +kernel))

end Ditto.Cyme
