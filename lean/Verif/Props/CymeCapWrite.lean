import Verif.Lemmas.CymeCapWrite
import Mathlib.Algebra.Field.Rat
import Mathlib.Algebra.Order.Ring.Rat

/-! C81: the capacitors that the CYME writer writes. -/
namespace Ditto.Cyme
open Ditto Glm Spec

section numbers
variable {K : Type} [Field K] [LinearOrder K]

/-- the row of a line of equipment -/
def equipmentLine (eq line : Text) : Text := eq ++ ',' :: stripCommas line ++ ",0,0,0".toList

/-- what is written, in terms of the lines of the equipment -/
theorem caps_written (pr : K → Text) (s3 : K) (hash : Text → Text) (caps : List (CapIn K)) :
    ∃ (names lines : List Text) (k : CapIn K → Nat),
      writeCapacitors pr s3 hash caps = (caps.map (capSectionRow hash), caps.map (fun c => capRow pr s3 (capSection hash c) c [k c]), lines) ∧
      names.Nodup ∧ (∀ n ∈ names, ∃ k : Nat, n = "capacitor_".toList ++ k.repr.toList) ∧
      List.Forall₂ (fun name line => ∃ c ∈ caps, line = equipmentLine name (capObject pr s3 c)) names lines ∧
      ∀ c ∈ caps, capName (k c) ∈ names ∧ equipmentLine (capName (k c)) (capObject pr s3 c) ∈ lines := by
  obtain ⟨c1, -, c3, c4, c5⟩ := capRows_eq pr s3 hash caps [] List.nodup_nil
  generalize hC : (capRows pr s3 hash [] caps).2 = C at c1 c3 c4 c5
  have hidx : ∀ c ∈ caps, (capObject pr s3 c, C.idxOf (capObject pr s3 c) + 1) ∈ C.zipIdx 1 := by
    intro c hc
    rw [List.mk_mem_zipIdx_iff_le_and_getElem?_sub]
    refine ⟨Nat.le_add_left 1 _, ?_⟩
    rw [Nat.add_sub_cancel]
    exact List.getElem?_idxOf (c3 c hc)
  refine ⟨(C.zipIdx 1).map fun p => capName p.2, capEquipmentRows C, fun c => C.idxOf (capObject pr s3 c) + 1, ?_, ?_, ?_, ?_, ?_⟩
  · unfold writeCapacitors
    rw [c5, hC]
  · rw [show ((C.zipIdx 1).map fun p => capName p.2) = ((C.zipIdx 1).map (·.2)).map capName by rw [List.map_map]; rfl, List.zipIdx_map_snd]
    exact List.Nodup.map (fun a b => capName_inj) List.nodup_range'
  · intro n hn
    obtain ⟨p, -, rfl⟩ := List.mem_map.mp hn
    exact ⟨p.2, rfl⟩
  · unfold capEquipmentRows
    rw [List.forall₂_map_left_iff, List.forall₂_map_right_iff, List.forall₂_same]
    intro p hp
    obtain ⟨hi, -, h2⟩ := List.mem_zipIdx (x := p.1) (i := p.2) hp
    obtain ⟨c, hc, hl⟩ := (c4 p.1 (by rw [h2]; exact List.getElem_mem _)).resolve_left List.not_mem_nil
    exact ⟨c, hc, by rw [hl]; rfl⟩
  · intro c hc
    exact ⟨List.mem_map.mpr ⟨_, hidx c hc, rfl⟩, List.mem_map.mpr ⟨_, hidx c hc, rfl⟩⟩

/-- C81. Each capacitor gets a section with its phases, and a row with its power in each phase, its voltage, its control and the name of equipment with
the power of a phase and the voltage. The names of the equipment are different. Missing are capacitors without voltage (`C81_no_voltage_violated`),
without power (`C81_no_power_violated`), and ones that are controlled by the current (`C81_current_violated`). -/
theorem C81_capacitors_partial {pr : K → Text} (hpr : ∀ x, ',' ∉ pr x ∧ pr x ≠ []) (s3 : K) (hash : Text → Text) {caps : List (CapIn K)}
    (hok : ∀ c ∈ caps, CapOk c) (hvolt : ∀ c ∈ caps, c.voltage ≠ none)
    (hmode : ∀ c ∈ caps, ∀ m, c.mode = some m → m.map Char.toLower ≠ "currentflow".toList) :
    ∃ secs rows lines names, writeCapacitors pr s3 hash caps = (secs, rows, lines) ∧
      names.Nodup ∧ (∀ n ∈ names, ∃ k : Nat, n = "capacitor_".toList ++ k.repr.toList) ∧
      List.Forall₂ (fun c row => row = joinCells [sectionOfCap hash c, c.element, "0".toList, c.name, "0".toList, capLetters c]) caps secs ∧
      List.Forall₂ (fun name line => ∃ c ∈ caps, ∃ x v, IsOneVar c x ∧ c.voltage = some v ∧ line = joinCells (capEquipment pr s3 name c x v))
        names lines ∧
      List.Forall₂ (fun c row => ∃ eq ∈ names, ∃ x v code, IsOneVar c x ∧ c.voltage = some v ∧ IsMode c.mode code ∧
        row = joinCells (firstCells pr hash c ++ kvFor pr s3 c v :: lastCells pr hash c code eq) ∧
        joinCells (capEquipment pr s3 eq c x v) ∈ lines) caps rows := by
  obtain ⟨names, lines, k, h1, h2, h3, h4, h5⟩ := caps_written pr s3 hash caps
  have volt : ∀ c ∈ caps, ∃ v, c.voltage = some v := fun c hc => Option.ne_none_iff_exists'.mp (hvolt c hc)
  refine ⟨_, _, lines, names, h1, h2, h3, ?_, ?_, ?_⟩
  · rw [List.forall₂_map_right_iff, List.forall₂_same]
    intro c hc
    unfold capSectionRow
    rw [join_commas, capSection_eq]
    rfl
  · refine h4.imp ?_
    rintro name line ⟨c, hc, rfl⟩
    obtain ⟨v, hv⟩ := volt c hc
    exact ⟨c, hc, _, v, oneVar_eq (hok c hc), hv, equipment_full hpr (hok c hc) hv name⟩
  · rw [List.forall₂_map_right_iff, List.forall₂_same]
    intro c hc
    obtain ⟨v, hv⟩ := volt c hc
    refine ⟨capName (k c), (h5 c hc).1, _, v, modeField c.mode, oneVar_eq (hok c hc), hv, modeField_ok (hmode c hc), ?_, ?_⟩
    · rw [capRow_cells hash (hok c hc).letters (hok c hc).once]
      unfold kvFields
      rw [hv]
      rfl
    · rw [← equipment_full hpr (hok c hc) hv]
      exact (h5 c hc).2

/-! ### where it fails -/

/-- A capacitor that is controlled by the current is written as one whose control is not known. -/
theorem C81_current_violated (pr : K → Text) (s3 : K) (hash : Text → Text) {caps : List (CapIn K)} (hok : ∀ c ∈ caps, PhasesOk c) :
    ∃ secs rows lines, writeCapacitors pr s3 hash caps = (secs, rows, lines) ∧
      List.Forall₂ (fun c row => ∀ m v, c.mode = some m → m.map Char.toLower = "currentflow".toList → c.voltage = some v →
        ∃ eq, row = joinCells (firstCells pr hash c ++ kvFor pr s3 c v :: lastCells pr hash c "0".toList eq)) caps rows := by
  obtain ⟨names, lines, k, h1, -⟩ := caps_written pr s3 hash caps
  refine ⟨_, _, lines, h1, ?_⟩
  rw [List.forall₂_map_right_iff, List.forall₂_same]
  intro c hc m v hm hlow hv
  refine ⟨capName (k c), ?_⟩
  rw [capRow_cells hash (hok c hc).letters (hok c hc).once]
  have : modeField c.mode = "0".toList := by
    rw [hm]
    unfold modeField
    dsimp only
    rw [hlow]
    decide
  unfold kvFields
  rw [hv, this]
  rfl

/-- In the row of a capacitor without voltage, the control stands in the column of the voltage, and so on: it has one cell less than there are
columns. -/
theorem C81_no_voltage_violated (pr : K → Text) (s3 : K) (hash : Text → Text) {caps : List (CapIn K)} (hok : ∀ c ∈ caps, PhasesOk c) :
    ∃ secs rows lines, writeCapacitors pr s3 hash caps = (secs, rows, lines) ∧
      List.Forall₂ (fun c row => c.voltage = none → ∃ code eq, row = joinCells (firstCells pr hash c ++ lastCells pr hash c code eq) ∧
        (firstCells pr hash c ++ lastCells pr hash c code eq).length = 16 ∧ (Net.splitCh ',' capSettingFormat).length = 17) caps rows := by
  obtain ⟨names, lines, k, h1, -⟩ := caps_written pr s3 hash caps
  refine ⟨_, _, lines, h1, ?_⟩
  rw [List.forall₂_map_right_iff, List.forall₂_same]
  intro c hc hv
  refine ⟨modeField c.mode, capName (k c), ?_, rfl, by decide +kernel⟩
  rw [capRow_cells hash (hok c hc).letters (hok c hc).once]
  unfold kvFields
  rw [hv]
  rfl

/-- The equipment of a capacitor whose powers add up to 0 or less has the voltage in the column of the power. -/
theorem C81_no_power_violated {pr : K → Text} (hpr : ∀ x, ',' ∉ pr x ∧ pr x ≠ []) (s3 : K) (hash : Text → Text) {caps : List (CapIn K)}
    (hok : ∀ c ∈ caps, PhasesOk c) :
    ∃ secs rows lines, writeCapacitors pr s3 hash caps = (secs, rows, lines) ∧
      List.Forall₂ (fun c row => (c.phases.filterMap (·.2)).sum ≤ 0 → ∀ v, c.voltage = some v →
        ∃ eq code, row = joinCells (firstCells pr hash c ++ kvFor pr s3 c v :: lastCells pr hash c code eq) ∧
          joinCells [eq, kvFor pr s3 c v, "0".toList, "0".toList, "0".toList] ∈ lines) caps rows := by
  obtain ⟨names, lines, k, h1, -, -, -, h5⟩ := caps_written pr s3 hash caps
  refine ⟨_, _, lines, h1, ?_⟩
  rw [List.forall₂_map_right_iff, List.forall₂_same]
  intro c hc hp v hv
  refine ⟨capName (k c), modeField c.mode, ?_, ?_⟩
  · rw [capRow_cells hash (hok c hc).letters (hok c hc).once]
    unfold kvFields
    rw [hv]
    rfl
  · rw [← equipment_unpowered hpr hp hv]
    exact (h5 c hc).2

end numbers

/-! ### examples -/

/-- a number as numerator and denominator, without its sign -/
def ratText (x : ℚ) : Text := x.num.natAbs.repr.toList ++ '/' :: x.den.repr.toList

theorem ratText_plain (x : ℚ) {c : Char} (hd : c.isDigit = false) (hs : c ≠ '/') : c ∉ ratText x := by
  unfold ratText
  rw [List.mem_append, List.mem_cons, not_or, not_or]
  exact ⟨Dss.not_mem_repr hd _, hs, Dss.not_mem_repr hd _⟩

theorem ratText_ok (x : ℚ) : ',' ∉ ratText x ∧ ratText x ≠ [] := ⟨ratText_plain x (by decide) (by decide), by simp [ratText]⟩

/-- a capacitor with three phases -/
def exampleCap : CapIn ℚ where
  name := "c1".toList
  element := "n1".toList
  connection := some "Y".toList
  phases := [('A', some 3000), ('C', some 5000), ('B', some 4000)]
  voltage := some 14000
  mode := some "Voltage".toList
  low := some 118
  high := some 123

/-- the capacitors of the example, two with the same equipment and one with a single phase -/
def exampleCaps : List (CapIn ℚ) :=
  [exampleCap, { exampleCap with name := "c2".toList, connection := some "D".toList, mode := none, low := none },
    { exampleCap with element := "n2".toList, phases := [('B', some 6000)] }]

theorem exampleCaps_ok : ∀ c ∈ exampleCaps, CapOk c := by
  intro c hc
  have h : (∀ p ∈ capLetters c, p = 'A' ∨ p = 'B' ∨ p = 'C') ∧ (capLetters c).Nodup ∧ 0 < (c.phases.filterMap (·.2)).sum := by
    revert hc
    revert c
    decide +kernel
  exact ⟨⟨h.1, h.2.1⟩, h.2.2⟩

example : ∃ secs rows lines names, writeCapacitors ratText 2 id exampleCaps = (secs, rows, lines) ∧
      names.Nodup ∧ (∀ n ∈ names, ∃ k : Nat, n = "capacitor_".toList ++ k.repr.toList) ∧
      List.Forall₂ (fun c row => row = joinCells [sectionOfCap id c, c.element, "0".toList, c.name, "0".toList, capLetters c]) exampleCaps secs ∧
      List.Forall₂ (fun name line => ∃ c ∈ exampleCaps, ∃ x v, IsOneVar c x ∧ c.voltage = some v ∧ line = joinCells (capEquipment ratText 2 name c x v))
        names lines ∧
      List.Forall₂ (fun c row => ∃ eq ∈ names, ∃ x v code, IsOneVar c x ∧ c.voltage = some v ∧ IsMode c.mode code ∧
        row = joinCells (firstCells ratText id c ++ kvFor ratText 2 c v :: lastCells ratText id c code eq) ∧
        joinCells (capEquipment ratText 2 eq c x v) ∈ lines) exampleCaps rows :=
  C81_capacitors_partial ratText_ok 2 id exampleCaps_ok (by decide +kernel) (by
    intro c hc m hm
    have : ∀ c ∈ exampleCaps, c.mode = none ∨ c.mode = some "Voltage".toList := by decide +kernel
    rcases this c hc with h | h <;> rw [h] at hm
    · cases hm
    · injection hm with hm
      rw [← hm]
      decide)

/-- the rows of the example -/
example : writeCapacitors ratText 2 id exampleCaps = (
    ["n1_c1,n1,0,c1,0,ACB".toList, "n1_c2,n1,0,c2,0,ACB".toList, "n2_c1,n2,0,c1,0,B".toList],
    ["n1_c1,Y,3/1,4/1,5/1,7/1,1,118/1,118/1,118/1,123/1,123/1,123/1,n1_c1,capacitor_1,S,0".toList,
      "n1_c2,D,3/1,4/1,5/1,7/1,,,,,123/1,123/1,123/1,n1_c2,capacitor_1,S,0".toList,
      "n2_c1,Y,,6/1,,14/1,1,118/1,118/1,118/1,123/1,123/1,123/1,n2_c1,capacitor_2,S,0".toList],
    ["capacitor_1,5/1,7/1,0,0,0".toList, "capacitor_2,6/1,14/1,0,0,0".toList]) := by
  decide +kernel

/-- the rows of capacitors without voltage, without power, and with control by the current -/
example : writeCapacitors ratText 2 id [{ exampleCap with voltage := none }, { exampleCap with phases := [('A', some 0), ('B', some 0)] },
      { exampleCap with mode := some "currentFlow".toList }] = (
    ["n1_c1,n1,0,c1,0,ACB".toList, "n1_c1,n1,0,c1,0,AB".toList, "n1_c1,n1,0,c1,0,ACB".toList],
    ["n1_c1,Y,3/1,4/1,5/1,1,118/1,118/1,118/1,123/1,123/1,123/1,n1_c1,capacitor_1,S,0".toList,
      "n1_c1,Y,0/1,0/1,,7/1,1,118/1,118/1,118/1,123/1,123/1,123/1,n1_c1,capacitor_2,S,0".toList,
      "n1_c1,Y,3/1,4/1,5/1,7/1,0,118/1,118/1,118/1,123/1,123/1,123/1,n1_c1,capacitor_3,S,0".toList],
    ["capacitor_1,5/1,0,0,0".toList, "capacitor_2,7/1,0,0,0".toList, "capacitor_3,5/1,7/1,0,0,0".toList]) := by
  decide +kernel

end Ditto.Cyme
