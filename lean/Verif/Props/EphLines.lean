import Verif.Lemmas.EphLines
import Verif.Props.EphBuses

/-! C109: the sheet Multiphase Line of an ePHASOR file. -/
namespace Ditto.Eph
open Ditto Ditto.Eph.Spec
open Ditto.Glm (Text)

variable {K : Type} [Field K] [DecidableEq K] {mile pi : K}

/-- C109: the sheet has a row for each line that is not a switch, in order. It has the line's name, the buses of its phases at both ends, its length in miles
and, for each pair of its phases, the impedance and the susceptance per mile. Missing: lines without a name, and numbers below the diagonal of a matrix. -/
theorem C109_lines_partial {lines : List (EphLine K)} {rows : List (LineRow K)} (h : lineSheet mile pi lines = .ok rows) :
    List.Forall₂ (LineSays mile pi) (plainLines lines) rows := by
  have h2 := Net.mapM_forall₂ h
  have e : (lines.filter fun l => l.isSwitch ≠ some true) = plainLines lines := by
    unfold plainLines
    congr 1
    funext l
    simp [bne, beq_eq_decide]
  rw [e] at h2
  exact h2.imp fun _ _ hr => (lineRow_ok hr).1

/-- C109: the sheet can be written just if no line that is not a switch has more than three phases at a known end, or a capacitance without a length. -/
theorem C109_line_sheet (lines : List (EphLine K)) : (∃ rows, lineSheet mile pi lines = .ok rows) ↔ ∀ l ∈ plainLines lines, LineOk l := by
  have e : (lines.filter fun l => l.isSwitch ≠ some true) = plainLines lines := by
    unfold plainLines
    congr 1
    funext l
    simp [bne, beq_eq_decide]
  unfold lineSheet
  rw [e]
  constructor
  · rintro ⟨rows, h⟩ l hl
    obtain ⟨r, -, hr⟩ := Glm.found_right (Net.mapM_forall₂ h) hl
    exact (lineRow_exists l).mp ⟨r, hr⟩
  · intro h
    have : ∀ ls : List (EphLine K), (∀ l ∈ ls, LineOk l) → ∃ rows, ls.mapM (lineRow mile pi) = .ok rows := by
      intro ls
      induction ls with
      | nil => exact fun _ => ⟨[], rfl⟩
      | cons l ls ih =>
        intro hl
        obtain ⟨r, hr⟩ := (lineRow_exists (mile := mile) (pi := pi) l).mpr (hl l List.mem_cons_self)
        obtain ⟨rs, hrs⟩ := ih fun l' hl' => hl l' (List.mem_cons_of_mem _ hl')
        exact ⟨r :: rs, by rw [List.mapM_cons, hr, hrs]; rfl⟩
    exact this _ h

/-- C109: if the matrix of a line is symmetric and has a row for each of at most three phases, then all its numbers can be found in the row. -/
theorem C109_symmetric {lines : List (EphLine K)} {rows : List (LineRow K)} (h : lineSheet mile pi lines = .ok rows) (hmile : mile ≠ 0) {l : EphLine K}
    (hl : l ∈ plainLines lines) {n : Nat} (hn : n ≤ 3) (hz : Square l.z n) : ∃ r ∈ rows, ∀ i j, i < n → j < n → ∃ a b,
      cellOf r.r (min i j) (max i j) = some a ∧ cellOf r.x (min i j) (max i j) = some b ∧ entryOf l.z i j = some (a * mile, b * mile) := by
  obtain ⟨r, hr, -, -, -, -, -, hrr, hrx, -⟩ := Glm.found_right (C109_lines_partial h) hl
  refine ⟨r, hr, fun i j hi hj => ?_⟩
  obtain ⟨z, hze⟩ := Option.isSome_iff_exists.mp ((hz.1 i j).mpr ⟨hi, hj⟩)
  have hmm : entryOf l.z (min i j) (max i j) = some z := by
    rcases Nat.le_total i j with hij | hij
    · rw [min_eq_left hij, max_eq_right hij]; exact hze
    · rw [min_eq_right hij, max_eq_left hij, hz.2]; exact hze
  refine ⟨z.1 / mile, z.2 / mile, ?_, ?_, ?_⟩
  · rw [hrr.2 _ _ (min_le_max) (by omega), hmm]; rfl
  · rw [hrx.2 _ _ (min_le_max) (by omega), hmm]; rfl
  · rw [hze, div_mul_cancel₀ _ hmile, div_mul_cancel₀ _ hmile]

/-- C109: numbers below the diagonal, and those of a fourth phase, are not written: matrices that differ only there give the same rows. -/
theorem C109_triangle_violated (lines lines' : List (EphLine K)) (l : EphLine K) (z z' c c' : List (List (K × K)))
    (hz : ∀ i j, i ≤ j → j < 3 → entryOf (some z) i j = entryOf (some z') i j) (hc : ∀ i j, i ≤ j → j < 3 → entryOf (some c) i j = entryOf (some c') i j) :
    lineSheet mile pi (lines ++ { l with z := some z, c := some c } :: lines') = lineSheet mile pi (lines ++ { l with z := some z', c := some c' } :: lines') ∨
      l.length = none := by
  by_cases hn : l.length = none
  · exact .inr hn
  · left
    have hrow : lineRow mile pi { l with z := some z, c := some c } = lineRow mile pi { l with z := some z', c := some c' } := by
      unfold lineRow
      simp only [hn, and_false, if_false]
      rw [columns_only (m := some z) (m' := some z') (fun z => z.1 / mile) (fun z => z.1 / mile) (fun i j h1 h2 => by rw [hz i j h1 h2]),
        columns_only (m := some z) (m' := some z') (fun z => z.2 / mile) (fun z => z.2 / mile) (fun i j h1 h2 => by rw [hz i j h1 h2]),
        columns_only (m := some c) (m' := some c') (susceptance mile pi) (susceptance mile pi) (fun i j h1 h2 => by rw [hc i j h1 h2])]
    unfold lineSheet
    rw [List.filter_append, List.filter_append, List.filter_cons, List.filter_cons]
    simp only
    split
    · rw [List.mapM_append, List.mapM_append, List.mapM_cons, List.mapM_cons, hrow]
    · rfl

/-- C109: all lines without a name get the same ID, the text None. -/
theorem C109_unnamed_violated {lines : List (EphLine K)} {rows : List (LineRow K)} (h : lineSheet mile pi lines = .ok rows) :
    List.Forall₂ (fun l r => l.name = none → r.id = "None".toList) (plainLines lines) rows := by
  have h2 := Net.mapM_forall₂ h
  have e : (lines.filter fun l => l.isSwitch ≠ some true) = plainLines lines := by
    unfold plainLines
    congr 1
    funext l
    simp [bne, beq_eq_decide]
  rw [e] at h2
  exact h2.imp fun _ _ hr => (lineRow_ok hr).2.1

/-- C109: the zero and positive sequence numbers are never written. -/
theorem C109_sequences_violated {lines : List (EphLine K)} {rows : List (LineRow K)} (h : lineSheet mile pi lines = .ok rows) :
    ∀ r ∈ rows, r.r0 = none ∧ r.x0 = none ∧ r.r1 = none ∧ r.x1 = none ∧ r.b0 = none ∧ r.b1 = none := by
  intro r hr
  obtain ⟨l, -, hl⟩ := Glm.found_left (Net.mapM_forall₂ h) hr
  exact (lineRow_ok hl).2.2

/-- C109: a single line with a capacitance, but an unknown length, makes the whole sheet fail. -/
theorem C109_length_violated (lines lines' : List (EphLine K)) (l : EphLine K) (hs : l.isSwitch ≠ some true) (hn : l.length = none) (hc : entryOf l.c 0 0 ≠ none)
    (rows : List (LineRow K)) : lineSheet mile pi (lines ++ l :: lines') ≠ .ok rows := by
  intro h
  have hl : l ∈ plainLines (lines ++ l :: lines') := by
    unfold plainLines
    rw [List.mem_filter]
    exact ⟨by simp, by simpa using hs⟩
  exact ((C109_line_sheet _).mp ⟨rows, h⟩ l hl).2 ⟨0, 0, hc⟩ hn

omit [DecidableEq K] in
/-- a bus of a node is in the sheet Bus -/
theorem bus_listed {root : K} {nodes : List (EphNode K)} {rows : List (BusRow K)} (h : busSheet root nodes = .ok rows) {n : EphNode K} (hn : n ∈ nodes) {e p b : Text}
    (he : n.name = some e) (hp : p.map Char.toLower ∈ lettersOf n.phases) (hb : BusOf e p b) : b ∈ rows.map (·.cells.bus) := by
  have hq : (n, p.map Char.toLower) ∈ places nodes := List.mem_flatMap.mpr ⟨n, hn, List.mem_map.mpr ⟨_, hp, rfl⟩⟩
  obtain ⟨r, hr, m, hm, hbus, -⟩ := Glm.found_right (C107_buses_partial h) hq
  simp only at hm hbus
  rw [he] at hm; cases hm
  refine List.mem_map.mpr ⟨r, hr, ?_⟩
  have := lowered_letter (letterPhases_letters hp)
  unfold lowered at this
  unfold BusOf at hb hbus
  rw [hbus, hb, this]

/-- C109: if the model has the nodes of all lines with their phases, then all buses of the sheet are in the sheet Bus. -/
theorem C109_listed_partial {root : K} {nodes : List (EphNode K)} {lines : List (EphLine K)} {buses : List (BusRow K)} {rows : List (LineRow K)}
    (h : busSheet root nodes = .ok buses) (hl : lineSheet mile pi lines = .ok rows) (hn : LinesHaveNodes nodes lines) :
    ∀ r ∈ rows, (∀ b ∈ r.source, b ∈ buses.map (·.cells.bus)) ∧ ∀ b ∈ r.sink, b ∈ buses.map (·.cells.bus) := by
  intro r hr
  obtain ⟨l, hll, -, h1, h2, -⟩ := Glm.found_left (C109_lines_partial hl) hr
  have key : ∀ element cells, EndSays l element cells → (∀ e, element = some e → l.source = some e ∨ l.sink = some e) → ∀ b ∈ cells, b ∈ buses.map (·.cells.bus) := by
    intro element cells hs hor b hb
    cases element with
    | none => rw [hs.1 rfl] at hb; cases hb
    | some e =>
      obtain ⟨p, hp, hbo⟩ := Glm.found_left (hs.2 e rfl) hb
      obtain ⟨n, hnn, hne, hnp⟩ := hn l hll e (hor e rfl) p hp
      exact bus_listed h hnn hne hnp hbo
  exact ⟨key _ _ h1 fun e he => .inl he, key _ _ h2 fun e he => .inr he⟩

/-- C109: a switch of which an end is missing is in neither of the sheets Multiphase Line and Switch. -/
theorem C109_neither_violated (lines lines' : List (EphLine K)) (l : EphLine K) (sw : EphSwitch) (hs : l.isSwitch = some true) (hsame : sw.isSwitch = l.isSwitch ∧
    sw.source = l.source ∧ sw.sink = l.sink) (hend : l.source = none ∨ l.sink = none) (sws sws' : List EphSwitch) :
    lineSheet mile pi (lines ++ l :: lines') = lineSheet mile pi (lines ++ lines') ∧
      ∀ rows, switchSheet (sws ++ sw :: sws') = .ok rows ↔ switchSheet (sws ++ sws') = .ok rows := by
  constructor
  · unfold lineSheet
    rw [List.filter_append, List.filter_append, List.filter_cons, if_neg (by simp [hs])]
  · have hp : poles (sws ++ sw :: sws') = poles (sws ++ sws') := by
      unfold poles
      rw [List.flatMap_append, List.flatMap_append, List.flatMap_cons]
      have : polesOf sw = [] := by
        unfold polesOf
        rw [if_neg]
        unfold connects
        rw [hsame.2.1, hsame.2.2]
        rcases hend with he | he <;> simp [he]
      rw [this]; rfl
    intro rows
    rw [C107_switches, C107_switches, hp]

/-- a line of two phases -/
def exTwoPhase : EphLine ℚ where
  isSwitch := none
  name := some "l1".toList
  source := some "n1".toList
  sink := some "n2".toList
  length := some 1000
  wires := [some ['B'], some ['N'], none, some ['C']]
  z := some [[(2, 3), (1, 4)], [(1, 4), (5, 6)]]
  c := some [[(7, 0), (0, 0)], [(0, 0), (8, 0)]]

/-- a switch without an end -/
def exEndless : EphLine ℚ := { exTwoPhase with isSwitch := some true, sink := none }

/-- a line without a length -/
def exUnmeasured : EphLine ℚ := { exTwoPhase with length := none }

/-- its row, with a mile of 1000 m -/
def exLineRow : LineRow ℚ where
  source := ["n1_b".toList, "n1_c".toList]
  sink := ["n2_b".toList, "n2_c".toList]
  id := "l1".toList
  mode := "full".toList
  length := some 1
  r := [some 2000, some 1000, some 5000, none, none, none]
  x := [some 3000, some 4000, some 6000, none, none, none]
  b := [some 2520, some 0, some 2880, none, none, none]

example : lineSheet (1 / 1000) 3 [exEndless, exTwoPhase] = .ok [exLineRow] := by decide +kernel
example : lineSheet (1 / 1000) 3 [exUnmeasured] = .error .typeError := by decide +kernel
example : plainLines [exEndless, exTwoPhase] = [exTwoPhase] ∧ linePhases exTwoPhase = [['B'], ['C']] := by decide +kernel
example : exUnmeasured.isSwitch ≠ some true ∧ entryOf exUnmeasured.c 0 0 ≠ none := by decide +kernel
example : Square exTwoPhase.z 2 := by
  constructor
  · rintro (_ | _ | i) (_ | _ | j) <;> simp [entryOf, exTwoPhase]
  · rintro (_ | _ | i) (_ | _ | j) <;> simp [entryOf, exTwoPhase]
example : (busSheet (2 : ℚ) [⟨some "n1".toList, some 4, [some ['B'], some ['C']]⟩, ⟨some "n2".toList, some 4, [some ['c'], some ['B']]⟩]).toOption.isSome ∧
    LinesHaveNodes [⟨some "n1".toList, some 4, [some ['B'], some ['C']]⟩, ⟨some "n2".toList, some 4, [some ['c'], some ['B']]⟩] [exTwoPhase] := by
  constructor
  · decide +kernel
  · intro l hl e he
    have : l = exTwoPhase := by
      have : plainLines [exTwoPhase] = [exTwoPhase] := by decide +kernel
      rw [this] at hl; simpa using hl
    subst this
    have : e = "n1".toList ∨ e = "n2".toList := by
      rcases he with he | he <;> cases he
      · exact .inl rfl
      · exact .inr rfl
    rcases this with rfl | rfl <;> decide +kernel

end Ditto.Eph
