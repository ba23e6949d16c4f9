import Verif.Props.SynDevices

/-! C100: matrices of the lines of Synergi databases; and databases whose lines can be read (C98). -/
namespace Ditto.Syn
open Ditto Glm Syn.Spec

section
variable {num : Text → Option ℚ} {db : LineDb} {ls : List SynLine}

theorem size_count : ∀ ps ∈ (['A', 'B', 'C', 'N'] : List Char).sublists', matrixSize ps =
    if ps.length = 1 ∨ ps.length = 0 then none else some (ps.filter (· ≠ 'N')).length := by decide

theorem count_le : ∀ ps ∈ (['A', 'B', 'C', 'N'] : List Char).sublists', 2 ≤ ps.length →
    (ps.filter (· ≠ 'N')).length = 1 ∨ (ps.filter (· ≠ 'N')).length = 2 ∨ (ps.filter (· ≠ 'N')).length = 3 := by decide

theorem matrixOf_balanced {V : Type} {n : Nat} (h : n = 1 ∨ n = 2 ∨ n = 3) (a b : V) : matrixOf n a b = balanced n a b := by
  rcases h with rfl | rfl | rfl <;> rfl

theorem matricesOf_of {k : Scale} (hk : scaleOf db.units = some k) (ps : List Char) (c : CondRow) :
    matricesOf (lower db.units) ps c = .ok ((matrixSize ps).map fun n =>
      (matrixOf n ((c.r0 + 2 * c.r1) / 3 * k.perLong, (c.x0 + 2 * c.x1) / 3 * k.perLong) ((c.r0 - c.r1) / 3 * k.perLong, (c.x0 - c.x1) / 3 * k.perLong),
        matrixOf n (2 * c.b1 / 3 * k.perLong / 376.9911) (-c.b1 / 3 * k.perLong / 376.9911))) := by
  unfold matricesOf
  rw [inMeters_of hk rfl, inMeters_of hk rfl, inMeters_of hk rfl, inMeters_of hk rfl, inMeters_of hk rfl]
  dsimp only
  congr 1
  congr 1
  funext n
  congr 2
  · rw [Prod.mk.injEq]; constructor <;> ring
  · rw [Prod.mk.injEq]; constructor <;> ring
  · ring
  · ring

theorem lineMatrices_of {cap : Option (Rows ℚ)} {r : LineRow} {k : Scale} (hk : scaleOf db.units = some k) {c : CondRow} (hc : ConductorIs db r.conductor c) :
    lineMatrices (lowerLineDb db) cap (lowerLine r) = match (matrixSize (phasesOf r.sec)).map fun n =>
      (matrixOf n ((c.r0 + 2 * c.r1) / 3 * k.perLong, (c.x0 + 2 * c.x1) / 3 * k.perLong) ((c.r0 - c.r1) / 3 * k.perLong, (c.x0 - c.x1) / 3 * k.perLong),
        matrixOf n (2 * c.b1 / 3 * k.perLong / 376.9911) (-c.b1 / 3 * k.perLong / 376.9911)) with
      | some (z, c) => .ok (some z, c)
      | none => match cap with
        | none => .error .unboundLocalError
        | some c => .ok (none, c) := by
  unfold lineMatrices
  have h1 : (lowerLineDb db).conds.find? (fun x => decide (x.name = (lowerLine r).conductor)) = some (lowerCond c) :=
    first_of (low := lowerCond) (key := CondRow.name) (fun _ => rfl) hc.1 hc.2.1 hc.2.2
  rw [h1]
  dsimp only
  have h2 : matricesOf (lowerLineDb db).units (secPhases (lowerLine r).sec.phases) (lowerCond c) = matricesOf (lower db.units) (phasesOf r.sec) c := by
    show matricesOf (lower db.units) (secPhases (lowerSec r.sec).phases) (lowerCond c) = _
    rw [secPhases_lower]
    rfl
  rw [h2, matricesOf_of hk]
  cases matrixSize (phasesOf r.sec) <;> rfl

theorem ordered_mem {s : SecRow} (h : Ordered s) : phasesOf s ∈ (['A', 'B', 'C', 'N'] : List Char).sublists' := List.mem_sublists'.mpr h

/-- Each line with at least two letters in the order A, B, C, N and a conductor that is the only one with its name has the impedance matrix of the
sequence impedances, in Ohm per meter, with one row for each phase. The capacitance matrix has the same number of rows, and the difference of its entries
is the one of the positive sequence. Missing: the zero sequence of the capacitance (`C100_capacitance_violated`), lines with one letter and unknown
conductors (`C100_stale_violated`, `C100_first_violated`). -/
theorem C100_matrices_partial (h : readLines num db = .ok ls) : List.Forall₂ (fun r l => ∀ c k, ConductorIs db r.conductor c → scaleOf db.units = some k →
    Ordered r.sec → 2 ≤ (phasesOf r.sec).length → l.impedance = some (seqImpedance (phaseCount r.sec) k c) ∧
      ∃ a b, l.capacitance = balanced (phaseCount r.sec) a b ∧ a - b = c.b1 * k.perLong / 376.9911) (lineRows db) ls := by
  obtain ⟨feeders, hf, hl⟩ := rows_ok h
  refine hl.imp ?_
  rintro r l ⟨cap, h0⟩ c k hc hk ho h2
  obtain ⟨e, f, hm⟩ := line_facts h0
  rw [lineMatrices_of hk hc, size_count _ (ordered_mem ho), if_neg (by omega)] at hm
  have h3 := count_le _ (ordered_mem ho) h2
  simp only [Option.map_some, Except.ok.injEq, Prod.mk.injEq] at hm
  obtain ⟨h4, h5⟩ := hm
  rw [matrixOf_balanced h3] at h4 h5
  refine ⟨h4.symm, _, _, h5.symm, ?_⟩
  ring

/-- With currents of the same value in the three phases the voltages per meter are the ones of the zero sequence impedance; with currents whose sum is zero, of
the positive sequence impedance. -/
theorem C100_sequence (h : readLines num db = .ok ls) : List.Forall₂ (fun r l => ∀ c k z, ConductorIs db r.conductor c → scaleOf db.units = some k →
    Ordered r.sec → phaseCount r.sec = 3 → l.impedance = some z →
      (∀ i, voltagesOf z [i, i, i] = [times (c.r0 * k.perLong, c.x0 * k.perLong) i, times (c.r0 * k.perLong, c.x0 * k.perLong) i, times (c.r0 * k.perLong, c.x0 * k.perLong) i]) ∧
      ∀ i j m, i + j + m = 0 → voltagesOf z [i, j, m] =
        [times (c.r1 * k.perLong, c.x1 * k.perLong) i, times (c.r1 * k.perLong, c.x1 * k.perLong) j, times (c.r1 * k.perLong, c.x1 * k.perLong) m])
    (lineRows db) ls := by
  refine (C100_matrices_partial h).imp ?_
  intro r l hrl c k z hc hk ho h3 hz
  have h2 : 2 ≤ (phasesOf r.sec).length := by
    have : phaseCount r.sec ≤ (phasesOf r.sec).length := List.length_filter_le _ _
    omega
  have e := (hrl c k hc hk ho h2).1
  rw [hz, h3] at e
  injection e with e
  subst e
  have em : ∃ a b, seqImpedance 3 k c = [[a, b, b], [b, a, b], [b, b, a]] ∧
      a = ((c.r0 + 2 * c.r1) / 3 * k.perLong, (c.x0 + 2 * c.x1) / 3 * k.perLong) ∧ b = ((c.r0 - c.r1) / 3 * k.perLong, (c.x0 - c.x1) / 3 * k.perLong) :=
    ⟨_, _, rfl, rfl, rfl⟩
  obtain ⟨a, b, em, ha, hb⟩ := em
  rw [em]
  subst ha hb
  constructor
  · intro i
    simp only [voltagesOf, List.map_cons, List.map_nil, List.zipWith_cons_cons, List.zipWith_nil_left, List.sum_cons, List.sum_nil, times]
    simp only [List.cons.injEq, Prod.ext_iff, Prod.fst_add, Prod.snd_add, Prod.fst_zero, Prod.snd_zero, and_true]
    refine ⟨⟨?_, ?_⟩, ⟨?_, ?_⟩, ?_, ?_⟩ <;> ring
  · rintro ⟨i1, i2⟩ ⟨j1, j2⟩ ⟨m1, m2⟩ h0
    rw [Prod.ext_iff] at h0
    obtain ⟨a1, a2⟩ := h0
    simp only [Prod.fst_add, Prod.snd_add, Prod.fst_zero, Prod.snd_zero] at a1 a2
    have b1 : m1 = -i1 - j1 := by rw [← sub_eq_zero]; rw [← a1]; ring
    have b2 : m2 = -i2 - j2 := by rw [← sub_eq_zero]; rw [← a2]; ring
    subst b1 b2
    simp only [voltagesOf, List.map_cons, List.map_nil, List.zipWith_cons_cons, List.zipWith_nil_left, List.sum_cons, List.sum_nil, times]
    simp only [List.cons.injEq, Prod.ext_iff, Prod.fst_add, Prod.snd_add, Prod.fst_zero, Prod.snd_zero, and_true]
    refine ⟨⟨?_, ?_⟩, ⟨?_, ?_⟩, ?_, ?_⟩ <;> ring

/-- The rows of the capacitance matrix of each line with three phases have the sum zero, whatever the zero sequence susceptance is; so the matrix is not the
one of the sequences unless this susceptance is zero. -/
theorem C100_capacitance_violated (h : readLines num db = .ok ls) : List.Forall₂ (fun r l => ∀ c k, ConductorIs db r.conductor c → scaleOf db.units = some k →
    Ordered r.sec → phaseCount r.sec = 3 → (∀ row ∈ l.capacitance, row.sum = 0) ∧ (c.b0 ≠ 0 → l.capacitance ≠ seqCapacitance 3 k c)) (lineRows db) ls := by
  obtain ⟨feeders, hf, hl⟩ := rows_ok h
  refine hl.imp ?_
  rintro r l ⟨cap, h0⟩ c k hc hk ho h3
  obtain ⟨e, f, hm⟩ := line_facts h0
  have h2 : 2 ≤ (phasesOf r.sec).length := by
    have : phaseCount r.sec ≤ (phasesOf r.sec).length := List.length_filter_le _ _
    omega
  rw [lineMatrices_of hk hc, size_count _ (ordered_mem ho), if_neg (by omega)] at hm
  simp only [Option.map_some, Except.ok.injEq, Prod.mk.injEq] at hm
  obtain ⟨_, h5⟩ := hm
  have h3' : ((phasesOf r.sec).filter (· ≠ 'N')).length = 3 := h3
  rw [h3'] at h5
  have hs : ∀ row ∈ l.capacitance, row.sum = 0 := by
    rw [← h5]
    intro row hrow
    simp only [matrixOf, List.mem_cons, List.not_mem_nil, or_false] at hrow
    rcases hrow with rfl | rfl | rfl <;> simp only [List.sum_cons, List.sum_nil] <;> ring
  refine ⟨hs, fun hb he => ?_⟩
  have hp : k.perLong ≠ 0 := by
    unfold scaleOf at hk
    split at hk
    · injection hk with hk; subst hk; norm_num
    · split at hk
      · injection hk with hk; subst hk; norm_num
      · split at hk
        · injection hk with hk; subst hk; norm_num
        · cases hk
  have h6 := hs [(c.b0 + 2 * c.b1) / 3 * k.perLong / 376.9911, (c.b0 - c.b1) / 3 * k.perLong / 376.9911, (c.b0 - c.b1) / 3 * k.perLong / 376.9911]
    (by rw [he]; exact List.mem_cons_self)
  simp only [List.sum_cons, List.sum_nil] at h6
  have : c.b0 * k.perLong / 376.9911 = 0 := by rw [← h6]; ring
  rw [div_eq_zero_iff] at this
  rcases this with h | h
  · rcases mul_eq_zero.mp h with h | h
    · exact hb h
    · exact hp h
  · norm_num at h

theorem linesFrom_split {feeders subs : List (Text × Text)} {d : LineDb} : ∀ {cap : Option (Rows ℚ)} {rows : List LineRow} {a b : List SynLine} {l m : SynLine},
    linesFrom num feeders subs d cap rows = .ok (a ++ l :: m :: b) → ∃ r ∈ rows, readLine num feeders subs d (some l.capacitance) r = .ok m
  | _, [], a, b, l, m, h => by
    injection h with h
    cases a <;> cases h
  | cap, r :: rest, a, b, l, m, h => by
    unfold linesFrom at h
    cases hr : readLine num feeders subs d cap r with
    | error e => rw [hr] at h; cases h
    | ok x =>
      rw [hr] at h
      dsimp only at h
      cases ht : linesFrom num feeders subs d (some x.capacitance) rest with
      | error e => rw [ht] at h; cases h
      | ok y =>
        rw [ht] at h
        injection h with h
        cases a with
        | nil =>
          injection h with h1 h2
          subst h1 h2
          cases rest with
          | nil => cases ht
          | cons s rest =>
            unfold linesFrom at ht
            cases hs : readLine num feeders subs d (some x.capacitance) s with
            | error e => rw [hs] at ht; cases ht
            | ok z =>
              rw [hs] at ht
              dsimp only at ht
              cases hq : linesFrom num feeders subs d (some z.capacitance) rest with
              | error e => rw [hq] at ht; cases ht
              | ok q =>
                rw [hq] at ht
                injection ht with ht
                injection ht with h3 _
                subst h3
                exact ⟨s, .tail _ (.head _), hs⟩
        | cons a0 a =>
          injection h with h1 h2
          subst h2
          obtain ⟨s, hs, h3⟩ := linesFrom_split ht
          exact ⟨s, .tail _ hs, h3⟩

theorem lineMatrices_none {d : LineDb} {cap : Rows ℚ} {r : LineRow} {c : Rows ℚ} (h : lineMatrices d (some cap) r = .ok (none, c)) : c = cap := by
  unfold lineMatrices at h
  split at h
  · cases h
  · cases h
  · simp only [Except.ok.injEq, Prod.mk.injEq, true_and] at h
    exact h.symm

/-- A line without impedance matrix has the capacitance matrix of the line before it. -/
theorem C100_stale_violated {a b : List SynLine} {l m : SynLine} (h : readLines num db = .ok (a ++ l :: m :: b)) (hm : m.impedance = none) :
    m.capacitance = l.capacitance := by
  obtain ⟨feeders, hf, hl⟩ := readLines_ok h
  obtain ⟨r, hr, h0⟩ := linesFrom_split hl
  obtain ⟨length, v, e, ws, z, c, h1, h2, h3, h4, h5, rfl⟩ := readLine_ok h0
  have hz : z = none := hm
  subst hz
  exact lineMatrices_none h5

/-- A line with one letter, or whose conductor is unknown, has no impedance matrix. -/
theorem C100_none_violated (h : readLines num db = .ok ls) : List.Forall₂ (fun r l => ((phasesOf r.sec).length = 1 ∨ ∀ c ∈ db.conds, ¬Same c.name r.conductor) →
    l.impedance = none) (lineRows db) ls := by
  obtain ⟨feeders, hf, hl⟩ := rows_ok h
  refine hl.imp ?_
  rintro r l ⟨cap, h0⟩ hr
  obtain ⟨e, f, hm⟩ := line_facts h0
  generalize l.impedance = z at hm
  generalize l.capacitance = c at hm
  unfold lineMatrices at hm
  cases hc : (lowerLineDb db).conds.find? (fun x => decide (x.name = (lowerLine r).conductor)) with
  | none =>
    rw [hc] at hm
    dsimp only at hm
    cases cap with
    | none => cases hm
    | some x => simp only [Except.ok.injEq, Prod.mk.injEq] at hm; exact hm.1.symm
  | some x =>
    rcases hr with hr | hr
    · obtain ⟨k, hk, _⟩ := f.length
      rw [hc] at hm
      dsimp only at hm
      have e1 : matricesOf (lowerLineDb db).units (secPhases (lowerLine r).sec.phases) x = matricesOf (lower db.units) (phasesOf r.sec) x := by
        show matricesOf (lower db.units) (secPhases (lowerSec r.sec).phases) x = _
        rw [secPhases_lower]
      have e2 : matrixSize (phasesOf r.sec) = none := by simp only [matrixSize, hr]
      rw [e1, matricesOf_of hk, e2] at hm
      simp only [Option.map_none] at hm
      cases cap with
      | none => cases hm
      | some y => simp only [Except.ok.injEq, Prod.mk.injEq] at hm; exact hm.1.symm
    · have e1 := List.find?_some hc
      obtain ⟨y, hy, rfl⟩ := List.mem_map.mp (List.mem_of_find?_eq_some hc)
      exact absurd (of_decide_eq_true e1) (hr y hy)

/-- A database whose first line has one letter or an unknown conductor cannot be read. -/
theorem C100_first_violated {r : LineRow} {rest : List LineRow} (hr : lineRows db = r :: rest) (h0 : (phasesOf r.sec).length = 1 ∨ ∀ c ∈ db.conds, ¬Same c.name r.conductor) :
    ¬∃ ls, readLines num db = .ok ls := by
  rintro ⟨ls, h⟩
  obtain ⟨feeders, hf, hl⟩ := readLines_ok h
  have hz := C100_none_violated h
  rw [hr] at hz hl
  cases hz with
  | cons hz _ =>
    rename_i l ls
    have hz := hz h0
    rw [List.map_cons] at hl
    unfold linesFrom at hl
    split at hl
    · cases hl
    · rename_i x hx
      split at hl
      · cases hl
      · injection hl with hl
        injection hl with hl _
        subst hl
        obtain ⟨e, f, hm⟩ := line_facts hx
        rw [hz] at hm
        unfold lineMatrices at hm
        split at hm
        · cases hm
        · cases hm
        · cases hm

theorem pair_unique {R : Type} {key : R → Text} {n : Text} : ∀ {rows : List R}, (rows.Pairwise fun a b => ¬Same (key a) (key b)) →
    (rows.filter fun d => decide (Same (key d) n)) = [] ∨ ∃ d ∈ rows, (rows.filter fun d => decide (Same (key d) n)) = [d]
  | [], _ => .inl rfl
  | a :: rows, h => by
    rw [List.pairwise_cons] at h
    by_cases ha : Same (key a) n
    · right
      refine ⟨a, List.mem_cons_self, ?_⟩
      rw [List.filter_cons, if_pos (decide_eq_true ha), List.filter_eq_nil_iff.mpr]
      intro x hx e
      exact h.1 x hx (ha.trans (of_decide_eq_true e : Same (key x) n).symm)
    · rw [List.filter_cons, if_neg (by simpa using ha)]
      rcases pair_unique h.2 with h1 | ⟨d, hd, h1⟩
      · exact .inl h1
      · exact .inr ⟨d, .tail _ hd, h1⟩

theorem recloserOf_values {rows : List CutRow} {sec : Text} (h : (rows.filter fun r => decide (r.sec = sec)) = [] ∨ ∃ d, (rows.filter fun r => decide (r.sec = sec)) = [d]) :
    (recloserOf rows sec ⟨false, false, false, none⟩) = ⟨false, false, false, none⟩ ∨ ∃ v, recloserOf rows sec ⟨false, false, false, none⟩ = ⟨true, false, false, some v⟩ := by
  unfold recloserOf
  rcases h with h | ⟨d, h⟩ <;> rw [h]
  · exact .inl rfl
  · exact .inr ⟨_, rfl⟩

/-- devices with ratings, or none -/
def Rated (e : Equip) : Prop := (e.recloser = false ∧ e.isSwitch = false ∧ e.fuse = false) ∨ ∃ v, e.values = some v

theorem equip_of (hc : Complete num db) (n : Text) : ∃ e, equipOf (lowerLineDb db) (lower n) = .ok e ∧ Rated e := by
  have h1 : Rated (recloserOf (lowerLineDb db).reclosers (lower n) ⟨false, false, false, none⟩) := by
    unfold recloserOf
    rw [reclosers_sec]
    rcases pair_unique (n := n) hc.reclosers with h | ⟨d, _, h⟩ <;> rw [h]
    · exact .inl ⟨rfl, rfl, rfl⟩
    · exact .inr ⟨_, rfl⟩
  have h2 : ∃ e, switchOf (lowerLineDb db).switches (lowerLineDb db).devSwitches (lower n)
      (recloserOf (lowerLineDb db).reclosers (lower n) ⟨false, false, false, none⟩) = .ok e ∧ Rated e := by
    unfold switchOf
    rw [switches_sec]
    rcases pair_unique (n := n) hc.switches with h | ⟨d, hd, h⟩ <;> rw [h]
    · exact ⟨_, rfl, h1⟩
    · simp only [List.map_cons, List.map_nil]
      obtain ⟨t, ht, hs⟩ := hc.types d hd
      cases hf : switchType (lowerLineDb db).devSwitches (lowerSwitch d).type with
      | none =>
        unfold switchType at hf
        rw [List.find?_eq_none] at hf
        exact absurd (decide_eq_true hs) (hf (lowerDevSwitch t) (List.mem_reverse.mpr (List.mem_map_of_mem ht)))
      | some x => exact ⟨_, rfl, .inr ⟨_, rfl⟩⟩
  obtain ⟨e1, h3, h4⟩ := h2
  have h5 : Rated (fuseOf (lowerLineDb db).fuses (lower n) e1) := by
    unfold fuseOf
    rw [fuses_sec]
    rcases pair_unique (n := n) hc.fuses with h | ⟨d, _, h⟩ <;> rw [h]
    · exact h4
    · exact .inr ⟨_, rfl⟩
  refine ⟨_, ?_, h5⟩
  unfold equipOf
  rw [h3]
  dsimp only
  unfold protectorOf
  split
  · rename_i p hp
    have hm : p ∈ (lowerLineDb db).protectors := (List.mem_filter.mp (by rw [hp]; exact List.mem_cons_self)).1
    obtain ⟨q, hq, rfl⟩ := List.mem_map.mp hm
    split
    · rename_i t ht
      have hm2 := List.mem_filter.mp (show t ∈ (lowerLineDb db).protectorTypes.filter _ by rw [ht]; exact List.mem_cons_self)
      obtain ⟨s, hs, rfl⟩ := List.mem_map.mp hm2.1
      exact absurd (of_decide_eq_true hm2.2 : lower s = lower q.2).symm (hc.protectors q hq s hs)
    · rfl
  · rfl

/-- Databases that are complete in this sense can be read. -/
theorem C98_reads (hc : Complete num db) : ∃ ls, readLines num db = .ok ls := by
  have hnd : (((db.lines.map (·.sec)).map lowerSec).map (·.id)).Nodup :=
    ids_nodup (List.pairwise_map.mpr hc.names)
  obtain ⟨feeders, hf⟩ := sectionFeeders_of hnd
  obtain ⟨k, hk⟩ := Option.isSome_iff_exists.mp hc.units
  unfold readLines linesOfTables
  rw [lineSecs_eq, lineRows_eq, hf]
  dsimp only
  apply linesFrom_of
  intro cap x hx
  obtain ⟨r, hr, rfl⟩ := List.mem_map.mp hx
  have hr := mem_lineRows hr
  obtain ⟨v, hv⟩ := hc.voltage r hr
  obtain ⟨e, he, hra⟩ := equip_of hc r.sec.id
  obtain ⟨hl1, hl2⟩ := hc.letters r hr
  obtain ⟨hc1, c, hc2, hc3⟩ := hc.conductors r hr
  have w0 : ∃ v, wireValues e = .ok v := by
    unfold wireValues
    rcases hra with ⟨a1, a2, a3⟩ | ⟨v, hv⟩
    · rw [a1, a2, a3]; exact ⟨_, rfl⟩
    · rw [hv]
      split
      · exact ⟨_, rfl⟩
      · exact ⟨_, rfl⟩
  obtain ⟨wv, hwv⟩ := w0
  obtain ⟨w1, w2, w3, w4⟩ := wv
  have hwires : ∃ ws, wiresFrom (lowerLineDb db) (lowerLine r) e 0 (phasesOf r.sec) = .ok ws := by
    apply wiresFrom_of
    intro i p hp
    rw [Nat.zero_add]
    have hn : ∃ name, wireConductor (lowerLine r) i p = some name := by
      unfold wireConductor
      split
      · exact ⟨_, rfl⟩
      · rename_i hN
        match i, hp with
        | 0, _ => exact ⟨_, if_pos fun e => hc1 (lower_nil.mp e)⟩
        | 1, _ => exact ⟨_, rfl⟩
        | 2, _ => exact ⟨_, rfl⟩
        | 3, hp =>
          obtain ⟨q1, q2⟩ := hc.fourth r hr p hp
          exact absurd ⟨q1, fun e => q2 (lower_nil.mp e)⟩ hN
        | n + 4, hp =>
          have := (List.getElem?_eq_some_iff.mp hp).1
          omega
    obtain ⟨name, hn⟩ := hn
    unfold readWire
    rw [hwv]
    dsimp only
    rw [hn]
    dsimp only
    split
    · exact ⟨_, rfl⟩
    · exact withConductor_of hk _ _
  obtain ⟨ws, hws⟩ := hwires
  have hmat : ∃ z, lineMatrices (lowerLineDb db) cap (lowerLine r) = .ok z := by
    unfold lineMatrices
    cases hfind : (lowerLineDb db).conds.find? (fun x => decide (x.name = (lowerLine r).conductor)) with
    | none =>
      rw [List.find?_eq_none] at hfind
      exact absurd (decide_eq_true hc3) (hfind (lowerCond c) (List.mem_map_of_mem hc2))
    | some x =>
      dsimp only
      have e1 : matricesOf (lowerLineDb db).units (secPhases (lowerLine r).sec.phases) x = matricesOf (lower db.units) (phasesOf r.sec) x := by
        show matricesOf (lower db.units) (secPhases (lowerSec r.sec).phases) x = _
        rw [secPhases_lower]
      have e2 : ∃ n, matrixSize (phasesOf r.sec) = some n := by
        unfold matrixSize
        have : (phasesOf r.sec).length = 2 ∨ (phasesOf r.sec).length = 3 ∨ (phasesOf r.sec).length = 4 := by omega
        rcases this with h | h | h <;> simp only [h]
        · by_cases hN : (phasesOf r.sec).getLast? = some 'N'
          · exact ⟨_, if_pos hN⟩
          · exact ⟨_, if_neg hN⟩
        · by_cases hN : (phasesOf r.sec).getLast? = some 'N'
          · exact ⟨_, if_pos hN⟩
          · exact ⟨_, if_neg hN⟩
        · exact ⟨_, rfl⟩
      obtain ⟨n, e2⟩ := e2
      rw [e1, matricesOf_of hk, e2]
      exact ⟨_, rfl⟩
  obtain ⟨⟨z, m⟩, hmat⟩ := hmat
  unfold readLine
  have l1 : inMeters (lowerLineDb db).units .MUL (lowerLine r).length = .ok (r.length * k.medium) := inMeters_of hk rfl _
  have l2 : lineVoltage num (lowerLine r).sec.description = .ok v := lineVoltage_kv hv
  have l3 : equipOf (lowerLineDb db) (lowerLine r).sec.id = .ok e := he
  have l4 : wiresFrom (lowerLineDb db) (lowerLine r) e 0 (secPhases (lowerLine r).sec.phases) = .ok ws := by
    show wiresFrom _ _ _ 0 (secPhases (lowerSec r.sec).phases) = _
    rw [secPhases_lower]
    exact hws
  rw [l1]
  dsimp only
  rw [l2]
  dsimp only
  rw [l3]
  dsimp only
  rw [l4]
  dsimp only
  rw [hmat]
  exact ⟨_, rfl⟩

end

/-! Examples. -/

/-- a conductor with a concentric neutral if `outside` is greater than 1 -/
def exCond (name : Text) (outside : ℚ) : CondRow := ⟨name, 2, 1, 3, 3, 6, 9, 12, 5, 7, 100, 200, 1 / 10, 16, 8, outside, 5 / 4⟩

/-- a section from N1 to N2 -/
def exLineSec (id phases : Text) : SecRow := ⟨id, "F 1".toList, phases, "N1".toList, "N2".toList, "Line-12".toList⟩

/-- a line of this kind -/
def exLineRow (id phases note conductor : Text) : LineRow := ⟨exLineSec id phases, 100, 30, note, conductor, "NEU".toList, "CFG".toList⟩

/-- `float` of the example -/
def exFloat (t : Text) : Option ℚ := if t = "12".toList then some 12 else none

/-- a database with an overhead line that is a recloser, an underground line that is a switch, a line that is a fuse, and a section with a regulator -/
def exLineDb : LineDb where
  feederTable := [("F 1".toList, "S 1".toList)]
  skipped := ["REG".toList]
  units := "English2".toList
  lines := [exLineRow "L 1".toList "A B C N".toList "Overhead".toList "ACSR 1".toList, exLineRow "REG".toList "ABC".toList "Overhead".toList "ACSR 1".toList,
    exLineRow "L 2".toList "A N".toList "Underground".toList "CABLE".toList, exLineRow "L 3".toList "AB".toList "x".toList "CABLE".toList]
  conds := [exCond "acsr 1".toList 1, exCond "CABLE".toList 2, exCond "neu".toList 1]
  confs := [⟨"cfg".toList, (1, 2), (3, 4), (5, 6), (7, 8)⟩]
  reclosers := [⟨"l 1".toList, 600, 900, true⟩]
  switches := [⟨"L 2".toList, "sw".toList, false⟩]
  devSwitches := [⟨"SW".toList, 300, 400⟩]
  fuses := [⟨"L 3".toList, 50, 60, true⟩]
  protectors := []
  protectorTypes := ["P".toList]

theorem exComplete : Complete exFloat exLineDb where
  names := by unfold exLineDb; decide +kernel
  units := by unfold exLineDb; decide +kernel
  voltage := by
    intro r hr
    refine ⟨12000, "line".toList, "12".toList, 12, ?_, by decide +kernel, by decide +kernel, by norm_num⟩
    revert r
    unfold exLineDb
    decide +kernel
  letters := by unfold exLineDb; decide +kernel
  fourth := by
    have : ∀ r ∈ exLineDb.lines, (phasesOf r.sec)[3]? = none ∨ (phasesOf r.sec)[3]? = some 'N' ∧ r.neutral ≠ [] := by unfold exLineDb; decide +kernel
    intro r hr c hc
    rcases this r hr with h | ⟨h, h'⟩
    · rw [h] at hc; cases hc
    · rw [h] at hc; injection hc with hc; exact ⟨hc.symm, h'⟩
  conductors := by unfold exLineDb; decide +kernel
  reclosers := by unfold exLineDb; decide +kernel
  switches := by unfold exLineDb; decide +kernel
  fuses := by unfold exLineDb; decide +kernel
  types := by unfold exLineDb; decide +kernel
  protectors := by unfold exLineDb; decide +kernel

example : ∃ ls, readLines exFloat exLineDb = .ok ls ∧ ls.length = 3 ∧ (∀ l ∈ ls, l.wires ≠ []) := by
  obtain ⟨ls, h⟩ := C98_reads exComplete
  refine ⟨ls, h, ?_⟩
  have hd : (match readLines exFloat exLineDb with | .ok ls => decide (ls.length = 3 ∧ ∀ l ∈ ls, l.wires ≠ []) | .error _ => false) = true := by
    decide +kernel
  rw [h] at hd
  exact of_decide_eq_true hd

/-- the second line is underground and has no wire for the neutral; its wire has a concentric neutral -/
example : (match readLines exFloat exLineDb with
    | .ok [l1, l2, l3] => decide (l1.wires.map (·.phase) = ['A', 'B', 'C', 'N'] ∧ l2.wires.map (·.phase) = ['A'] ∧ l3.wires.map (·.nameclass) =
        ["Swgearbuscable".toList, "Swgearbuscable".toList] ∧ l2.wires.map (·.concentric.isSome) = [true] ∧ l1.impedance.map List.length = some 3 ∧
        l1.wires.map (·.isOpen) = [some true, some true, some true, some true] ∧ l2.wires.map (·.ampacity) = [some 300] ∧ l1.length = 30.48)
    | _ => false) = true := by decide +kernel

example : ConductorIs exLineDb (exLineRow "L 2".toList "A N".toList "Underground".toList "CABLE".toList).conductor (exCond "CABLE".toList 2) :=
  ⟨.tail _ (.head _), rfl, by unfold exLineDb; decide +kernel⟩

example : ConfigIs exLineDb (exLineRow "L 2".toList "A N".toList "Underground".toList "CABLE".toList) ⟨"cfg".toList, (1, 2), (3, 4), (5, 6), (7, 8)⟩ :=
  ⟨by decide, .head _, rfl, by unfold exLineDb; decide +kernel⟩

example : OnlyCut exLineDb.reclosers (exLineRow "L 1".toList "A B C N".toList "Overhead".toList "ACSR 1".toList) ⟨"l 1".toList, 600, 900, true⟩ :=
  ⟨[], [], rfl, by decide +kernel, by simp⟩

example : OnlySwitch exLineDb.switches (exLineRow "L 2".toList "A N".toList "Underground".toList "CABLE".toList) ⟨"L 2".toList, "sw".toList, false⟩ :=
  ⟨[], [], rfl, by decide +kernel, by simp⟩

example : Ordered (exLineSec "L 1".toList "A B C N".toList) ∧ phaseCount (exLineSec "L 1".toList "A B C N".toList) = 3 := by
  constructor
  · unfold Ordered; decide +kernel
  · decide +kernel

/-- the database with these lines -/
def exWith (lines : List LineRow) : LineDb := { exLineDb with lines := lines, switches := [], fuses := [] }

/-- the second line has no matrices of its own -/
def exStale : LineDb := exWith [exLineRow "L 2".toList "ABC".toList "Overhead".toList "CABLE".toList, exLineRow "L 3".toList "A".toList "Overhead".toList "CABLE".toList]

example : (match readLines exFloat exStale with
    | .ok [l, m] => decide (m.impedance = none ∧ m.capacitance = l.capacitance ∧ m.capacitance.length = 3)
    | _ => false) = true := by decide +kernel

/-- the first line has one letter -/
def exFirst : LineDb := exWith [exLineRow "L 3".toList "A".toList "Overhead".toList "CABLE".toList]

example : ¬∃ ls, readLines exFloat exFirst = .ok ls :=
  C100_first_violated (r := exLineRow "L 3".toList "A".toList "Overhead".toList "CABLE".toList) (rest := []) (by decide +kernel) (.inl (by decide +kernel))

example : readLines exFloat exFirst = .error .unboundLocalError := by decide +kernel

/-- the first line has no conductor -/
def exBare : LineDb := exWith [exLineRow "L 3".toList "AB".toList "Overhead".toList []]

example : readLines exFloat exBare = .error .typeError := by decide +kernel

example : ¬∃ ls, readLines exFloat exBare = .ok ls :=
  C98_conductor_violated (r := exLineRow "L 3".toList "AB".toList "Overhead".toList []) (p := 'A') (ps := ['B']) (by unfold exBare; decide +kernel) (by decide +kernel)
    (by decide) rfl

/-- two reclosers in one section -/
def exTwo : LineDb :=
  { exWith [exLineRow "L 1".toList "ABC".toList "Overhead".toList "CABLE".toList] with reclosers := [⟨"l 1".toList, 600, 900, true⟩, ⟨"L 1".toList, 600, 900, true⟩] }

example : readLines exFloat exTwo = .error .typeError := by decide +kernel

example : ¬∃ ls, readLines exFloat exTwo = .ok ls :=
  C99_two_violated (r := exLineRow "L 1".toList "ABC".toList "Overhead".toList "CABLE".toList) (a := []) (b := []) (c := []) (by unfold exTwo; decide +kernel) (by decide +kernel) rfl
    (by decide +kernel) (by decide +kernel) (by rintro ⟨d, hd, _⟩; cases hd) (by rintro ⟨d, hd, _⟩; cases hd)

/-- a section with a protective device -/
def exProtector : LineDb :=
  { exWith [exLineRow "L 2".toList "ABC".toList "Overhead".toList "CABLE".toList] with protectors := [("L 2".toList, "p".toList)] }

example : readLines exFloat exProtector = .error .attributeError := by decide +kernel

example : ¬∃ ls, readLines exFloat exProtector = .ok ls :=
  C99_protector_violated (r := exLineRow "L 2".toList "ABC".toList "Overhead".toList "CABLE".toList) (a := []) (b := []) (d := ("L 2".toList, "p".toList)) (a' := []) (b' := [])
    (t := "P".toList) (by unfold exProtector; decide +kernel) rfl (by decide +kernel) (by simp) rfl (by decide +kernel) (by simp)

end Ditto.Syn
