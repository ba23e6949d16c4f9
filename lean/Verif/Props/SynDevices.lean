import Verif.Props.SynLines

/-! C99: reclosers, switches, fuses and protective devices of Synergi databases. -/
namespace Ditto.Syn
open Ditto Glm Syn.Spec

section
variable {num : Text → Option ℚ} {db : LineDb} {ls : List SynLine}

theorem filter_only {R : Type} {rows a b : List R} {p : R → Bool} {d : R} (h : rows = a ++ d :: b) (h1 : p d = true) (h2 : ∀ x ∈ a ++ b, p x = false) :
    rows.filter p = [d] := by
  subst h
  have ha : a.filter p = [] := List.filter_eq_nil_iff.mpr fun x hx => by rw [h2 x (List.mem_append_left _ hx)]; decide
  have hb : b.filter p = [] := List.filter_eq_nil_iff.mpr fun x hx => by rw [h2 x (List.mem_append_right _ hx)]; decide
  rw [List.filter_append, List.filter_cons, if_pos h1, ha, hb]
  rfl

theorem filter_some {R : Type} {rows : List R} {p : R → Bool} : (rows.filter p ≠ []) ↔ ∃ d ∈ rows, p d = true := by
  rw [ne_eq, List.filter_eq_nil_iff]
  push Not
  rfl

theorem recloserOf_flags (rows : List CutRow) (sec : Text) (e : Equip) :
    (recloserOf rows sec e).isSwitch = e.isSwitch ∧ (recloserOf rows sec e).fuse = e.fuse ∧
      ((recloserOf rows sec e).recloser = true ↔ e.recloser = true ∨ rows.filter (fun r => decide (r.sec = sec)) ≠ []) := by
  unfold recloserOf
  cases h : rows.filter (fun r => decide (r.sec = sec)) with
  | nil => exact ⟨rfl, rfl, by simp⟩
  | cons a l =>
    cases l with
    | nil => exact ⟨rfl, rfl, by simp⟩
    | cons b l => exact ⟨rfl, rfl, by simp⟩

theorem fuseOf_flags (rows : List CutRow) (sec : Text) (e : Equip) :
    (fuseOf rows sec e).isSwitch = e.isSwitch ∧ (fuseOf rows sec e).recloser = e.recloser ∧
      ((fuseOf rows sec e).fuse = true ↔ e.fuse = true ∨ rows.filter (fun r => decide (r.sec = sec)) ≠ []) := by
  unfold fuseOf
  cases h : rows.filter (fun r => decide (r.sec = sec)) with
  | nil => exact ⟨rfl, rfl, by simp⟩
  | cons a l =>
    cases l with
    | nil => exact ⟨rfl, rfl, by simp⟩
    | cons b l => exact ⟨rfl, rfl, by simp⟩

theorem switchOf_flags {rows : List SwitchRow} {devs : List DevSwitchRow} {sec : Text} {e e' : Equip} (h : switchOf rows devs sec e = .ok e') :
    e'.recloser = e.recloser ∧ e'.fuse = e.fuse ∧ (e'.isSwitch = true ↔ e.isSwitch = true ∨ rows.filter (fun r => decide (r.sec = sec)) ≠ []) := by
  unfold switchOf at h
  cases hf : rows.filter (fun r => decide (r.sec = sec)) with
  | nil =>
    rw [hf] at h
    injection h with h
    subst h
    exact ⟨rfl, rfl, by simp⟩
  | cons a l =>
    rw [hf] at h
    cases l with
    | nil =>
      dsimp only at h
      cases ht : switchType devs a.type with
      | none => rw [ht] at h; cases h
      | some d =>
        rw [ht] at h
        injection h with h
        subst h
        exact ⟨rfl, rfl, by simp⟩
    | cons b l =>
      injection h with h
      subst h
      exact ⟨rfl, rfl, by simp⟩

theorem protectorOf_ok {rows : List (Text × Text)} {types : List Text} {sec : Text} {e e' : Equip} (h : protectorOf rows types sec e = .ok e') : e' = e := by
  unfold protectorOf at h
  split at h
  · split at h
    · cases h
    · injection h with h; exact h.symm
  · injection h with h; exact h.symm

theorem equipOf_ok {d : LineDb} {sec : Text} {e : Equip} (h : equipOf d sec = .ok e) : ∃ e1,
    switchOf d.switches d.devSwitches sec (recloserOf d.reclosers sec ⟨false, false, false, none⟩) = .ok e1 ∧ e = fuseOf d.fuses sec e1 := by
  unfold equipOf at h
  cases h1 : switchOf d.switches d.devSwitches sec (recloserOf d.reclosers sec ⟨false, false, false, none⟩) with
  | error x => rw [h1] at h; cases h
  | ok e1 =>
    rw [h1] at h
    exact ⟨e1, rfl, protectorOf_ok h⟩

theorem reclosers_sec (n : Text) : ((lowerLineDb db).reclosers.filter fun d => decide (d.sec = lower n)) =
    (db.reclosers.filter fun d => decide (Same d.sec n)).map lowerCut := filter_sec db.reclosers (key := CutRow.sec) (fun _ => rfl) n

theorem fuses_sec (n : Text) : ((lowerLineDb db).fuses.filter fun d => decide (d.sec = lower n)) =
    (db.fuses.filter fun d => decide (Same d.sec n)).map lowerCut := filter_sec db.fuses (key := CutRow.sec) (fun _ => rfl) n

theorem switches_sec (n : Text) : ((lowerLineDb db).switches.filter fun d => decide (d.sec = lower n)) =
    (db.switches.filter fun d => decide (Same d.sec n)).map lowerSwitch := filter_sec db.switches (key := SwitchRow.sec) (fun _ => rfl) n

theorem hasCut_iff {rows : List CutRow} {r : LineRow} : HasCut rows r ↔ (rows.filter fun d => decide (Same d.sec r.sec.id)) ≠ [] := by
  rw [filter_some]
  simp only [decide_eq_true_eq]
  rfl

theorem hasSwitch_iff {r : LineRow} : HasSwitch db r ↔ (db.switches.filter fun d => decide (Same d.sec r.sec.id)) ≠ [] := by
  rw [filter_some]
  simp only [decide_eq_true_eq]
  rfl

theorem onlyCut_filter {rows : List CutRow} {r : LineRow} {d : CutRow} (h : OnlyCut rows r d) : (rows.filter fun x => decide (Same x.sec r.sec.id)) = [d] := by
  obtain ⟨a, b, h1, h2, h3⟩ := h
  exact filter_only h1 (decide_eq_true h2) fun x hx => decide_eq_false (h3 x hx)

theorem onlySwitch_filter {r : LineRow} {d : SwitchRow} (h : OnlySwitch db.switches r d) :
    (db.switches.filter fun x => decide (Same x.sec r.sec.id)) = [d] := by
  obtain ⟨a, b, h1, h2, h3⟩ := h
  exact filter_only h1 (decide_eq_true h2) fun x hx => decide_eq_false (h3 x hx)

theorem equip_flags {r : LineRow} {e : Equip} (h : equipOf (lowerLineDb db) (lower r.sec.id) = .ok e) :
    (e.recloser = true ↔ HasCut db.reclosers r) ∧ (e.isSwitch = true ↔ HasSwitch db r) ∧ (e.fuse = true ↔ HasCut db.fuses r) := by
  obtain ⟨e1, h1, rfl⟩ := equipOf_ok h
  obtain ⟨a1, a2, a3⟩ := fuseOf_flags (lowerLineDb db).fuses (lower r.sec.id) e1
  obtain ⟨b1, b2, b3⟩ := switchOf_flags h1
  obtain ⟨c1, c2, c3⟩ := recloserOf_flags (lowerLineDb db).reclosers (lower r.sec.id) ⟨false, false, false, none⟩
  rw [hasCut_iff, hasSwitch_iff, hasCut_iff]
  rw [reclosers_sec, ne_eq, List.map_eq_nil_iff] at c3
  rw [fuses_sec, ne_eq, List.map_eq_nil_iff] at a3
  rw [switches_sec, ne_eq, List.map_eq_nil_iff] at b3
  rw [a2, b1, c3, a1, b3, c1, a3, b2, c2]
  refine ⟨?_, ?_, ?_⟩ <;> simp

theorem values_fuse {r : LineRow} {e : Equip} (h : equipOf (lowerLineDb db) (lower r.sec.id) = .ok e) {d : CutRow} (hd : OnlyCut db.fuses r d) :
    e.values = some (d.rating, d.interrupt, d.isOpen) := by
  obtain ⟨e1, h1, rfl⟩ := equipOf_ok h
  unfold fuseOf
  rw [fuses_sec, onlyCut_filter hd]
  rfl

theorem values_switch {r : LineRow} {e : Equip} (h : equipOf (lowerLineDb db) (lower r.sec.id) = .ok e) {d : SwitchRow} (hd : OnlySwitch db.switches r d)
    {t : DevSwitchRow} (ht : SwitchTypeIs db d t) (hf : ¬HasCut db.fuses r) : e.values = some (t.continuous, t.emergency, d.isOpen) := by
  obtain ⟨e1, h1, rfl⟩ := equipOf_ok h
  rw [hasCut_iff, ne_eq, not_not] at hf
  unfold fuseOf
  rw [fuses_sec, hf]
  show e1.values = _
  unfold switchOf at h1
  rw [switches_sec, onlySwitch_filter hd] at h1
  simp only [List.map_cons, List.map_nil] at h1
  have hty : switchType (lowerLineDb db).devSwitches (lowerSwitch d).type = some (lowerDevSwitch t) :=
    last_of (low := lowerDevSwitch) (key := DevSwitchRow.name) (fun _ => rfl) ht.1 ht.2.1 ht.2.2
  rw [hty] at h1
  injection h1 with h1
  subst h1
  rfl

theorem values_recloser {r : LineRow} {e : Equip} (h : equipOf (lowerLineDb db) (lower r.sec.id) = .ok e) {d : CutRow} (hd : OnlyCut db.reclosers r d)
    (hs : ¬HasSwitch db r) (hf : ¬HasCut db.fuses r) : e.values = some (d.rating, d.interrupt, d.isOpen) := by
  obtain ⟨e1, h1, rfl⟩ := equipOf_ok h
  rw [hasCut_iff, ne_eq, not_not] at hf
  rw [hasSwitch_iff, ne_eq, not_not] at hs
  unfold fuseOf
  rw [fuses_sec, hf]
  show e1.values = _
  unfold switchOf at h1
  rw [switches_sec, hs] at h1
  injection h1 with h1
  subst h1
  unfold recloserOf
  rw [reclosers_sec, onlyCut_filter hd]
  rfl

theorem onlyCut_has {rows : List CutRow} {r : LineRow} {d : CutRow} (h : OnlyCut rows r d) : HasCut rows r := by
  obtain ⟨a, b, h1, h2, h3⟩ := h
  exact ⟨d, by rw [h1]; simp, h2⟩

theorem wireValues_some {e : Equip} {v : Option ℚ × Option ℚ × Option ℚ × Option Bool} (h : wireValues e = .ok v)
    (hd : e.recloser = true ∨ e.isSwitch = true ∨ e.fuse = true) :
    ∃ x, e.values = some x ∧ v = (some x.1, some x.2.1, if e.recloser || e.fuse then some x.2.1 else none, some x.2.2) := by
  unfold wireValues at h
  have : (e.recloser || e.isSwitch || e.fuse) = true := by
    rcases hd with h | h | h <;> simp [h]
  rw [if_pos this] at h
  cases hv : e.values with
  | none => rw [hv] at h; cases h
  | some x =>
    obtain ⟨x1, x2, x3⟩ := x
    rw [hv] at h
    injection h with h
    exact ⟨_, rfl, h.symm⟩

/-- Each line and its wires are a recloser, a switch or a fuse if the section has one; the wires have the ratings and the state of the device, if it is the
only one. Missing: sections with two devices of the same sort (`C99_two_violated`) and protective devices (`C99_protector_violated`). -/
theorem C99_devices_partial (h : readLines num db = .ok ls) : List.Forall₂ (DevicesAt db) (lineRows db) ls := by
  obtain ⟨feeders, hf, hl⟩ := rows_ok h
  refine hl.imp ?_
  rintro r l ⟨cap, h0⟩
  obtain ⟨e, f, _⟩ := line_facts h0
  obtain ⟨f1, f2, f3⟩ := equip_flags f.equip
  obtain ⟨g1, g2, g3⟩ := f.flags
  refine ⟨by rw [g1]; exact f1, by rw [g2]; exact f2, by rw [g3]; exact f3, ?_, ?_, ?_, ?_, ?_⟩
  · intro w hw
    obtain ⟨i, hi, fw⟩ := f.wire hw
    rw [g1, g2, g3]
    exact fw.flags
  · intro d hd hs hf w hw
    obtain ⟨i, hi, fw⟩ := f.wire hw
    obtain ⟨v, hv, i1, i2, i3, i4, _⟩ := fw.values
    have hr := f1.mpr (onlyCut_has hd)
    obtain ⟨x, hx, rfl⟩ := wireValues_some hv (.inl hr)
    rw [values_recloser f.equip hd hs hf] at hx
    injection hx with hx
    subst hx
    rw [hr] at i1
    exact ⟨i3 _ rfl, i4 _ rfl, i1, i2⟩
  · intro d t hd ht hr hf w hw
    obtain ⟨i, hi, fw⟩ := f.wire hw
    obtain ⟨v, hv, i1, i2, i3, i4, _⟩ := fw.values
    have hs : HasSwitch db r := by
      obtain ⟨a, b, h1, h2, h3⟩ := hd
      exact ⟨d, by rw [h1]; simp, h2⟩
    obtain ⟨x, hx, rfl⟩ := wireValues_some hv (.inr (.inl (f2.mpr hs)))
    rw [values_switch f.equip hd ht hf] at hx
    injection hx with hx
    subst hx
    have n1 : e.recloser = false := Bool.eq_false_iff.mpr fun h => hr (f1.mp h)
    have n2 : e.fuse = false := Bool.eq_false_iff.mpr fun h => hf (f3.mp h)
    rw [n1, n2] at i1
    exact ⟨i3 _ rfl, i4 _ rfl, i1, i2⟩
  · intro d hd w hw
    obtain ⟨i, hi, fw⟩ := f.wire hw
    obtain ⟨v, hv, i1, i2, i3, i4, _⟩ := fw.values
    have hr := f3.mpr (onlyCut_has hd)
    obtain ⟨x, hx, rfl⟩ := wireValues_some hv (.inr (.inr hr))
    rw [values_fuse f.equip hd] at hx
    injection hx with hx
    subst hx
    rw [hr, Bool.or_true] at i1
    exact ⟨i3 _ rfl, i4 _ rfl, i1, i2⟩
  · intro hn w hw
    obtain ⟨i, hi, fw⟩ := f.wire hw
    obtain ⟨v, hv, i1, i2, i3, i4, _⟩ := fw.values
    rw [equip_none f.equip hn] at hv
    injection hv with hv
    subst hv
    exact ⟨i1, i2⟩

/-- at least two devices are in the section of the line -/
theorem two_filter {R : Type} {rows : List R} {p : R → Bool} {a b c : List R} {d d' : R} (h : rows = a ++ d :: b ++ d' :: c) (h1 : p d = true) (h2 : p d' = true) :
    ∃ x y l, rows.filter p = x :: y :: l := by
  subst h
  have : 2 ≤ ((a ++ d :: b ++ d' :: c).filter p).length := by
    simp only [List.filter_append, List.filter_cons, h1, h2, if_true, List.length_append, List.length_cons]
    omega
  match hl : (a ++ d :: b ++ d' :: c).filter p, this with
  | x :: y :: l, _ => exact ⟨x, y, l, rfl⟩

theorem unread_of {r : LineRow} (hr : r ∈ lineRows db) (hp : phasesOf r.sec ≠ []) (h0 : ∀ e, equipOf (lowerLineDb db) (lower r.sec.id) = .ok e →
    (e.recloser = true ∨ e.isSwitch = true ∨ e.fuse = true) ∧ e.values = none) : ¬∃ ls, readLines num db = .ok ls := by
  rintro ⟨ls, h⟩
  obtain ⟨feeders, hf, h2⟩ := rows_ok h
  obtain ⟨l, hl, cap, h3⟩ := Glm.found_right h2 hr
  obtain ⟨e, f, _⟩ := line_facts h3
  obtain ⟨h4, h5⟩ := h0 e f.equip
  obtain ⟨ws, _, hl, hw⟩ := f.wires
  cases ws with
  | nil =>
    cases hps : phasesOf r.sec with
    | nil => exact hp hps
    | cons p ps => rw [hps] at hl; simp at hl
  | cons w ws =>
    obtain ⟨p, _, fw⟩ := hw 0 w rfl
    obtain ⟨v, hv, _⟩ := fw.values
    obtain ⟨x, hx, _⟩ := wireValues_some hv h4
    rw [h5] at hx
    cases hx

/-- A database with a section that has two reclosers and no other device cannot be read. -/
theorem C99_two_violated {r : LineRow} (hr : r ∈ lineRows db) (hp : phasesOf r.sec ≠ []) {a b c : List CutRow} {d d' : CutRow}
    (h : db.reclosers = a ++ d :: b ++ d' :: c) (h1 : Same d.sec r.sec.id) (h2 : Same d'.sec r.sec.id) (hs : ¬HasSwitch db r) (hf : ¬HasCut db.fuses r) :
    ¬∃ ls, readLines num db = .ok ls := by
  refine unread_of hr hp fun e he => ?_
  have flag := (equip_flags he).1.mpr ⟨d, by rw [h]; simp, h1⟩
  refine ⟨.inl flag, ?_⟩
  obtain ⟨e1, h1', rfl⟩ := equipOf_ok he
  rw [hasCut_iff, ne_eq, not_not] at hf
  rw [hasSwitch_iff, ne_eq, not_not] at hs
  unfold fuseOf
  rw [fuses_sec, hf]
  show e1.values = _
  unfold switchOf at h1'
  rw [switches_sec, hs] at h1'
  injection h1' with h1'
  subst h1'
  unfold recloserOf
  obtain ⟨x, y, l, hl⟩ := two_filter (p := fun x => decide (Same x.sec r.sec.id)) h (decide_eq_true h1) (decide_eq_true h2)
  rw [reclosers_sec, hl]
  rfl

/-- A database with a section that has two fuses and no other device cannot be read. -/
theorem C99_two_fuses_violated {r : LineRow} (hr : r ∈ lineRows db) (hp : phasesOf r.sec ≠ []) {a b c : List CutRow} {d d' : CutRow}
    (h : db.fuses = a ++ d :: b ++ d' :: c) (h1 : Same d.sec r.sec.id) (h2 : Same d'.sec r.sec.id) (hs : ¬HasSwitch db r) (hf : ¬HasCut db.reclosers r) :
    ¬∃ ls, readLines num db = .ok ls := by
  refine unread_of hr hp fun e he => ?_
  have flag := (equip_flags he).2.2.mpr ⟨d, by rw [h]; simp, h1⟩
  refine ⟨.inr (.inr flag), ?_⟩
  obtain ⟨e1, h1', rfl⟩ := equipOf_ok he
  rw [hasCut_iff, ne_eq, not_not] at hf
  rw [hasSwitch_iff, ne_eq, not_not] at hs
  unfold switchOf at h1'
  rw [switches_sec, hs] at h1'
  injection h1' with h1'
  subst h1'
  unfold fuseOf
  obtain ⟨x, y, l, hl⟩ := two_filter (p := fun x => decide (Same x.sec r.sec.id)) h (decide_eq_true h1) (decide_eq_true h2)
  rw [fuses_sec, hl]
  show (recloserOf _ _ _).values = none
  unfold recloserOf
  rw [reclosers_sec, hf]
  rfl

/-- A database with a section that has two switches and no other device cannot be read. -/
theorem C99_two_switches_violated {r : LineRow} (hr : r ∈ lineRows db) (hp : phasesOf r.sec ≠ []) {a b c : List SwitchRow} {d d' : SwitchRow}
    (h : db.switches = a ++ d :: b ++ d' :: c) (h1 : Same d.sec r.sec.id) (h2 : Same d'.sec r.sec.id) (hs : ¬HasCut db.reclosers r) (hf : ¬HasCut db.fuses r) :
    ¬∃ ls, readLines num db = .ok ls := by
  refine unread_of hr hp fun e he => ?_
  have flag := (equip_flags he).2.1.mpr ⟨d, by rw [h]; simp, h1⟩
  refine ⟨.inr (.inl flag), ?_⟩
  obtain ⟨e1, h1', rfl⟩ := equipOf_ok he
  rw [hasCut_iff, ne_eq, not_not] at hf
  rw [hasCut_iff, ne_eq, not_not] at hs
  unfold switchOf at h1'
  obtain ⟨x, y, l, hl⟩ := two_filter (p := fun x => decide (Same x.sec r.sec.id)) h (decide_eq_true h1) (decide_eq_true h2)
  rw [switches_sec, hl] at h1'
  injection h1' with h1'
  subst h1'
  unfold fuseOf
  rw [fuses_sec, hf]
  show (recloserOf _ _ _).values = none
  unfold recloserOf
  rw [reclosers_sec, hs]
  rfl

/-- A database with a section that has one protective device, whose type is in the warehouse once, cannot be read. -/
theorem C99_protector_violated {r : LineRow} (hr : r ∈ lineRows db) {a b : List (Text × Text)} {d : Text × Text} (h : db.protectors = a ++ d :: b)
    (h1 : Same d.1 r.sec.id) (h2 : ∀ x ∈ a ++ b, ¬Same x.1 r.sec.id) {a' b' : List Text} {t : Text} (ht : db.protectorTypes = a' ++ t :: b') (h3 : Same t d.2)
    (h4 : ∀ x ∈ a' ++ b', ¬Same x d.2) : ¬∃ ls, readLines num db = .ok ls := by
  rintro ⟨ls, h⟩
  obtain ⟨feeders, hf, h5⟩ := rows_ok h
  obtain ⟨l, hl, cap, h6⟩ := Glm.found_right h5 hr
  obtain ⟨e, f, _⟩ := line_facts h6
  have he := f.equip
  have p1 : ((lowerLineDb db).protectors.filter fun x => decide (x.1 = lower r.sec.id)) = [(lower d.1, lower d.2)] := by
    refine (filter_sec db.protectors (low := fun p => (lower p.1, lower p.2)) (key := Prod.fst) (fun _ => rfl) r.sec.id).trans ?_
    rw [filter_only ‹db.protectors = _› (decide_eq_true h1) fun x hx => decide_eq_false (h2 x hx)]
    rfl
  have p2 : ((lowerLineDb db).protectorTypes.filter fun x => decide (x = lower d.2)) = [lower t] := by
    refine (filter_sec db.protectorTypes (low := lower) (key := fun x => x) (fun _ => rfl) d.2).trans ?_
    rw [filter_only ht (decide_eq_true h3) fun x hx => decide_eq_false (h4 x hx)]
    rfl
  unfold equipOf at he
  split at he
  · cases he
  · unfold protectorOf at he
    rw [p1] at he
    dsimp only at he
    rw [p2] at he
    cases he

/-- A database with a section that has one switch of an unknown type cannot be read. -/
theorem C99_type_errors {r : LineRow} (hr : r ∈ lineRows db) {d : SwitchRow} (hd : OnlySwitch db.switches r d) (ht : ∀ t ∈ db.devSwitches, ¬Same t.name d.type) :
    ¬∃ ls, readLines num db = .ok ls := by
  rintro ⟨ls, h⟩
  obtain ⟨feeders, hf, h5⟩ := rows_ok h
  obtain ⟨l, hl, cap, h6⟩ := Glm.found_right h5 hr
  obtain ⟨e, f, _⟩ := line_facts h6
  obtain ⟨e1, h1, _⟩ := equipOf_ok f.equip
  unfold switchOf at h1
  rw [switches_sec, onlySwitch_filter hd] at h1
  simp only [List.map_cons, List.map_nil] at h1
  have : switchType (lowerLineDb db).devSwitches (lowerSwitch d).type = none := by
    unfold switchType
    rw [List.find?_eq_none]
    intro x hx
    obtain ⟨t, h7, rfl⟩ := List.mem_map.mp (List.mem_reverse.mp hx)
    exact fun e => ht t h7 (of_decide_eq_true e)
  rw [this] at h1
  cases h1

end
end Ditto.Syn
