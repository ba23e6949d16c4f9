import Verif.Lemmas.DssLines

/-! C54: lines keep their length, ends, phases, impedances, ampacity and device in OpenDSS files. -/
namespace Ditto.Dss
open Ditto Ditto.Spec Ditto.Mat

/-- all the wires have one of the three phases -/
def PhaseWires (ws : List LWire) : Prop := ∀ w ∈ ws, ∃ ph ∈ ["A", "B", "C"], w.wire.phase = some ph

/-- The text of a line: the length in km, at least one meter; the ends with the phases of the wires in their order, without neutrals; a
switch for a switch or breaker; disabled if it has wires and no phase wire is closed; the geometry if it is known, otherwise the code; a
fuse, with the largest positive rating. -/
theorem C54_write (l : LLine) (n : String) (hn : l.name = some n) :
    ∃ t, writeLine l = some t ∧ t.name = n ∧ t.units = "km" ∧
      (∀ v, l.length = some v → (1 ≤ v → t.length = some (v / 1000)) ∧ (v < 1 → t.length = some (1 / 1000))) ∧ (l.length = none → t.length = none) ∧
      t.bus1.map (·.1) = l.fromEl.map cleanName ∧ t.bus2.map (·.1) = l.toEl.map cleanName ∧
      (∀ b ns, t.bus1 = some (b, ns) ∨ t.bus2 = some (b, ns) →
        ns = (((l.wires.map (·.wire.phase)).filter fun p => decide (p ∉ [none, some "N", some "N1", some "N2"])).map fun p => p.bind toDssPhase)) ∧
      (t.switch = true ↔ l.isSwitch = true ∨ l.isBreaker = true) ∧
      (t.enabled = some false ↔ l.wires ≠ [] ∧ ∀ w ∈ l.wires, w.isOpen = some true ∨ w.wire.phase ∈ [none, some "N", some "N1", some "N2"]) ∧
      t.phases = phaseCount l.toDLine ∧
      (GeometryKnown l.toDLine → t.geometry = l.nameclass ∧ t.linecode = none) ∧
      (¬ GeometryKnown l.toDLine → t.geometry = none ∧ t.linecode = l.nameclass.map cleanName) ∧
      (t.fuse.isSome = true ↔ l.isFuse = true) ∧
      (∀ m, t.fuse = some (some m) → 0 < m ∧ (∃ w ∈ l.wires, w.rating = some m) ∧ ∀ w ∈ l.wires, ∀ r, w.rating = some r → r ≤ m) ∧
      (t.fuse = some none → ∀ w ∈ l.wires, ∀ r, w.rating = some r → r ≤ 0) := by
  unfold writeLine
  rw [hn]
  refine ⟨_, rfl, rfl, rfl, fun v hv => ⟨fun h => ?_, fun h => ?_⟩, fun h => by simp [h], ?_, ?_, ?_, ?_, ?_, ?_, fun h => ?_, fun h => ?_, ?_, ?_, ?_⟩
  · simp only [hv, Option.map_some, Option.some.injEq]
    rw [max_eq_right, one_div_mul_eq_div]
    linarith
  · simp only [hv, Option.map_some, Option.some.injEq]
    exact max_eq_left (by linarith)
  · simp [Option.map_map, Function.comp_def]
  · simp [Option.map_map, Function.comp_def]
  · have key : lineSuffix l.wires = (((l.wires.map (·.wire.phase)).filter fun p => decide (p ∉ [none, some "N", some "N1", some "N2"])).map fun p => p.bind toDssPhase) := by
      unfold lineSuffix
      induction l.wires with
      | nil => rfl
      | cons w ws ih =>
        cases hp : w.wire.phase with
        | none =>
          rw [List.filterMap_cons_none (f := fun x : LWire => x.wire.phase) hp, ih]
          simp [hp]
        | some p =>
          rw [List.filterMap_cons_some (f := fun x : LWire => x.wire.phase) hp, List.map_cons, hp, List.filter_cons, List.filter_cons]
          by_cases h : p ∈ ["N", "N1", "N2"]
          · have h' : ¬ ((some p : Option String) ∉ [none, some "N", some "N1", some "N2"]) := not_not.2 (by simpa using h)
            rw [decide_eq_true h, decide_eq_false h']
            exact ih
          · have h' : (some p : Option String) ∉ [none, some "N", some "N1", some "N2"] := by simpa using h
            rw [decide_eq_false h, decide_eq_true h']
            simp only [Bool.not_false, if_true, List.map_cons, ih]
            rfl
    intro b ns h
    rw [← key]
    rcases h with h | h <;>
    · simp only [Option.map_eq_some_iff, Prod.mk.injEq] at h
      obtain ⟨_, _, _, h⟩ := h
      exact h.symm
  · simp
  · simp only
    split
    · next h => simp [h]
    · next h =>
      simp only [Option.some.injEq, decide_eq_false_iff_not, not_not, ne_eq, h, not_false_iff, true_and]
      unfold closedWires
      rw [List.filter_eq_nil_iff]
      refine forall₂_congr fun w _ => ?_
      cases w.wire.phase with
      | none => simp
      | some p => by_cases h : w.isOpen = some true <;> simp [h, or_iff_not_imp_left]
  · exact (phaseCount_eq _).symm ▸ rfl
  · have := (C50_choice l.toDLine).2 h
    simp [this]
  · have : useLinecodes l.toDLine = true := by
      cases hu : useLinecodes l.toDLine with
      | true => rfl
      | false => exact absurd ((C50_choice _).1 hu) h
    simp [this]
  · cases l.isFuse <;> simp
  · intro m hm
    simp only [Option.ite_none_right_eq_some] at hm
    obtain ⟨_, hm⟩ := hm
    injection hm with hm
    unfold fuseRating at hm
    split at hm
    · next m' hx =>
      split at hm
      · next hpos =>
        injection hm with hm
        subst hm
        rw [List.max?_eq_some_iff] at hx
        obtain ⟨w, hw, hr⟩ := List.mem_filterMap.1 hx.1
        exact ⟨hpos, ⟨w, hw, hr⟩, fun w hw r hr => hx.2 r (List.mem_filterMap.2 ⟨w, hw, hr⟩)⟩
      · cases hm
    · cases hm
  · intro hm w hw r hr
    simp only [Option.ite_none_right_eq_some] at hm
    obtain ⟨_, hm⟩ := hm
    injection hm with hm
    unfold fuseRating at hm
    split at hm
    · next m' hx =>
      split at hm
      · cases hm
      · next hpos =>
        rw [List.max?_eq_some_iff] at hx
        exact le_trans (hx.2 r (List.mem_filterMap.2 ⟨w, hw, hr⟩)) (not_lt.1 hpos)
    · next hx =>
      rw [List.max?_eq_none_iff] at hx
      have := List.mem_filterMap.2 ⟨w, hw, hr⟩
      rw [hx] at this
      cases this

/-- the wires that are read, one for each number of the first bus -/
theorem wires_read (dev : Device) (d : LineData) (ns : List Nat) (hns : ns ≠ []) {b : String} (hb : d.bus1 = some (b, if ns = [] then none else some ns))
    (hp : d.phases = some ns.length) : ((List.range (d.phases.getD 3)).map (readWire dev d)).map (·.phase) = ns.map ofDssPhase := by
  rw [hp, Option.getD_some, List.map_map]
  refine List.ext_getElem (by simp) fun i h1 h2 => ?_
  simp only [List.length_map, List.length_range] at h1
  rw [List.getElem_map, List.getElem_range, List.getElem_map]
  simp only [Function.comp_def, readWire, hb, if_neg hns, busNumbers, List.getElem?_eq_getElem h1]

/-- A line described by a code, of at least one meter, whose wires have the phases A, B and C, which is not an open line without switch or
breaker, is read with the same name (in lower case), length, ends, phases in the same order, impedances, capacitances, fault rate and
ampacity of the first wire. (Missing: the matrices are symmetric; neutrals, open lines and short lines; see the theorems below.) -/
theorem C54_round_trip_partial (l : LLine) (n f e : String) (hn : l.name = some n) (hf : l.fromEl = some f) (he : l.toEl = some e)
    (hlen : ∀ v, l.length = some v → 1 ≤ v) (hcode : ¬ GeometryKnown l.toDLine) (hw : l.wires ≠ []) (hph : PhaseWires l.wires)
    (hopen : l.isSwitch = true ∨ l.isBreaker = true ∨ ∃ w ∈ l.wires, w.isOpen ≠ some true)
    (hr : SymmetricSquare l.wires.length l.r) (hx : SymmetricSquare l.wires.length l.xm) (hc : l.c = [] ∨ SymmetricSquare l.wires.length l.c)
    (fuses reclosers : List String) :
    ∃ t, writeLine l = some t ∧ t.linecode = l.nameclass.map cleanName ∧ ∀ d, ReportsLine t (parseLine l.toDLine) d →
      ∃ rl : RLine, readLine fuses reclosers d = some rl ∧ rl.name = pyLower n ∧ (∀ v, l.length = some v → rl.length = some v) ∧
        rl.fromEl.map pyLower = some (pyLower (cleanName f)) ∧ rl.toEl.map pyLower = some (pyLower (cleanName e)) ∧
        rl.wires.map (·.phase) = l.wires.map (·.wire.phase) ∧ rl.z = some (l.r, l.xm) ∧ (l.c ≠ [] → rl.c = some l.c) ∧
        (∀ v, l.faultrate = some v → rl.faultrate = some v) ∧
        (∀ v, l.wires.head?.bind (·.wire.ampacity) = some v → ∀ w ∈ rl.wires, w.ampacity = some v) ∧
        (∀ v, l.wires.head?.bind (·.wire.emergency) = some v → ∀ w ∈ rl.wires, w.emergency = some v) := by
  obtain ⟨t, ht, htn, htu, htl, -, hb1, hb2, hns, hsw, hen, htp, -, hlc, -⟩ := C54_write l n hn
  have hpos : 0 < l.wires.length := List.length_pos_iff.2 hw
  refine ⟨t, ht, (hlc hcode).2, fun d hd => ?_⟩
  obtain ⟨ns, hs1, hs2⟩ := lineSuffix_known l.wires hph
  have hnl : ns.length = l.wires.length := by simpa using congrArg List.length hs2
  have hns0 : ns ≠ [] := by rw [← List.length_pos_iff, hnl]; exact hpos
  have ht' := ht
  unfold writeLine at ht'
  rw [hn, hf, he] at ht'
  injection ht' with ht'
  obtain ⟨b1, hb1l, hb1'⟩ := hd.bus1 (cleanName f) ns (by rw [← ht']; simp [hs1])
  obtain ⟨b2, hb2l, hb2'⟩ := hd.bus2 (cleanName e) ns (by rw [← ht']; simp [hs1])
  have hphases : d.phases = some ns.length := by
    rw [hd.phases, ← ht', hnl, ← phaseCount_all l.wires hph]
    rfl
  have hu : pyLower d.units = "km" := by rw [hd.units, htu]
  have hkeep : ¬ (d.switch = false ∧ d.enabled = false) := by
    rintro ⟨h1, h2⟩
    rw [hd.switch] at h1
    rcases hopen with h | h | ⟨w, hw', ho⟩
    · rw [hsw.2 (Or.inl h)] at h1; cases h1
    · rw [hsw.2 (Or.inr h)] at h1; cases h1
    · have h3 : t.enabled = some false := by
        rw [hd.enabled] at h2
        cases h4 : t.enabled with
        | none => rw [h4] at h2; cases h2
        | some b => rw [h4] at h2; rw [show b = false from h2]
      rcases (hen.1 h3).2 w hw' with h | h
      · exact ho h
      · obtain ⟨ph, hm, hp⟩ := hph w hw'
        rw [hp] at h
        simp only [List.mem_cons, List.not_mem_nil, or_false] at hm
        rcases hm with rfl | rfl | rfl <;> exact absurd h (by decide)
  have hrne : l.r ≠ [] := by
    intro h
    have := hr.1.1
    rw [h] at this
    simp at this
    omega
  obtain ⟨-, -, hfr, hrx, -, hcm, ha, hea⟩ := C50_code_data l.toDLine
  unfold readLine
  rw [if_neg hkeep]
  refine ⟨_, rfl, ?_, fun v hv => ?_, ?_, ?_, ?_, ?_, fun hcne => ?_, fun v hv => ?_, fun v hv w hw' => ?_, fun v hv w hw' => ?_⟩
  · rw [hd.name, htn]
  · simp only [hd.length _ ((htl v hv).1 (hlen v hv)), Option.bind_some, lineUnit_km hu]
    simp [Units.toMeters, hu, Units.InverseArg.eval]
    linarith
  · simp [hb1', hb1l]
  · simp [hb2', hb2l]
  · rw [← hs2]
    exact wires_read _ d ns hns0 hb1' hphases
  · simp only [readImpedance, lineUnit_km hu, hd.r _ (hrx hrne).1, hd.x _ (hrx hrne).2, Option.bind_some]
    rw [show l.toDLine.r = l.r from rfl, show l.toDLine.xm = l.xm from rfl, readMatrix_reported hu hpos hr, readMatrix_reported hu hpos hx]
  · have hc' := hc.resolve_left hcne
    simp only [lineUnit_km hu, hd.c _ (hcm hcne), Option.bind_some]
    exact readMatrix_reported hu hpos hc'
  · exact hd.faultrate v (by rw [hfr, show l.toDLine.faultrate = l.faultrate from rfl, hv]; rfl)
  · obtain ⟨p, -, rfl⟩ := List.mem_map.1 hw'
    refine hd.normamps v ?_
    rw [ha]
    cases hws : l.wires with
    | nil => rw [hws] at hv; cases hv
    | cons w ws =>
      rw [hws] at hv
      simp only [LLine.toDLine, hws, List.map_cons, List.head?_cons, Option.bind_some]
      simp only [List.head?_cons, Option.bind_some] at hv
      rw [hv]; rfl
  · obtain ⟨p, -, rfl⟩ := List.mem_map.1 hw'
    refine hd.emergamps v ?_
    rw [hea]
    cases hws : l.wires with
    | nil => rw [hws] at hv; cases hv
    | cons w ws =>
      rw [hws] at hv
      simp only [LLine.toDLine, hws, List.map_cons, List.head?_cons, Option.bind_some]
      simp only [List.head?_cons, Option.bind_some] at hv
      rw [hv]; rfl

/-- example: a line with two phases and a code -/
def exLine : LLine where
  name := some "Line 1"
  nameclass := some "code"
  length := some 250
  fromEl := some "n1"
  toEl := some "n2"
  wires := [{ wire := { phase := some "C", ampacity := some 400 } }, { wire := { phase := some "A", ampacity := some 300 }, isOpen := some true }]
  r := [[2, 1], [1, 3]]
  xm := [[4, 1], [1, 5]]

example : exLine.fromEl = some "n1" ∧ (∀ v, exLine.length = some v → 1 ≤ v) ∧ ¬ GeometryKnown exLine.toDLine ∧ PhaseWires exLine.wires ∧
    (∃ w ∈ exLine.wires, w.isOpen ≠ some true) ∧ SymmetricSquare exLine.wires.length exLine.r ∧ SymmetricSquare exLine.wires.length exLine.xm := by
  have hsym : ∀ a b c : ℚ, SymmetricSquare 2 [[a, b], [b, c]] := by
    refine fun a b c => ⟨⟨rfl, ?_⟩, ?_⟩
    · intro row h
      simp only [List.mem_cons, List.not_mem_nil, or_false] at h
      rcases h with rfl | rfl <;> rfl
    · rintro i j v ⟨row, h1, h2⟩
      match i, j with
      | 0, 0 => exact ⟨row, h1, h2⟩
      | 1, 1 => exact ⟨row, h1, h2⟩
      | 0, 1 => cases h1; exact ⟨[b, c], rfl, h2⟩
      | 1, 0 => cases h1; exact ⟨[a, b], rfl, h2⟩
      | (i + 2), _ => simp at h1
      | 0, (j + 2) => cases h1; simp at h2
      | 1, (j + 2) => cases h1; simp at h2
  refine ⟨rfl, fun v h => by cases h; decide +kernel, ?_, ?_, ⟨_, List.mem_cons_self, by decide⟩, hsym _ _ _, hsym _ _ _⟩
  · rw [← C50_choice]; decide
  · intro w hw
    simp only [exLine, List.mem_cons, List.not_mem_nil, or_false] at hw
    rcases hw with rfl | rfl
    · exact ⟨"C", by decide, rfl⟩
    · exact ⟨"A", by decide, rfl⟩

/-! ### Devices -/

/-- the text of a line is reported by OpenDSS with the name of its fuse in the list of fuses -/
def FuseKnown (fuses : List String) (t : LineText) : Prop := pyLower t.name ∈ fuses ↔ t.fuse.isSome = true

theorem writeLine_device {l : LLine} {t : LineText} (h : writeLine l = some t) : l.name = some t.name ∧ t.switch = (l.isSwitch || l.isBreaker) ∧
    (t.fuse.isSome = l.isFuse) ∧ t.enabled = (if l.wires = [] then none else some (decide (closedWires l.wires ≠ []))) := by
  unfold writeLine at h
  rw [Option.map_eq_some_iff] at h
  obtain ⟨n, hn, rfl⟩ := h
  refine ⟨hn, rfl, ?_, rfl⟩
  cases l.isFuse <;> rfl

/-- A fuse is read as a fuse, and nothing else is; a switch without fuse whose name contains neither "breaker" nor "recloser" is read as a
switch, and a line without switch or breaker is not. If all the wires of the switch have the same state, it is read for all of them.
(Missing: breakers, reclosers, switches that are open in some phases; see the theorems below.) -/
theorem C54_switch_partial (l : LLine) (t : LineText) (ht : writeLine l = some t) (d : LineData) (hd : ReportsLine t (parseLine l.toDLine) d)
    (fuses reclosers : List String) (hfuse : FuseKnown fuses t) (hrec : pyLower t.name ∉ reclosers) (rl : RLine)
    (hrl : readLine fuses reclosers d = some rl) :
    rl.isFuse = l.isFuse ∧
      (hasSub "recloser" (pyLower t.name) = false → hasSub "breaker" (pyLower t.name) = false → l.isFuse = false → l.isBreaker = false →
        rl.isSwitch = l.isSwitch ∧ rl.isBreaker = false ∧ rl.isRecloser = false ∧
        (l.isSwitch = true → PhaseWires l.wires → l.wires ≠ [] → ∀ o : Bool, (∀ w ∈ l.wires, w.isOpen = some o) → ∀ w ∈ rl.wires, w.isSwitch = true ∧ w.isOpen = some o)) := by
  obtain ⟨hn, hsw, hfu, hen⟩ := writeLine_device ht
  unfold readLine at hrl
  split at hrl
  · cases hrl
  · injection hrl with hrl
    subst hrl
    simp only [hd.name]
    unfold FuseKnown at hfuse
    rw [hfu] at hfuse
    constructor
    · unfold lineDevice
      cases hf : l.isFuse with
      | true => rw [if_pos (hfuse.2 hf)]; rfl
      | false =>
        rw [if_neg (fun h => by rw [hf] at hfuse; cases hfuse.1 h)]
        split
        · rfl
        · split
          · rfl
          · split <;> rfl
    · intro h1 h2 h3 h4
      have hdev : lineDevice fuses reclosers (pyLower t.name) d.switch = if l.isSwitch = true then .switch else .none := by
        unfold lineDevice
        rw [if_neg (fun h => by rw [h3] at hfuse; cases hfuse.1 h), if_neg (by simp [hrec, h1]), h2, hd.switch, hsw, h4]
        simp
      rw [hdev]
      refine ⟨by cases l.isSwitch <;> rfl, by cases l.isSwitch <;> rfl, by cases l.isSwitch <;> rfl, fun h5 hph hw o ho w hw' => ?_⟩
      obtain ⟨p, -, rfl⟩ := List.mem_map.1 hw'
      rw [if_pos h5]
      refine ⟨rfl, ?_⟩
      have : d.enabled = !o := by
        rw [hd.enabled, hen, if_neg hw, closedWires_all _ hph]
        cases o with
        | true =>
          rw [List.filter_eq_nil_iff.2]
          · rfl
          · intro w hw; simp [ho w hw]
        | false =>
          rw [List.filter_eq_self.2]
          · simp [hw]
          · intro w hw; simp [ho w hw]
      simp [readWire, this]

/-- example: an open switch -/
def exSwitch : LLine where
  name := some "sw"
  fromEl := some "n1"
  toEl := some "n2"
  length := some 1
  isSwitch := true
  wires := [{ wire := { phase := some "A" }, isOpen := some true }, { wire := { phase := some "B" }, isOpen := some true }]

def exSwitchData : LineData where
  name := "sw"
  switch := true
  enabled := false
  units := "km"
  length := some (1 / 1000)
  bus1 := some ("n1", some [1, 2])
  bus2 := some ("n2", some [1, 2])
  phases := some 2
  r := some (.rows [[1 / 100000], [0, 1 / 100000]])
  x := some (.rows [[1 / 100000], [0, 1 / 100000]])

example : (readLine ["f"] [] exSwitchData).map (·.wires.map (·.isOpen)) = some [some true, some true] ∧
    (readLine ["f"] [] exSwitchData).map (·.z) = some (some ([[1 / 100000000, 0], [0, 1 / 100000000]], [[1 / 100000000, 0], [0, 1 / 100000000]])) := by
  decide +kernel

/-! ### Violations -/

/-- VIOLATION: a line shorter than one meter becomes one meter long. -/
theorem C54_short_violated (l : LLine) (n : String) (v : ℚ) (hn : l.name = some n) (hv : l.length = some v) (h : v < 1) :
    ∃ t, writeLine l = some t ∧ ∀ p d, ReportsLine t p d → ∀ fuses reclosers rl, readLine fuses reclosers d = some rl → rl.length = some 1 := by
  obtain ⟨t, ht, -, htu, htl, -⟩ := C54_write l n hn
  refine ⟨t, ht, fun p d hd fuses reclosers rl hrl => ?_⟩
  have hu : pyLower d.units = "km" := by rw [hd.units, htu]
  unfold readLine at hrl
  split at hrl
  · cases hrl
  · injection hrl with hrl
    subst hrl
    simp only [hd.length _ ((htl v hv).2 h), Option.bind_some, lineUnit_km hu]
    simp [Units.toMeters, hu, Units.InverseArg.eval]

/-- VIOLATION: a breaker whose name contains neither "breaker" nor "recloser" is read as a switch. -/
theorem C54_breaker_violated (l : LLine) (t : LineText) (ht : writeLine l = some t) (hb : l.isBreaker = true) (hf : l.isFuse = false)
    (h1 : hasSub "recloser" (pyLower t.name) = false) (h2 : hasSub "breaker" (pyLower t.name) = false) (p : Params) (d : LineData) (hd : ReportsLine t p d)
    (fuses reclosers : List String) (hfuse : FuseKnown fuses t) (hrec : pyLower t.name ∉ reclosers) :
    ∃ rl, readLine fuses reclosers d = some rl ∧ rl.isBreaker = false ∧ rl.isSwitch = true := by
  obtain ⟨hn, hsw, hfu, hen⟩ := writeLine_device ht
  unfold FuseKnown at hfuse
  rw [hfu, hf] at hfuse
  have hs : d.switch = true := by rw [hd.switch, hsw, hb, Bool.or_true]
  have hdev : lineDevice fuses reclosers (pyLower d.name) d.switch = .switch := by
    unfold lineDevice
    rw [hd.name, if_neg (fun h => by cases hfuse.1 h), if_neg (by simp [hrec, h1]), h2, hs]
    rfl
  unfold readLine
  rw [if_neg (by simp [hs])]
  refine ⟨_, rfl, ?_, ?_⟩ <;> simp only [hdev] <;> rfl

/-- VIOLATION: a recloser is not written: its text is that of the line without recloser, unless that changes the description of the line. -/
theorem C54_recloser_violated (l : LLine) : writeLine { l with isRecloser := true } = writeLine { l with isRecloser := false } := rfl

/-- VIOLATION: a line without switch or breaker (a fuse, for example) whose wires are all open is not read at all. -/
theorem C54_open_violated (l : LLine) (t : LineText) (ht : writeLine l = some t) (h1 : l.isSwitch = false) (h2 : l.isBreaker = false)
    (hw : l.wires ≠ []) (ho : ∀ w ∈ l.wires, w.isOpen = some true) (p : Params) (d : LineData) (hd : ReportsLine t p d) (fuses reclosers : List String) :
    readLine fuses reclosers d = none := by
  obtain ⟨hn, hsw, hfu, hen⟩ := writeLine_device ht
  unfold readLine
  rw [if_pos]
  rw [hd.switch, hsw, h1, h2, hd.enabled, hen, if_neg hw]
  have : closedWires l.wires = [] := by
    unfold closedWires
    rw [List.filter_eq_nil_iff]
    intro w hw
    simp [ho w hw]
  rw [this]
  exact ⟨rfl, rfl⟩

/-- VIOLATION: the state of one phase is not written: a switch that is closed in some phases has the same text as one that is closed in all. -/
theorem C54_partly_open_violated : ∃ l l' : LLine, l.isSwitch = true ∧ (l.wires.map (·.isOpen) = [some true, some false]) ∧
    l' = { l with wires := l.wires.map fun w => { w with isOpen := some false } } ∧ writeLine l = writeLine l' :=
  ⟨{ exSwitch with wires := [{ wire := { phase := some "A" }, isOpen := some true }, { wire := { phase := some "B" }, isOpen := some false }] },
    _, rfl, rfl, rfl, by decide +kernel⟩

/-- VIOLATION: the state of a breaker that is recognised by its name is not read. -/
theorem C54_breaker_state_violated (fuses reclosers : List String) (d : LineData) (rl : RLine) (h : readLine fuses reclosers d = some rl)
    (hf : pyLower d.name ∉ fuses) (hr : pyLower d.name ∉ reclosers) (h1 : hasSub "recloser" (pyLower d.name) = false)
    (h2 : hasSub "breaker" (pyLower d.name) = true) : rl.isBreaker = true ∧ ∀ w ∈ rl.wires, w.isBreaker = true ∧ w.isOpen = none := by
  have hdev : lineDevice fuses reclosers (pyLower d.name) d.switch = .breaker := by
    unfold lineDevice
    rw [if_neg hf, if_neg (by simp [hr, h1]), if_pos h2]
  unfold readLine at h
  split at h
  · cases h
  · injection h with h
    subst h
    simp only [hdev]
    refine ⟨rfl, fun w hw => ?_⟩
    obtain ⟨p, -, rfl⟩ := List.mem_map.1 hw
    exact ⟨rfl, rfl⟩

/-- VIOLATION: the wires of a fuse are not marked as fuses (those of switches, breakers and reclosers are). -/
theorem C54_wire_fuse_violated (fuses reclosers : List String) (d : LineData) (rl : RLine) (h : readLine fuses reclosers d = some rl)
    (hf : pyLower d.name ∈ fuses) : rl.isFuse = true ∧ ∀ w ∈ rl.wires, w.isFuse = false := by
  have hdev : lineDevice fuses reclosers (pyLower d.name) d.switch = .fuse := by
    unfold lineDevice
    rw [if_pos hf]
  unfold readLine at h
  split at h
  · cases h
  · injection h with h
    subst h
    simp only [hdev]
    refine ⟨rfl, fun w hw => ?_⟩
    obtain ⟨p, -, rfl⟩ := List.mem_map.1 hw
    rfl

/-- VIOLATION: neutral wires are not written: a line has the same ends, phases and state with and without its neutral. -/
theorem C54_neutral_violated (l : LLine) (w : LWire) (hw : w.wire.phase = some "N") (hne : l.wires ≠ []) (t t' : LineText) (ht : writeLine l = some t)
    (ht' : writeLine { l with wires := l.wires ++ [w] } = some t') :
    t'.bus1 = t.bus1 ∧ t'.bus2 = t.bus2 ∧ t'.phases = t.phases ∧ t'.enabled = t.enabled := by
  have hs : lineSuffix (l.wires ++ [w]) = lineSuffix l.wires := by
    unfold lineSuffix
    rw [List.filterMap_append]
    simp [hw]
  have hc : closedWires (l.wires ++ [w]) = closedWires l.wires := by
    unfold closedWires
    rw [List.filter_append]
    simp [hw]
  unfold writeLine at ht ht'
  rw [Option.map_eq_some_iff] at ht ht'
  obtain ⟨n, hn, rfl⟩ := ht
  obtain ⟨n', hn', rfl⟩ := ht'
  refine ⟨by simp only [hs], by simp only [hs], ?_, ?_⟩
  · simp only [LLine.toDLine, List.map_append, List.filter_append]
    simp [isPhase, hw]
  · simp only [hc, hne, if_false, List.append_eq_nil_iff, List.cons_ne_nil, and_false]

/-! ### Intermediate points -/

/-- What is kept of the intermediate points: those of the last named line of each file. -/
theorem intermediates_last (sf ss : Bool) (ls : List LLine) (l : LLine) (n : String) (hn : l.name = some n) :
    (intermediates sf ss (ls ++ [l])).lookup (groupKey (groupOf sf ss l.feeder l.substation)) = some (positionText l n) := by
  unfold intermediates
  rw [List.foldl_append]
  simp only [List.foldl_cons, List.foldl_nil, hn]
  rw [Json.lookup_setKey, if_pos rfl]

/-- VIOLATION: of the lines in a file only the last one keeps its intermediate points. -/
theorem C54_intermediate_violated (ls : List LLine) (l : LLine) (n : String) (hn : l.name = some n) (hp : l.positions = []) :
    (intermediates false false (ls ++ [l])).lookup "DEFAULT_DEFAULT" = some none := by
  have := intermediates_last false false ls l n hn
  simpa [positionText, hp, groupOf, groupKey] using this

/-- What each file has of intermediate points: those of the last named line that belongs to the file. -/
theorem C54_intermediate_files (sf ss : Bool) (k : String) (ls : List LLine) : (intermediates sf ss ls).lookup k =
    ((ls.filter fun l => l.name.isSome && decide (groupKey (groupOf sf ss l.feeder l.substation) = k)).getLast?).map
      fun l => l.name.bind fun n => if l.positions = [] then none else some (n, l.positions) := by
  induction ls using List.reverseRecOn with
  | nil => rfl
  | append_singleton ls l ih =>
    rw [List.filter_append, List.filter_cons, List.filter_nil]
    have hstep : intermediates sf ss (ls ++ [l]) = match l.name with
        | none => intermediates sf ss ls
        | some n => Json.setKey (groupKey (groupOf sf ss l.feeder l.substation)) (positionText l n) (intermediates sf ss ls) := by
      unfold intermediates
      rw [List.foldl_append]
      rfl
    rw [hstep]
    cases hn : l.name with
    | none =>
      simp only [Option.isSome_none, Bool.false_and, Bool.false_eq_true, if_false, List.append_nil]
      exact ih
    | some n =>
      simp only [Option.isSome_some, Bool.true_and, decide_eq_true_eq]
      rw [Json.lookup_setKey]
      by_cases hk : groupKey (groupOf sf ss l.feeder l.substation) = k
      · rw [if_pos hk.symm, if_pos hk, List.getLast?_append]
        simp [positionText, hn]
      · rw [if_neg (Ne.symm hk), if_neg hk, List.append_nil]
        exact ih

end Ditto.Dss
