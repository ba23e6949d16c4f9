import Verif.Spec.DssCaps
import Verif.Props.DssLoads

/-! C53: capacitors keep their reactive power, phases, voltage, connection and control in OpenDSS files. -/
namespace Ditto.Dss
open Ditto Ditto.Spec

variable {K : Type} [Field K] [LinearOrder K] [IsStrictOrderedRing K]

/-- The text of a capacitor: the total reactive power in kvar, the phases as suffix of the bus unless there are three, one phase for one or
two, the control exactly if one of its attributes is known. -/
theorem C53_write {K : Type} [Field K] (c : DCap K) (n : String) (ps : List (PCap K)) (hn : c.name = some n) (hps : c.caps = some ps) :
    ∃ t, writeCap c = some t ∧ t.name = n ∧ t.kvar = some (totalVar ps / 1000) ∧ t.kV = c.volt.map (· / 1000) ∧
      (ps.length = 3 → t.bus = c.bus.map (fun b => (cleanName b, [])) ∧ t.phases = some 3) ∧
      (ps.length = 1 ∨ ps.length = 2 → t.phases = some 1 ∧ ∀ phs : List String, ps.map (·.phase) = phs.map some → (∀ ph ∈ phs, ph ∈ ["A", "B", "C"]) →
        ∃ ns : List Nat, phs.map toDssPhase = ns.map some ∧ t.bus = c.bus.map (fun b => (cleanName b, ns))) ∧
      (t.control = none ↔ c.delay = none ∧ c.mode = none ∧ c.low = none ∧ c.high = none ∧ c.ptRatio = none ∧ c.ctRatio = none ∧ c.ptPhase = none) := by
  unfold writeCap
  rw [hn, hps]
  refine ⟨_, rfl, rfl, ?_, rfl, fun h => ⟨?_, ?_⟩, fun h => ⟨?_, fun phs hp hm => ?_⟩, ?_⟩
  · simp only [Option.map_some]; rw [sumKnown_eq]; rfl
  · simp [capSuffix, h]
  · simp [capPhases, h]
  · simp only [Option.map_some, capPhases, or_comm, h, if_true]
  · have hfm : ps.filterMap (·.phase) = phs := by
      have : ps.filterMap (·.phase) = (ps.map (·.phase)).filterMap id := by rw [List.filterMap_map]; rfl
      rw [this, hp, List.filterMap_map]
      simp
    have h3 : ps.length ≠ 3 := by omega
    refine ⟨capSuffix ps, ?_, rfl⟩
    unfold capSuffix
    rw [if_pos h3, hfm]
    clear hp hfm
    induction phs with
    | nil => rfl
    | cons p phs ih =>
      have h4 := hm p List.mem_cons_self
      simp only [List.mem_cons, List.not_mem_nil, or_false] at h4
      have h5 := ih fun q hq => hm q (List.mem_cons_of_mem _ hq)
      rcases h4 with rfl | rfl | rfl <;> simp [toDssPhase, capPhase, h5]
  · unfold hasControl
    cases c.delay <;> cases c.mode <;> cases c.low <;> cases c.high <;> cases c.ptRatio <;> cases c.ctRatio <;> cases c.ptPhase <;> simp

theorem total_const (ns : List Nat) (v : K) : totalVar (ns.map fun k => (⟨ofDssPhase k, some v⟩ : PCap K)) = ns.length * v := by
  unfold totalVar
  rw [List.filterMap_map, ← sum_const, ← List.filterMap_eq_map]
  rfl

/-- reading a capacitor of one step -/
theorem varOf_one {K : Type} [Field K] {kvar : Kvar K} {x : K} {n len p : Nat} (h : kvar = .one x ∨ kvar = .steps [x]) (hn : n ≠ 0) (hp : p < len)
    (hlen : len = 1 → n = 1) : varOf kvar n len p = some (x / (n : K) * 1000) := by
  rcases h with rfl | rfl
  · simp [varOf, shareOf, hn]
  · unfold varOf
    simp only [List.length_singleton, List.head?_cons, Option.bind_some, shareOf, hn, if_false]
    split
    · next h1 =>
      have h2 : p = 0 := by omega
      rw [h2, hlen h1.symm]
      simp
    · rfl

/-- the text that is read for the control -/
theorem findControl_spec {K : Type} [Field K] {spell : String → String} {t : CapText K} {d : CapData K} {cs : List (CtlData K)} (hd : ReportsCap spell t d cs) :
    (t.control = none → findControl (pyLower d.name) cs = none) ∧
      ∀ k, t.control = some k → ∃ c, findControl (pyLower d.name) cs = some c ∧ ReportsControl spell k c := by
  constructor
  · intro h
    unfold findControl
    rw [List.find?_eq_none]
    intro c hc hname
    rw [decide_eq_true_eq, hd.name] at hname
    obtain ⟨k, hk, -⟩ := hd.control c hc hname
    rw [h] at hk
    cases hk
  · intro k hk
    obtain ⟨c, hc, hname⟩ := hd.own k hk
    cases hf : findControl (pyLower d.name) cs with
    | none =>
      unfold findControl at hf
      rw [List.find?_eq_none] at hf
      exact absurd (by rw [decide_eq_true_eq, hd.name]; exact hname) (hf c hc)
    | some c' =>
      have h1 := List.find?_some hf
      rw [decide_eq_true_eq, hd.name] at h1
      obtain ⟨k', hk', h2⟩ := hd.control c' (List.mem_of_find?_eq_some hf) h1
      rw [hk] at hk'
      cases hk'
      exact ⟨c', rfl, h2⟩

/-- A capacitor of three phases, or of one phase, that is written and read again by way of OpenDSS has its phases, voltage, connection and
total reactive power; each phase has an equal share. Missing: two phases (see the violation), the distribution over phases. -/
theorem C53_round_trip_partial {spell : String → String} {c : DCap K} {n b : String} {ps : List (PCap K)} {t : CapText K} {d : CapData K} {cs : List (CtlData K)}
    (hn : c.name = some n) (hb : c.bus = some b) (hps : c.caps = some ps)
    (hph : ps.map (·.phase) = [some "A", some "B", some "C"] ∨ ∃ ph ∈ ["A", "B", "C"], ps.map (·.phase) = [some ph])
    (hconn : c.conn = some "Y" ∨ c.conn = some "D") (ht : writeCap c = some t) (hd : ReportsCap spell t d cs) :
    ∃ (r : DCap K) (rs : List (PCap K)), readCap cs d = some r ∧ r.name = some (pyLower n) ∧ (∃ b', r.bus = some b' ∧ pyLower b' = pyLower (cleanName b)) ∧
      r.conn = c.conn ∧ (∀ v, c.volt = some v → r.volt = some v) ∧ r.caps = some rs ∧ rs.map (·.phase) = ps.map (·.phase) ∧ totalVar rs = totalVar ps ∧
      ∀ x ∈ rs, x.var = some (totalVar ps / ps.length) := by
  obtain ⟨t', ht', h1, h2, h3, h4, h5, -⟩ := C53_write c n ps hn hps
  rw [ht] at ht'
  cases ht'
  have hcn : connOf d.conn = c.conn := by
    unfold writeCap at ht
    rw [hn] at ht
    have hce : t.conn = capConn c.conn := by
      injection ht with ht
      rw [← ht]
    rcases hconn with h | h
    · obtain ⟨c', hl, hc'⟩ := hd.conn "Wye" (by rw [hce, h]; rfl)
      rw [hc', pyLower_conn hl, h]
      decide +kernel
    · obtain ⟨c', hl, hc'⟩ := hd.conn "delta" (by rw [hce, h]; rfl)
      rw [hc', pyLower_conn hl, h]
      decide +kernel
  have hvolt : ∀ v, c.volt = some v → d.kV.map (· * 1000) = some v := by
    intro v hv
    rw [hd.kV (v / 1000) (by rw [h3, hv]; rfl)]
    simp
  have hk := hd.kvar _ h2
  -- the numbers of the phases
  obtain ⟨ns, b', hlow, hbus, hnum, hphase⟩ : ∃ (ns : List Nat) (b' : String), pyLower b' = pyLower (cleanName b) ∧
      d.bus.map (·.1) = some b' ∧ capDataPhases d = some ns ∧ ns.map ofDssPhase = ps.map (·.phase) := by
    rcases hph with h | ⟨ph, hm, h⟩
    · have hl : ps.length = 3 := by simpa using congrArg List.length h
      obtain ⟨b', hb1, hb2⟩ := hd.bus (cleanName b) [] (by rw [(h4 hl).1, hb]; rfl)
      exact ⟨[1, 2, 3], b', hb1, by rw [hb2]; rfl, by unfold capDataPhases; rw [hb2]; rfl, by rw [h]; rfl⟩
    · have hl : ps.length = 1 := by simpa using congrArg List.length h
      obtain ⟨ns, hns, hbt⟩ := (h5 (.inl hl)).2 [ph] h (by simpa using hm)
      obtain ⟨k, hk1, hk2⟩ := ofDss_toDss hm
      have hns' : ns = [k] := by
        have : List.map some [k] = List.map some ns := by rw [← hns]; simp [hk1]
        exact ((Option.some_injective _).list_map this).symm
      subst hns'
      obtain ⟨b', hb1, hb2⟩ := hd.bus (cleanName b) [k] (by rw [hbt, hb]; rfl)
      exact ⟨[k], b', hb1, by rw [hb2]; rfl, by unfold capDataPhases; rw [hb2]; simp, by rw [h]; simp [hk2]⟩
  have hlen : ns.length = ps.length := by simpa using congrArg List.length hphase
  have hcount : ps.length = 3 ∨ ps.length = 1 := by
    rcases hph with h | ⟨ph, -, h⟩
    · exact .inl (by simpa using congrArg List.length h)
    · exact .inr (by simpa using congrArg List.length h)
  have hN : ∀ pt, capDataCount d pt = some ps.length := by
    intro pt
    have : d.phases = some ps.length := by
      rcases hcount with h | h
      · rw [h]; exact hd.phases _ (h4 h).2
      · rw [h]; exact hd.phases _ (h5 (.inl h)).1
    unfold capDataCount
    rw [this]
  have hpos : ps.length ≠ 0 := by omega
  have hposK : (ps.length : K) ≠ 0 := cast_ne_zero' hpos
  have hvar : ∀ p < ns.length, varOf d.kvar ps.length ns.length p = some (totalVar ps / ps.length) := by
    intro p hp
    rw [varOf_one hk hpos hp (by omega)]
    congr 1
    field_simp
  have hcaps : ∀ pt, phaseCaps d pt = some (ns.map fun k => ⟨ofDssPhase k, some (totalVar ps / ps.length)⟩) := by
    intro pt
    unfold phaseCaps
    rw [hnum, hN]
    simp only [Option.some.injEq]
    refine List.ext_getElem (by simp) fun i h1 h2 => ?_
    rw [List.getElem_mapIdx, List.getElem_map, hvar i (by simpa using h1)]
  refine ⟨_, _, by unfold readCap; rw [hd.enabled, if_neg (by decide)], ?_, ⟨b', hbus, hlow⟩, hcn, hvolt, hcaps _, ?_, ?_, fun x hx => ?_⟩
  · simp only; rw [hd.name, h1]
  · rw [List.map_map, ← hphase]; rfl
  · rw [total_const, hlen]
    field_simp
  · obtain ⟨k, -, rfl⟩ := List.mem_map.1 hx
    rfl

/-- The attributes of the control are read as they have been written; the mode if OpenDSS spells it as the reader expects. A capacitor without
control has none. -/
theorem C53_control_partial {K : Type} [Field K] {spell : String → String} {c : DCap K} {n : String} {t : CapText K} {d : CapData K} {cs : List (CtlData K)} (hn : c.name = some n)
    (ht : writeCap c = some t) (hd : ReportsCap spell t d cs) :
    ∃ r, readCap cs d = some r ∧ (∀ v, c.delay = some v → r.delay = some v) ∧ (∀ v, c.low = some v → r.low = some v) ∧
      (∀ v, c.high = some v → r.high = some v) ∧ (∀ v, c.ptRatio = some v → r.ptRatio = some v) ∧ (∀ v, c.ctRatio = some v → r.ctRatio = some v) ∧
      (∀ p ∈ ["A", "B", "C"], c.ptPhase = some p → r.ptPhase = some p) ∧
      (spell "voltage" = "Voltage" → c.mode = some "voltage" → r.mode = c.mode) ∧
      (spell "current" = "Current" → c.mode = some "currentFlow" → r.mode = c.mode) ∧
      (spell "kvar" = "kvar" → c.mode = some "reactivePower" → r.mode = c.mode) ∧
      (spell "time" = "time" → c.mode = some "timeScheduled" → r.mode = c.mode) ∧
      (hasControl c = false → r.delay = none ∧ r.mode = none ∧ r.low = none ∧ r.high = none ∧ r.ptRatio = none ∧ r.ctRatio = none ∧ r.ptPhase = none ∧
        r.measuring = none) := by
  have hctl : t.control = if hasControl c then some (controlText c) else none := by
    unfold writeCap at ht
    rw [hn] at ht
    injection ht with ht
    rw [← ht]
  obtain ⟨hno, hyes⟩ := findControl_spec hd
  refine ⟨_, by unfold readCap; rw [hd.enabled, if_neg (by decide)], ?_⟩
  cases hc : hasControl c with
  | false =>
    have h0 : findControl (pyLower d.name) cs = none := hno (by rw [hctl, hc]; rfl)
    rw [h0]
    simp only [hasControl, Bool.or_eq_false_iff, Option.isSome_eq_false_iff, Option.isNone_iff_eq_none] at hc
    obtain ⟨⟨⟨⟨⟨⟨e1, e2⟩, e3⟩, e4⟩, e5⟩, e6⟩, e7⟩ := hc
    rw [e1, e2, e3, e4, e5, e6, e7]
    simp [modeOf]
  | true =>
    obtain ⟨k, hk, hr⟩ := hyes (controlText c) (by rw [hctl, hc]; rfl)
    rw [hk]
    have hmode : ∀ m s, c.mode = some m → modeText m = some s → k.type = some (spell s) := fun m s h1 h2 =>
      hr.type s (by unfold controlText; simp [h1, h2])
    refine ⟨hr.delay, hr.vmin, hr.vmax, hr.pt, hr.ct, fun p hp h => ?_, fun hs h => ?_, fun hs h => ?_, fun hs h => ?_, fun hs h => ?_, fun h => by cases h⟩
    · obtain ⟨m, h1, h2⟩ := ofDss_toDss hp
      have := hr.ptPhase m (by unfold controlText; simp [h, h1])
      simp [this, h2]
    · have := hmode _ "voltage" h (by decide +kernel)
      simp [this, hs, modeOf, h]
    · have := hmode _ "current" h (by decide +kernel)
      simp [this, hs, modeOf, h]
    · have := hmode _ "kvar" h (by decide +kernel)
      simp [this, hs, modeOf, h]
    · have := hmode _ "time" h (by decide +kernel)
      simp [this, hs, modeOf, h]

/-! ### Violations -/

/-- The reactive power of every capacitor of two phases is doubled. -/
theorem C53_two_violated {spell : String → String} {c : DCap K} {n b p q : String} {ps : List (PCap K)} {t : CapText K} {d : CapData K} {cs : List (CtlData K)}
    (hn : c.name = some n) (hb : c.bus = some b) (hps : c.caps = some ps) (hph : ps.map (·.phase) = [some p, some q]) (hp : p ∈ ["A", "B", "C"])
    (hq : q ∈ ["A", "B", "C"]) (ht : writeCap c = some t) (hd : ReportsCap spell t d cs) :
    ∃ (r : DCap K) (rs : List (PCap K)), readCap cs d = some r ∧ r.caps = some rs ∧ totalVar rs = 2 * totalVar ps := by
  obtain ⟨t', ht', -, h2, -, -, h5, -⟩ := C53_write c n ps hn hps
  rw [ht] at ht'
  cases ht'
  have hl : ps.length = 2 := by simpa using congrArg List.length hph
  obtain ⟨hphases, hsuf⟩ := h5 (.inr hl)
  obtain ⟨ns, hns, hbt⟩ := hsuf [p, q] hph (by
    intro ph hph'
    simp only [List.mem_cons, List.not_mem_nil, or_false] at hph'
    rcases hph' with rfl | rfl
    · exact hp
    · exact hq)
  have hlen : ns.length = 2 := by simpa using (congrArg List.length hns).symm
  have hne : ns ≠ [] := by intro h; rw [h] at hlen; cases hlen
  obtain ⟨b', -, hb2⟩ := hd.bus (cleanName b) ns (by rw [hbt, hb]; rfl)
  rw [if_neg hne] at hb2
  have hcaps : ∀ pt, phaseCaps d pt = some (ns.map fun k => ⟨ofDssPhase k, some (totalVar ps)⟩) := by
    intro pt
    unfold phaseCaps capDataPhases capDataCount
    rw [hb2, hd.phases _ hphases]
    simp only [Option.some.injEq]
    refine List.ext_getElem (by simp) fun i h1 h2' => ?_
    rw [List.getElem_mapIdx, List.getElem_map, varOf_one (hd.kvar _ h2) (by decide) (by simpa using h1) (by omega)]
    congr 2
    field_simp
    simp
  refine ⟨_, _, by unfold readCap; rw [hd.enabled, if_neg (by decide)], hcaps _, ?_⟩
  rw [total_const, hlen]
  rfl

/-- Of a capacitor with three phases and two steps only the first step is read. -/
theorem C53_steps_violated : ∃ d : CapData ℚ, d.kvar = .steps [100, 200] ∧ d.enabled = true ∧ d.phases = some 3 ∧
    ((readCap [] d).bind (·.caps)).map totalVar = some 100000 :=
  ⟨{ name := "c", bus := some ("b", none), phases := some 3, kvar := .steps [100, 200] }, rfl, rfl, rfl, by decide +kernel⟩

/-- the element measured gets the prefix "Line." and is written with it the next time -/
theorem C53_measuring_violated {K : Type} [Field K] {spell : String → String} {c : DCap K} {n e : String} {t : CapText K} {d : CapData K} {cs : List (CtlData K)} (hn : c.name = some n)
    (hc : hasControl c = true) (he : c.measuring = some e) (ht : writeCap c = some t) (hd : ReportsCap spell t d cs) :
    ∃ r, readCap cs d = some r ∧ r.measuring = some ("Line." ++ e) ∧ r.measuring ≠ c.measuring ∧ (controlText r).element = some ("Line." ++ ("Line." ++ e)) := by
  have hctl : t.control = some (controlText c) := by
    unfold writeCap at ht
    rw [hn] at ht
    injection ht with ht
    rw [← ht]
    simp [hc]
  obtain ⟨k, hk, hr⟩ := (findControl_spec hd).2 _ hctl
  have hel : k.element = some ("Line." ++ e) := hr.element _ (by unfold controlText; simp [he])
  refine ⟨_, by unfold readCap; rw [hd.enabled, if_neg (by decide)], ?_, ?_, ?_⟩
  · simp [hk, hel]
  · simp only [hk, hel, Option.bind_some, he, ne_eq, Option.some.injEq]
    intro h
    have := congrArg String.length h
    rw [String.length_append] at this
    have h5 : "Line.".length = 5 := rfl
    omega
  · simp [controlText, hk, hel]

/-- The mode activePower is lost, whatever OpenDSS reports for power factor control. -/
theorem C53_mode_violated : modeText "activePower" = some "PF" ∧ modeOf (some "PF") = none ∧ ∀ s : String, modeOf (some s) ≠ some "activePower" := by
  refine ⟨by decide +kernel, rfl, fun s h => ?_⟩
  unfold modeOf at h
  split_ifs at h <;> exact absurd (Option.some.inj h) (by decide)

/-! ### Examples -/

/-- a capacitor with control -/
def exCap : DCap ℚ where
  name := some "Cap1"
  bus := some "Bus.7"
  volt := some 4160
  conn := some "Y"
  caps := some [{ phase := some "A", var := some 100000 }, { phase := some "B", var := some 200000 }, { phase := some "C", var := some 300000 }]
  delay := some 30
  mode := some "voltage"
  low := some 118
  ptPhase := some "B"
  measuring := some "l1"

def exCapControl : CtlText ℚ where
  element := some "Line.l1"
  delay := some 30
  type := some (some "voltage")
  vmin := some 118
  ptPhase := some (some 2)

def exCapText : CapText ℚ where
  name := "Cap1"
  bus := some ("Bus_7", [])
  phases := some 3
  kV := some (416 / 100)
  conn := some "Wye"
  kvar := some 600
  control := some exCapControl

theorem exCap_text : writeCap exCap = some exCapText := by decide +kernel

def exCapData : CapData ℚ where
  name := "cap1"
  bus := some ("bus_7", none)
  conn := some "wye"
  kV := some (416 / 100)
  phases := some 3
  kvar := .steps [600]

def exCtlData : CtlData ℚ where
  capacitor := "cap1"
  element := some "Line.l1"
  delay := some 30
  type := some "Voltage"
  vmin := some 118
  vmax := some 126
  ptPhase := some 2

def exSpell (s : String) : String := if s = "voltage" then "Voltage" else if s = "current" then "Current" else s

theorem exCap_reports : ReportsCap exSpell exCapText exCapData [exCtlData] where
  enabled := rfl
  name := by decide +kernel
  bus := by
    intro b ns h
    injection h with h
    injection h with h1 h2
    subst h1 h2
    exact ⟨"bus_7", by decide +kernel, rfl⟩
  conn := by
    intro c h
    injection h with h
    subst h
    exact ⟨"wye", by decide +kernel, rfl⟩
  kV := fun v h => h
  phases := fun v h => h
  kvar := fun x h => .inr (by injection h with h; subst h; rfl)
  own := fun k _ => ⟨exCtlData, List.mem_cons_self, by decide +kernel⟩
  control := by
    intro c hc _
    rw [List.mem_singleton.1 hc]
    exact ⟨exCapControl, rfl, fun e h => h, fun v h => h, (fun m h => by injection h with h; injection h with h; subst h; rfl), fun v h => h,
      (fun v h => by cases h), (fun v h => by cases h), (fun v h => by cases h), (fun v h => by injection h with h)⟩

example : (readCap [exCtlData] exCapData).map (fun r => (r.name, r.bus, r.conn, r.volt, r.mode)) =
      some (some "cap1", some "bus_7", some "Y", some 4160, some "voltage") ∧
    ((readCap [exCtlData] exCapData).bind (·.caps)) =
      some [⟨some "A", some 200000⟩, ⟨some "B", some 200000⟩, ⟨some "C", some 200000⟩] := by
  constructor <;> decide +kernel

/-- a capacitor between two phases -/
def exTwoCap : DCap ℚ where
  name := some "c2"
  bus := some "b"
  caps := some [{ phase := some "A", var := some 100000 }, { phase := some "C", var := some 100000 }]

example : (writeCap exTwoCap).map (fun t => (t.bus, t.phases, t.kvar)) = some (some ("b", [1, 3]), some 1, some 200) ∧
    ((readCap [] ({ name := "c2", bus := some ("b", some [1, 3]), phases := some 1, kvar := .steps [200] } : CapData ℚ)).bind (·.caps)).map totalVar = some 400000 := by
  constructor <;> decide +kernel

end Ditto.Dss
