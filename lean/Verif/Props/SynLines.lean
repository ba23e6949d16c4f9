import Verif.Lemmas.SynLines

/-! C98: lines and wires of Synergi databases. -/
namespace Ditto.Syn
open Ditto Glm Syn.Spec

theorem lower_nil {t : Text} : lower t = [] ↔ t = [] := by
  unfold lower
  exact List.map_eq_nil_iff

theorem wireConductor_name {r : LineRow} {i : Nat} {p : Char} {name : Text} (h : wireConductor (lowerLine r) i p = some name) :
    name = lower (nameFor r p) := by
  unfold wireConductor at h
  unfold nameFor
  by_cases hN : p = 'N' ∧ r.neutral ≠ []
  · rw [if_pos hN]
    rw [if_pos ⟨hN.1, fun e => hN.2 (lower_nil.mp e)⟩] at h
    injection h with h
    exact h.symm
  · rw [if_neg hN]
    rw [if_neg fun e => hN ⟨e.1, fun e' => e.2 (lower_nil.mpr e')⟩] at h
    split at h
    · split at h
      · injection h with h
        exact h.symm
      · cases h
    · injection h with h
      exact h.symm
    · injection h with h
      exact h.symm
    · cases h

theorem kind_lower (note : Text) : lineTypeOf (lower note) = lineTypeOf note := by
  unfold lineTypeOf
  rw [lower_twice]

theorem prefix_kind (note : Text) : wirePrefix (lineTypeOf note) = kindName (lineTypeOf note) := by
  unfold lineTypeOf
  split
  · decide
  · split <;> decide

theorem kind_is (note : Text) : KindIs note (lineTypeOf note) := by
  have l1 : ("underground".toList).map Char.toLower = "underground".toList := by decide
  have l2 : ("overhead".toList).map Char.toLower = "overhead".toList := by decide
  unfold KindIs Same lineTypeOf lower
  rw [l1, l2]
  refine ⟨fun h => if_pos h, fun h => ?_, fun h1 h2 => by rw [if_neg h1, if_neg h2]⟩
  rw [h, if_neg (by decide), if_pos rfl]

section
variable {num : Text → Option ℚ} {db : LineDb} {ls : List SynLine}

theorem readLines_ok (h : readLines num db = .ok ls) : ∃ feeders, sectionFeeders ((db.lines.map (·.sec)).map lowerSec) = .ok feeders ∧
    linesFrom num feeders (feederSubstations (db.feederTable.map fun f => (lower f.1, lower f.2))) (lowerLineDb db) none ((lineRows db).map lowerLine) = .ok ls := by
  unfold readLines linesOfTables at h
  rw [lineSecs_eq, lineRows_eq] at h
  cases hf : sectionFeeders ((db.lines.map (·.sec)).map lowerSec) with
  | error e => rw [hf] at h; cases h
  | ok feeders =>
    rw [hf] at h
    exact ⟨feeders, rfl, h⟩

theorem rows_ok (h : readLines num db = .ok ls) : ∃ feeders, sectionFeeders ((db.lines.map (·.sec)).map lowerSec) = .ok feeders ∧
    List.Forall₂ (fun r l => ∃ cap, readLine num feeders (feederSubstations (db.feederTable.map fun f => (lower f.1, lower f.2))) (lowerLineDb db) cap
      (lowerLine r) = .ok l) (lineRows db) ls := by
  obtain ⟨feeders, hf, hl⟩ := readLines_ok h
  exact ⟨feeders, hf, List.forall₂_map_left_iff.mp (linesFrom_ok hl)⟩

theorem mem_lineRows {r : LineRow} (h : r ∈ lineRows db) : r ∈ db.lines := (List.mem_filter.mp h).1

/-- what is known of a wire that was read -/
structure WireFacts (db : LineDb) (r : LineRow) (e : Equip) (i : Nat) (p : Char) (w : SynWire) : Prop where
  phase : w.phase = p
  flags : w.isRecloser = e.recloser ∧ w.isSwitch = e.isSwitch ∧ w.isFuse = e.fuse
  name : w.nameclass = kindName (lineTypeOf r.note) ++ shown (nameFor r p)
  place : w.x = (positionOf (configOf (db.confs.map lowerConf) (lower r.config)) i p).map (·.1) ∧
    w.y = (positionOf (configOf (db.confs.map lowerConf) (lower r.config)) i p).map fun q => r.height + q.2
  values : ∃ v, wireValues e = .ok v ∧ w.interrupting = v.2.2.1 ∧ w.isOpen = v.2.2.2 ∧ (∀ x, v.1 = some x → w.ampacity = some x) ∧
    (∀ x, v.2.1 = some x → w.emergency = some x) ∧ ∀ c, ConductorIs db (nameFor r p) c → w.ampacity = some (v.1.getD c.continuous) ∧
      w.emergency = some (v.2.1.getD c.interrupt)
  sizes : ∀ c, ConductorIs db (nameFor r p) c → ∃ k, scaleOf db.units = some k ∧ w.gmr = some (c.gmr * k.medium) ∧
    w.diameter = some (c.diameter * k.short) ∧ w.resistance = some (c.resistance * k.perLong) ∧ w.concentric = concentricOf c
  unknown : (∀ c ∈ db.conds, ¬Same c.name (nameFor r p)) → w.gmr = none ∧ w.diameter = none ∧ w.resistance = none ∧ w.concentric = none

theorem wire_facts {r : LineRow} {e : Equip} {i : Nat} {p : Char} {w : SynWire} (h : readWire (lowerLineDb db) (lowerLine r) e i p = .ok w) :
    WireFacts db r e i p w := by
  obtain ⟨v, name, hv, hn, hc⟩ := readWire_ok h
  have en := wireConductor_name hn
  have hname : wirePrefix (lineTypeOf (lowerLine r).note) ++ unblank name = kindName (lineTypeOf r.note) ++ shown (nameFor r p) := by
    rw [en, unblank_lower]
    show wirePrefix (lineTypeOf (lower r.note)) ++ _ = _
    rw [kind_lower, prefix_kind]
  have isC : ∀ c, ConductorIs db (nameFor r p) c → conductorOf (lowerLineDb db).conds name = some (lowerCond c) := by
    rintro c ⟨h1, h2, h3⟩
    rw [en]
    exact last_of (low := lowerCond) (key := CondRow.name) (fun _ => rfl) h1 h2 h3
  rcases hc with ⟨hc, rfl⟩ | ⟨c, hc, hw⟩
  · have no : ∀ c, ¬ConductorIs db (nameFor r p) c := fun c h => by rw [isC c h] at hc; cases hc
    exact ⟨rfl, ⟨rfl, rfl, rfl⟩, hname, ⟨rfl, rfl⟩, ⟨v, hv, rfl, rfl, fun x hx => hx, fun x hx => hx, fun c h => absurd h (no c)⟩, fun c h => absurd h (no c),
      fun _ => ⟨rfl, rfl, rfl, rfl⟩⟩
  · obtain ⟨k, hk, rfl⟩ := withConductor_ok hw
    refine ⟨rfl, ⟨rfl, rfl, rfl⟩, hname, ⟨rfl, rfl⟩, ⟨v, hv, rfl, rfl, ?_, ?_, ?_⟩, ?_, ?_⟩
    · intro x hx
      show some (v.1.getD _) = some x
      rw [hx]; rfl
    · intro x hx
      show some (v.2.1.getD _) = some x
      rw [hx]; rfl
    · intro d hd
      rw [isC d hd] at hc
      injection hc with hc
      subst hc
      exact ⟨rfl, rfl⟩
    · intro d hd
      rw [isC d hd] at hc
      injection hc with hc
      subst hc
      exact ⟨k, hk, rfl, rfl, rfl, rfl⟩
    · intro hno
      unfold conductorOf at hc
      have e1 := List.find?_some hc
      obtain ⟨d, hd, rfl⟩ := List.mem_map.mp (List.mem_reverse.mp (List.mem_of_find?_eq_some hc))
      rw [en] at e1
      exact absurd (of_decide_eq_true e1) (hno d hd)

/-- what is known of a line that was read -/
structure LineFacts (num : Text → Option ℚ) (db : LineDb) (feeders : List (Text × Text)) (r : LineRow) (e : Equip) (l : SynLine) : Prop where
  name : l.name = shown r.sec.id
  ends : l.fromElement = shown r.sec.fromNode ∧ l.toElement = shown r.sec.toNode
  feeder : l.feeder = find feeders (lower r.sec.id)
  substation : l.substation = substationOf (feederSubstations (db.feederTable.map fun f => (lower f.1, lower f.2))) l.feeder
  length : ∃ k, scaleOf db.units = some k ∧ l.length = r.length * k.medium
  kind : l.lineType = lineTypeOf r.note
  voltage : Kv num r.sec l.voltage
  equip : equipOf (lowerLineDb db) (lower r.sec.id) = .ok e
  flags : l.isRecloser = e.recloser ∧ l.isSwitch = e.isSwitch ∧ l.isFuse = e.fuse
  wires : ∃ ws, l.wires = keptWires (lineTypeOf r.note) ws ∧ ws.length = (phasesOf r.sec).length ∧
    ∀ (i : Nat) w, ws[i]? = some w → ∃ p, (phasesOf r.sec)[i]? = some p ∧ WireFacts db r e i p w

theorem line_facts {feeders : List (Text × Text)} {cap : Option (Rows ℚ)} {r : LineRow} {l : SynLine}
    (h : readLine num feeders (feederSubstations (db.feederTable.map fun f => (lower f.1, lower f.2))) (lowerLineDb db) cap (lowerLine r) = .ok l) :
    ∃ e, LineFacts num db feeders r e l ∧ lineMatrices (lowerLineDb db) cap (lowerLine r) = .ok (l.impedance, l.capacitance) := by
  obtain ⟨length, v, e, ws, z, c, h1, h2, h3, h4, h5, rfl⟩ := readLine_ok h
  refine ⟨e, ⟨clean_lower_eq _, ⟨clean_lower_eq _, clean_lower_eq _⟩, rfl, rfl, ?_, kind_lower _, lineVoltage_ok h2, h3, ⟨rfl, rfl, rfl⟩, ws, ?_, ?_⟩, h5⟩
  · obtain ⟨k, hk⟩ := inMeters_ok (u := db.units) h1
    refine ⟨k, hk, ?_⟩
    have : inMeters (lower db.units) .MUL r.length = .ok length := h1
    rw [inMeters_of hk rfl] at this
    injection this with this
    exact this.symm
  · show keptWires (lineTypeOf (lower r.note)) ws = _
    rw [kind_lower]
  · have h4' : wiresFrom (lowerLineDb db) (lowerLine r) e 0 (phasesOf r.sec) = .ok ws := by rw [← secPhases_lower]; exact h4
    obtain ⟨hl, hw⟩ := wiresFrom_ok h4'
    refine ⟨hl, fun i w hi => ?_⟩
    obtain ⟨p, hp, hr⟩ := hw i w hi
    rw [Nat.zero_add] at hr
    exact ⟨p, hp, wire_facts hr⟩

theorem LineFacts.phases {feeders : List (Text × Text)} {r : LineRow} {e : Equip} {l : SynLine} (f : LineFacts num db feeders r e l) :
    ∃ ws, l.wires = keptWires (lineTypeOf r.note) ws ∧ ws.map (·.phase) = phasesOf r.sec := by
  obtain ⟨ws, h1, h2, h3⟩ := f.wires
  refine ⟨ws, h1, List.ext_getElem? fun i => ?_⟩
  rw [List.getElem?_map]
  cases hw : ws[i]? with
  | none =>
    rw [List.getElem?_eq_none_iff] at hw
    exact (List.getElem?_eq_none (h2 ▸ hw)).symm
  | some w =>
    obtain ⟨p, hp, fw⟩ := h3 i w hw
    rw [hp, Option.map_some, fw.phase]

theorem LineFacts.wire {feeders : List (Text × Text)} {r : LineRow} {e : Equip} {l : SynLine} (f : LineFacts num db feeders r e l) {w : SynWire} (hw : w ∈ l.wires) :
    ∃ i, (phasesOf r.sec)[i]? = some w.phase ∧ WireFacts db r e i w.phase w := by
  obtain ⟨ws, h1, h2, h3⟩ := f.wires
  have hm : w ∈ ws := by
    rw [h1] at hw
    unfold keptWires at hw
    split at hw
    · exact (List.mem_filter.mp hw).1
    · exact hw
  obtain ⟨i, hi⟩ := List.getElem?_of_mem hm
  obtain ⟨p, hp, fw⟩ := h3 i w hi
  have e := fw.phase
  subst e
  exact ⟨i, hp, fw⟩

theorem config_of {r : LineRow} {c : ConfRow} (h : ConfigIs db r c) : configOf (db.confs.map lowerConf) (lower r.config) = some (lowerConf c) := by
  obtain ⟨h0, h1, h2, h3⟩ := h
  unfold configOf
  rw [if_neg fun e => h0 (lower_nil.mp e)]
  exact last_of (low := lowerConf) (key := ConfRow.name) (fun _ => rfl) h1 h2 h3

theorem filter_sec {R : Type} (rows : List R) {low : R → R} {key : R → Text} (hk : ∀ r, key (low r) = lower (key r)) (n : Text) :
    ((rows.map low).filter fun r => decide (key r = lower n)) = (rows.filter fun r => decide (Same (key r) n)).map low := by
  rw [List.filter_map]
  congr 1
  apply List.filter_congr
  intro r _
  show decide (key (low r) = lower n) = _
  rw [hk, decide_eq_decide]
  exact Iff.rfl

theorem equip_none {r : LineRow} {e : Equip} (h : equipOf (lowerLineDb db) (lower r.sec.id) = .ok e) (hn : NoDevice db r) : e = ⟨false, false, false, none⟩ := by
  have e1 : ((lowerLineDb db).reclosers.filter fun d => decide (d.sec = lower r.sec.id)) = [] := by
    refine (filter_sec db.reclosers (low := lowerCut) (key := CutRow.sec) (fun _ => rfl) r.sec.id).trans ?_
    rw [List.filter_eq_nil_iff.mpr fun d hd => by simpa using hn.1 d hd]; rfl
  have e2 : ((lowerLineDb db).switches.filter fun d => decide (d.sec = lower r.sec.id)) = [] := by
    refine (filter_sec db.switches (low := lowerSwitch) (key := SwitchRow.sec) (fun _ => rfl) r.sec.id).trans ?_
    rw [List.filter_eq_nil_iff.mpr fun d hd => by simpa using hn.2.1 d hd]; rfl
  have e3 : ((lowerLineDb db).fuses.filter fun d => decide (d.sec = lower r.sec.id)) = [] := by
    refine (filter_sec db.fuses (low := lowerCut) (key := CutRow.sec) (fun _ => rfl) r.sec.id).trans ?_
    rw [List.filter_eq_nil_iff.mpr fun d hd => by simpa using hn.2.2 d hd]; rfl
  unfold equipOf recloserOf switchOf fuseOf at h
  rw [e1, e2, e3] at h
  dsimp only at h
  unfold protectorOf at h
  split at h
  · split at h
    · cases h
    · injection h with h; exact h.symm
  · injection h with h; exact h.symm

/-- Each section without regulator and transformer becomes one line, with its name, ends, feeder, substation, length, kind and voltage, and with one
wire for each of its letters, but none for the neutral of an underground line. The wires have the sizes and ratings of their conductors and the places
of the configuration. Missing: ratings of devices (C99), matrices (C100), the resistance of concentric neutrals (`C98_concentric_violated`) and their
sizes in metric databases (`C98_metric_violated`). -/
theorem C98_lines_partial (h : readLines num db = .ok ls) : List.Forall₂ (LineAt num db) (lineRows db) ls := by
  obtain ⟨feeders, hf, hl⟩ := rows_ok h
  have hmem : ∀ r ∈ lineRows db, r ∈ db.lines := fun r hr => mem_lineRows hr
  clear h
  generalize lineRows db = rows at hl hmem
  induction hl with
  | nil => exact .nil
  | @cons r l rows ls h0 _ ih =>
    refine .cons ?_ (ih fun x hx => hmem x (.tail _ hx))
    obtain ⟨cap, h0⟩ := h0
    obtain ⟨e, f, _⟩ := line_facts h0
    have hr := hmem r List.mem_cons_self
    have hfe : l.feeder = some (shown r.sec.feeder) := by
      rw [f.feeder]
      exact feeder_of hf (List.mem_map_of_mem hr) rfl
    refine ⟨f.name, f.ends, hfe, ?_, f.length, by rw [f.kind]; exact kind_is _, f.voltage, ?_, ?_⟩
    · intro hu p hp e
      rw [f.substation, hfe]
      exact substation_of hu hp e
    · obtain ⟨ws, h1, h2⟩ := f.phases
      rw [h1, f.kind]
      unfold keptWires
      split
      case isTrue hk =>
        rw [← h2, List.filter_map]
        congr 1
        apply List.filter_congr
        intro w _
        show decide (w.phase ≠ 'N') = decide _
        rw [decide_eq_decide]
        exact ⟨fun h1 h2 => h1 h2.1, fun h1 h2 => h1 ⟨h2, hk⟩⟩
      case isFalse hk =>
        rw [h2]
        symm
        apply List.filter_eq_self.mpr
        intro c _
        exact decide_eq_true fun h => hk h.2
    · intro w hw
      obtain ⟨i, hi, fw⟩ := f.wire hw
      refine ⟨by rw [f.kind]; exact fw.name, ?_, ?_, ?_, ?_, fw.unknown, ?_, ?_⟩
      · intro c hc k hk
        obtain ⟨k', hk', h1, h2, h3, _⟩ := fw.sizes c hc
        rw [hk] at hk'
        injection hk' with hk'
        subst hk'
        exact ⟨h1, h2, h3⟩
      · intro hn c hc
        have e0 := equip_none f.equip hn
        subst e0
        obtain ⟨v, hv, _, _, _, _, h5⟩ := fw.values
        injection hv with hv
        subst hv
        exact h5 c hc
      · intro c hc hnd j hj p hp
        obtain ⟨h1, h2⟩ := fw.place
        have hij : i = j := by
          have l1 := (List.getElem?_eq_some_iff.mp hi).1
          exact (List.getElem?_inj l1 hnd).mp (hi.trans hj.symm)
        subst hij
        rw [config_of hc] at h1 h2
        have hpos : positionOf (some (lowerConf c)) i w.phase = some p := by
          unfold positionOf
          dsimp only
          rcases hp with ⟨hN, rfl⟩ | ⟨hN, hp⟩
          · rw [if_pos hN]; rfl
          · rw [if_neg hN]
            match i, hp with
            | 0, hp => exact hp
            | 1, hp => exact hp
            | 2, hp => exact hp
        rw [hpos] at h1 h2
        exact ⟨h1, h2⟩
      · intro hno
        obtain ⟨h1, h2⟩ := fw.place
        have hc : configOf (db.confs.map lowerConf) (lower r.config) = none := by
          unfold configOf
          split
          · rfl
          · rw [List.find?_eq_none]
            intro x hx
            obtain ⟨c, hc, rfl⟩ := List.mem_map.mp (List.mem_reverse.mp hx)
            exact fun e => hno c hc (of_decide_eq_true e)
        rw [hc] at h1 h2
        exact ⟨h1, h2⟩
      · intro c hc
        obtain ⟨k, hk, _, _, _, h4⟩ := fw.sizes c hc
        rw [h4]
        unfold concentricOf
        split
        case isTrue hg => exact ⟨fun _ => hg, fun _ => rfl⟩
        case isFalse hg => exact ⟨fun h => (by cases h), fun h => absurd h hg⟩
      · intro c hc _ n hn
        obtain ⟨k, hk, _, _, _, h4⟩ := fw.sizes c hc
        rw [h4] at hn
        unfold concentricOf at hn
        split at hn
        case isTrue hg =>
          injection hn with hn
          subst hn
          refine ⟨rfl, by ring, by ring, by ring, by ring⟩
        case isFalse hg => cases hn

/-- The resistance of each concentric neutral is not the one per meter of the database. -/
theorem C98_concentric_violated (h : readLines num db = .ok ls) {l : SynLine} (hl : l ∈ ls) {w : SynWire} (hw : w ∈ l.wires) {n : SynNeutral}
    (hn : w.concentric = some n) {k : Scale} (hk : scaleOf db.units = some k) : ∃ r ∈ lineRows db, l.name = shown r.sec.id ∧
      ∀ c, ConductorIs db (nameFor r w.phase) c → c.strandResistance ≠ 0 → n.resistance ≠ c.strandResistance * k.perLong := by
  obtain ⟨feeders, hf, h2⟩ := rows_ok h
  obtain ⟨r, hr, cap, h0⟩ := Glm.found_left h2 hl
  obtain ⟨e, f, _⟩ := line_facts h0
  refine ⟨r, hr, f.name, fun c hc h0 => ?_⟩
  obtain ⟨i, hi, fw⟩ := f.wire hw
  obtain ⟨_, _, _, _, _, h4⟩ := fw.sizes c hc
  rw [h4] at hn
  unfold concentricOf at hn
  split at hn
  case isFalse hg => cases hn
  case isTrue hg =>
    injection hn with hn
    subst hn
    show c.strandResistance / 160934 ≠ c.strandResistance * k.perLong
    rw [div_eq_mul_inv]
    intro he
    have := mul_left_cancel₀ h0 he
    unfold scaleOf at hk
    split at hk
    · injection hk with hk; subst hk; norm_num at this
    · split at hk
      · injection hk with hk; subst hk; norm_num at this
      · split at hk
        · injection hk with hk; subst hk; norm_num at this
        · cases hk

/-- In a metric database the sizes of concentric neutrals are taken to be inches. -/
theorem C98_metric_violated (h : readLines num db = .ok ls) (hm : Same db.units "metric".toList) {l : SynLine} (hl : l ∈ ls) {w : SynWire} (hw : w ∈ l.wires)
    {n : SynNeutral} (hn : w.concentric = some n) : ∃ r ∈ lineRows db, l.name = shown r.sec.id ∧
      ∀ c, ConductorIs db (nameFor r w.phase) c → 1000 * n.outside = 25.4 * c.outside ∧ 1000 * n.diameter = 25.4 * c.strandDiameter ∧
        ∃ d, w.diameter = some d ∧ 1000 * d = c.diameter := by
  obtain ⟨feeders, hf, h2⟩ := rows_ok h
  obtain ⟨r, hr, cap, h0⟩ := Glm.found_left h2 hl
  obtain ⟨e, f, _⟩ := line_facts h0
  refine ⟨r, hr, f.name, fun c hc => ?_⟩
  obtain ⟨i, hi, fw⟩ := f.wire hw
  obtain ⟨k, hk, _, h3, _, h4⟩ := fw.sizes c hc
  rw [h4] at hn
  unfold concentricOf at hn
  split at hn
  case isFalse hg => cases hn
  case isTrue hg =>
    injection hn with hn
    subst hn
    refine ⟨?_, ?_, _, h3, ?_⟩
    · show 1000 * (c.outside * 0.0254) = _; ring
    · show 1000 * (c.strandDiameter * 0.0254) = _; ring
    · have : k.short = 1 / 1000 := by
        have l1 : ¬Same db.units "english2".toList := fun e => by
          have := e.symm.trans hm
          revert this; decide
        have l2 : ¬(Same db.units "english1".toList ∨ Same db.units "english".toList) := by
          rintro (e | e) <;> (have := e.symm.trans hm; revert this; decide)
        unfold scaleOf at hk
        rw [if_neg l1, if_neg l2, if_pos hm] at hk
        injection hk with hk
        rw [← hk]
      rw [this]; ring

/-- A line whose first letter is a phase cannot be read without a name of its conductor. -/
theorem C98_conductor_violated {r : LineRow} (hr : r ∈ lineRows db) {p : Char} {ps : List Char} (hp : phasesOf r.sec = p :: ps) (hN : p ≠ 'N')
    (hc : r.conductor = []) : ¬∃ ls, readLines num db = .ok ls := by
  rintro ⟨ls, h⟩
  obtain ⟨feeders, hf, h2⟩ := rows_ok h
  obtain ⟨l, hl, cap, h0⟩ := Glm.found_right h2 hr
  obtain ⟨length, v, e, ws, z, c, h1, h2, h3, h4, h5, rfl⟩ := readLine_ok h0
  have h4' : wiresFrom (lowerLineDb db) (lowerLine r) e 0 (p :: ps) = .ok ws := by rw [← hp, ← secPhases_lower]; exact h4
  obtain ⟨hl, hw⟩ := wiresFrom_ok h4'
  cases ws with
  | nil => simp at hl
  | cons w ws =>
    obtain ⟨q, hq, hr⟩ := hw 0 w rfl
    injection hq with hq
    subst hq
    obtain ⟨v, name, hv, hn, _⟩ := readWire_ok hr
    unfold wireConductor at hn
    rw [if_neg fun e => hN e.1] at hn
    have : (lowerLine r).conductor = [] := lower_nil.mpr hc
    simp [this] at hn

/-- A line whose fourth letter is a phase cannot be read. -/
theorem C98_fourth_violated {r : LineRow} (hr : r ∈ lineRows db) {p : Char} (hp : (phasesOf r.sec)[3]? = some p) (hN : p ≠ 'N' ∨ r.neutral = []) :
    ¬∃ ls, readLines num db = .ok ls := by
  rintro ⟨ls, h⟩
  obtain ⟨feeders, hf, h2⟩ := rows_ok h
  obtain ⟨l, hl, cap, h0⟩ := Glm.found_right h2 hr
  obtain ⟨length, v, e, ws, z, c, h1, h2, h3, h4, h5, rfl⟩ := readLine_ok h0
  have h4' : wiresFrom (lowerLineDb db) (lowerLine r) e 0 (phasesOf r.sec) = .ok ws := by rw [← secPhases_lower]; exact h4
  obtain ⟨hl, hw⟩ := wiresFrom_ok h4'
  have l3 := (List.getElem?_eq_some_iff.mp hp).1
  obtain ⟨q, hq, hr⟩ := hw 3 ws[3] (List.getElem?_eq_getElem (hl ▸ l3))
  rw [hp] at hq
  injection hq with hq
  subst hq
  obtain ⟨v, name, hv, hn, _⟩ := readWire_ok hr
  unfold wireConductor at hn
  rw [if_neg fun e => by
    rcases hN with hN | hN
    · exact hN e.1
    · exact e.2 (lower_nil.mpr hN)] at hn
  simp at hn

end
end Ditto.Syn
