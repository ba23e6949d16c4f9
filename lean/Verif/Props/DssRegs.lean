import Verif.Lemmas.DssRegs
import Mathlib.Data.List.TakeWhile
import Verif.Lemmas.GroupVoltages

/-! C62: regulators keep their control, their transformer and their windings in OpenDSS files. -/
namespace Ditto.Dss
open Ditto Ditto.Spec

/-- A regulator that is read back keeps the number of the regulated winding, the transformer (in lower case), the ratings of its current
and voltage transformers, its delay and its voltage limit, and if it has no setpoint its band center; its ends and reactances are those of
the transformer with this name. (Missing: name, bandwidth, setpoint and band center with a setpoint, steps, losses, compensators; see below.) -/
theorem C62_control_partial {pick : List ℚ → Option ℚ} {comps : List CompSource} {parsed : List DTrafo} {ts : List TrafoData}
    {new : Option NewTrafo} {t r : DReg} {c : String} (h : RegReadBack pick comps parsed ts new t r) (hc : t.connected = some c) :
    new = none ∧ r.connected = some (pyLower c) ∧ (∀ w, t.winding = some w → r.winding = some w) ∧
      (∀ v, t.ctPrim = some v → r.ctPrim = some v) ∧ (∀ v, t.delay = some v → r.delay = some v) ∧
      (∀ v, t.ptRatio = some v → r.ptRatio = some v) ∧ (∀ v, t.voltageLimit = some v → r.voltageLimit = some v) ∧
      (t.setpoint = none → ∀ v, t.bandcenter = some v → r.bandcenter = some v) ∧
      ((∀ x ∈ parsed, x.name ≠ some (pyLower c)) → r.fromEl = none ∧ r.toEl = none ∧ r.reactances = none) ∧
      (∀ x ∈ parsed, x.name = some (pyLower c) → (∀ y ∈ parsed, y.name = some (pyLower c) → y = x) →
        r.fromEl = x.fromEl ∧ r.toEl = x.toEl ∧ r.reactances = x.reactances) := by
  obtain ⟨text, d, st, v, h1, h2, h3⟩ := h
  obtain ⟨name, tr, hn, ht, hl, rfl⟩ := writeReg_inv h1
  obtain ⟨rfl, rfl⟩ := regTrafo_connected hc ht
  obtain ⟨shift, ws, -, rfl⟩ := readReg_inv h3
  obtain ⟨x, hx, hxl⟩ := h2.transformer
  have htr : d.transformer.map pyLower = some (pyLower tr) := by rw [hx, Option.map_some, hxl]; rfl
  refine ⟨rfl, htr, ?_, h2.ct, h2.delay, h2.ptratio, h2.vlimit, ?_, ?_, ?_⟩
  · intro w hw
    have := h2.winding
    simp only [rawRegText, regWinding, hw] at this
    exact this
  · intro hs v hv
    refine h2.vreg v ?_
    simp [rawRegText, hs, hv]
  · intro hno
    have : parsedTrafo parsed (some (pyLower tr)) = none := by
      simp only [parsedTrafo]
      rw [List.find?_eq_none]
      intro y hy
      simpa using hno y hy
    simp [rawReg, htr, this]
  · intro y hy hyn hyo
    have : parsedTrafo parsed (some (pyLower tr)) = some y :=
      find_only hy (by simpa using hyn) fun z hz hzn => hyo z hz (by simpa using hzn)
    simp [rawReg, htr, this]

/-- the name gets the prefix `regulator_` and is cut at the first dot -/
theorem C62_name_violated {pick : List ℚ → Option ℚ} {comps : List CompSource} {parsed : List DTrafo} {ts : List TrafoData}
    {new : Option NewTrafo} {t r : DReg} {n : String} (h : RegReadBack pick comps parsed ts new t r) (hn : t.name = some n) :
    ∃ n', r.name = some n' ∧ "regulator_".toList <+: n'.toList ∧ ('.' ∉ n.toList → n' = "regulator_" ++ pyLower n) := by
  obtain ⟨text, d, st, v, h1, h2, h3⟩ := h
  obtain ⟨name, tr, hn', ht, hl, rfl⟩ := writeReg_inv h1
  obtain ⟨shift, ws, -, rfl⟩ := readReg_inv h3
  rw [hn] at hn'
  cases hn'
  refine ⟨regName d.name, rfl, ?_, ?_⟩
  · unfold regName
    rw [String.toList_append]
    exact List.prefix_append _ _
  · intro hdot
    have hlow : d.name.toList.map Char.toLower = n.toList.map Char.toLower := by
      have := h2.name
      unfold pyLower at this
      simpa [rawRegText] using congrArg String.toList this
    have hd : ∀ c : Char, c.toLower = '.' ↔ c = '.' := by
      intro c
      by_cases hc : c.val ≥ 'A'.val ∧ c.val ≤ 'Z'.val
      · have e : (c.toLower).val = c.val + ('a'.val - 'A'.val) := by
          unfold Char.toLower
          rw [dif_pos hc]
        have h1 : ('A'.val : UInt32).toNat = 65 := rfl
        have h2 : ('Z'.val : UInt32).toNat = 90 := rfl
        have h3 : ('a'.val - 'A'.val : UInt32).toNat = 32 := rfl
        have h4 : ('.'.val : UInt32).toNat = 46 := rfl
        simp only [ge_iff_le, UInt32.le_iff_toNat_le, h1, h2] at hc
        constructor
        · intro he
          have := congrArg (fun x : Char => x.val.toNat) he
          simp only [e, UInt32.toNat_add, h3, h4] at this
          omega
        · rintro rfl
          simp only [h4] at hc
          omega
      · have e : c.toLower = c := by
          unfold Char.toLower
          rw [dif_neg hc]
        rw [e]
    have hdot' : '.' ∉ d.name.toList := by
      intro hm
      have h1 : '.' ∈ d.name.toList.map Char.toLower := List.mem_map.2 ⟨'.', hm, (hd '.').2 rfl⟩
      rw [hlow] at h1
      obtain ⟨c, hc, hcl⟩ := List.mem_map.1 h1
      rw [hd] at hcl
      exact hdot (hcl ▸ hc)
    unfold regName
    rw [List.takeWhile_eq_self_iff.2, String.ofList_toList]
    · rw [h2.name]
      rfl
    · intro c hc
      rw [decide_eq_true_iff]
      rintro rfl
      exact hdot' hc

/-- every time the bandwidth grows by a fifth -/
theorem C62_bandwidth_violated {pick : List ℚ → Option ℚ} {comps : List CompSource} {parsed : List DTrafo} {ts : List TrafoData}
    {new : Option NewTrafo} {t r : DReg} {b : ℚ} (h : RegReadBack pick comps parsed ts new t r) (hb : t.bandwidth = some b) :
    r.bandwidth = some (b * (6 / 5)) := by
  obtain ⟨text, d, st, v, h1, h2, h3⟩ := h
  obtain ⟨name, tr, hn', ht, hl, rfl⟩ := writeReg_inv h1
  obtain ⟨shift, ws, -, rfl⟩ := readReg_inv h3
  have := h2.band (b * (12 / 10)) (by simp [rawRegText, hb])
  show d.band = _
  rw [this]
  norm_num

/-- with a setpoint the band center is replaced by it, on another scale -/
theorem C62_bandcenter_violated {pick : List ℚ → Option ℚ} {comps : List CompSource} {parsed : List DTrafo} {ts : List TrafoData}
    {new : Option NewTrafo} {t r : DReg} {s : ℚ} (h : RegReadBack pick comps parsed ts new t r) (hs : t.setpoint = some s) :
    r.bandcenter = some (s * (6 / 5)) ∧ ∀ s', r.setpoint = some s' → s' = s * (6 / 5) := by
  obtain ⟨text, d, st, v, h1, h2, h3⟩ := h
  obtain ⟨name, tr, hn', ht, hl, rfl⟩ := writeReg_inv h1
  obtain ⟨shift, ws, -, rfl⟩ := readReg_inv h3
  have hv : d.vreg = some (s / 100 * 120) := h2.vreg _ (by simp [rawRegText, hs])
  have he : s / 100 * 120 = s * (6 / 5) := by ring
  rw [he] at hv
  refine ⟨hv, fun s' hs' => ?_⟩
  have hs' : d.vregInt.map (fun k => (k : ℚ)) = some s' := hs'
  cases hk : d.vregInt with
  | none => rw [hk] at hs'; cases hs'
  | some k =>
    rw [hk] at hs'
    cases hs'
    have := h2.vregInt k hk
    rw [hv] at this
    exact (Option.some.inj this).symm

/-- A regulator that is read from an OpenDSS file with an integer voltage, and written again, has a voltage that is higher by a fifth. -/
theorem C62_voltage_violated {pick : List ℚ → Option ℚ} {comps : List CompSource} {parsed : List DTrafo} {ts : List TrafoData}
    {st : Option RegVars} {d : RegData} {v : RegVars} {r : DReg} {text : RegText} {new : Option NewTrafo} {k : Int}
    (hr : readReg parsed ts st d = .ok (some (v, r))) (hk : d.vregInt = some k) (hw : writeReg pick comps r = .ok (some (text, new))) :
    text.vregs.getLast? = some ((k : ℚ) * (6 / 5)) := by
  obtain ⟨shift, ws, -, rfl⟩ := readReg_inv hr
  obtain ⟨name, tr, -, -, -, rfl⟩ := writeReg_inv hw
  have he : (k : ℚ) / 100 * 120 = k * (6 / 5) := by ring
  simp [rawRegText, rawReg, hk, he]

/-- a regulator with losses cannot be written -/
theorem C62_losses_violated (pick : List ℚ → Option ℚ) (comps : List CompSource) {t : DReg} {n c : String} {x : ℚ} (hn : t.name = some n)
    (hc : t.connected = some c) (hx : t.noload = some x) : writeReg pick comps t = .error .keyError := by
  unfold writeReg
  simp [hn, regTrafo, hc, hx]

/-- the number of steps is not written: what is read does not depend on it -/
theorem C62_steps_violated (pick : List ℚ → Option ℚ) (comps : List CompSource) (t : DReg) (hi lo : Option Int) :
    writeReg pick comps { t with highstep := hi, lowstep := lo } = writeReg pick comps t := by
  unfold writeReg regTrafo newTrafo newBuses regWinding
  rfl

/-! ### compensators -/

/-- The compensators of a transformer reach the file only if the regulator has the name of the transformer. -/
theorem C62_compensator_violated {pick : List ℚ → Option ℚ} {comps : List CompSource} {t : DReg} {text : RegText} {new : Option NewTrafo}
    (hp : pick [] = none) (h : writeReg pick comps t = .ok (some (text, new))) (hc : ∀ s ∈ comps, t.name ≠ some s.name) :
    text.r = none ∧ text.x = none := by
  obtain ⟨name, tr, hn, -, -, rfl⟩ := writeReg_inv h
  have hf : (comps.filter fun s => s.name = name) = [] := by
    rw [List.filter_eq_nil_iff]
    intro s hs
    have := hc s hs
    rw [hn] at this
    simpa using fun e : s.name = name => this (by rw [e])
  simp [rawRegText, compRs, compXs, hf, hp]

/-- If it does, and the compensators of all phases agree, they are kept in all windings that are read. -/
theorem C62_compensator_partial {pick : List ℚ → Option ℚ} {comps : List CompSource} {parsed : List DTrafo} {ts : List TrafoData}
    {new : Option NewTrafo} {t r : DReg} {n : String} {a b : ℚ} (hp : ∀ l, l ≠ [] → ∃ x ∈ l, pick l = some x)
    (h : RegReadBack pick comps parsed ts new t r) (hn : t.name = some n)
    (hr : ∀ s ∈ comps, s.name = n → ∀ x ∈ s.rs, x = a) (hx : ∀ s ∈ comps, s.name = n → ∀ x ∈ s.xs, x = b)
    (he : ∃ s ∈ comps, s.name = n ∧ s.rs ≠ [] ∧ s.xs ≠ []) : ∀ w ∈ r.windings, ∀ p ∈ w.pws, p.compR = some a ∧ p.compX = some b := by
  obtain ⟨text, d, st, v, h1, h2, h3⟩ := h
  obtain ⟨name, tr, hn', -, -, rfl⟩ := writeReg_inv h1
  rw [hn] at hn'
  cases hn'
  obtain ⟨s, hs, hsn, hs1, hs2⟩ := he
  have hra : pick (compRs comps n) = some a := by
    have hne : compRs comps n ≠ [] := by
      obtain ⟨x, hx⟩ := List.exists_mem_of_ne_nil _ hs1
      apply List.ne_nil_of_mem (a := x)
      simp only [compRs, List.mem_dedup, List.mem_flatMap, List.mem_filter, decide_eq_true_eq]
      exact ⟨s, ⟨hs, hsn⟩, hx⟩
    obtain ⟨x, hx, hpx⟩ := hp _ hne
    simp only [compRs, List.mem_dedup, List.mem_flatMap, List.mem_filter, decide_eq_true_eq] at hx
    obtain ⟨s', ⟨h1, h2⟩, h3⟩ := hx
    rw [hpx, hr s' h1 h2 x h3]
  have hxb : pick (compXs comps n) = some b := by
    have hne : compXs comps n ≠ [] := by
      obtain ⟨x, hx⟩ := List.exists_mem_of_ne_nil _ hs2
      apply List.ne_nil_of_mem (a := x)
      simp only [compXs, List.mem_dedup, List.mem_flatMap, List.mem_filter, decide_eq_true_eq]
      exact ⟨s, ⟨hs, hsn⟩, hx⟩
    obtain ⟨x, hx', hpx⟩ := hp _ hne
    simp only [compXs, List.mem_dedup, List.mem_flatMap, List.mem_filter, decide_eq_true_eq] at hx'
    obtain ⟨s', ⟨h1, h2⟩, h3⟩ := hx'
    rw [hpx, hx s' h1 h2 x h3]
  have hdr := h2.r a hra
  have hdx := h2.x b hxb
  obtain ⟨shift, ws, ht, rfl⟩ := readReg_inv h3
  have key : ∀ (td : TrafoData) (l : List Nat) ws, readRWindings td d l = .ok ws → ∀ w ∈ ws, ∀ p ∈ w.pws, p.compR = some a ∧ p.compX = some b := by
    intro td l
    induction l with
    | nil => intro ws h w hw; cases h; cases hw
    | cons i l ih =>
      intro ws h w hw p hp
      unfold readRWindings at h
      split at h
      · cases h
      · next y hy =>
        split at h
        · cases h
        · next ys hys =>
          cases h
          rcases List.mem_cons.1 hw with rfl | hw
          · cases hb : td.buses[i]? with
            | none => simp [readRWinding, hb] at hy
            | some bb =>
              cases htap : td.taps[i]? with
              | none => simp [readRWinding, hb, htap] at hy
              | some tap =>
                rw [readRWinding_ok hb htap] at hy
                cases hy
                obtain ⟨_, _, rfl⟩ := List.mem_map.1 hp
                exact ⟨hdr, hdx⟩
          · exact ih ys hys w hw p hp
  intro w hw p hp
  replace hw : w ∈ ws := hw
  unfold readRegTrafo at ht
  split at ht
  · next td _ =>
    split at ht
    · cases ht
    · split at ht
      · cases ht
      · split at ht
        · cases ht
        · cases ht
        · next ws' vts hws _ =>
          cases ht
          obtain ⟨i, hi⟩ := List.mem_iff_getElem?.1 hw
          rw [List.getElem?_zipWith] at hi
          split at hi
          · next x y hx' hy' =>
            cases hi
            exact key _ _ _ hws x (List.mem_of_getElem? hx') p hp
          · cases hi
  · split at ht
    · cases ht
    · split at ht
      · cases ht
      · cases ht
        cases hw

/-! ### the phase of the voltage transformer -/

theorem readRWindings_get {t : TrafoData} {d : RegData} : ∀ {l : List Nat} {ws : List RWinding}, readRWindings t d l = .ok ws →
    ws.length = l.length ∧ ∀ (i : Nat) w, ws[i]? = some w → ∃ k, l[i]? = some k ∧ readRWinding t d k = .ok w := by
  intro l
  induction l with
  | nil => intro ws h; cases h; exact ⟨rfl, fun i w hw => by cases hw⟩
  | cons k l ih =>
    intro ws h
    unfold readRWindings at h
    split at h
    · cases h
    · next x hx =>
      split at h
      · cases h
      · next xs hxs =>
        cases h
        obtain ⟨h1, h2⟩ := ih hxs
        refine ⟨by rw [List.length_cons, List.length_cons, h1], fun i w hw => ?_⟩
        cases i with
        | zero => cases hw; exact ⟨k, rfl, hx⟩
        | succ i => exact h2 i w hw

theorem voltageTypes_length {n : Nat} {kVs : List ℚ} {vts : List (Option Nat)} (h : voltageTypes n kVs = .ok vts) : vts.length = n := by
  unfold voltageTypes at h
  split at h
  · next hn =>
    split at h
    · cases h
      split <;> exact hn.symm
    · cases h
  · split at h
    · next hn =>
      split at h
      · dsimp only at h
        split at h
        · cases h; exact hn.symm
        · split at h <;> · cases h; exact hn.symm
      · cases h
    · cases h
      exact List.length_replicate

/-- the phases of the last winding are those that the number of the phase refers to -/
theorem lastPhases_read {parsed : List DTrafo} {ts : List TrafoData} {st : Option RegVars} {d : RegData} {v : RegVars} {shift : Option ℚ}
    {ws : List RWinding} {w : RWinding} (h : readRegTrafo parsed ts st d = .ok (v, shift, ws)) (hw : ws.getLast? = some w) :
    ∃ ps, v.phases = some ps ∧ regPhasesOf w = ps.map ofDssPhase := by
  unfold readRegTrafo at h
  split at h
  · next td _ =>
    split at h
    · cases h
    · next n _ =>
      split at h
      · cases h
      · split at h
        · cases h
        · cases h
        · next ws' vts hws hvts =>
          cases h
          obtain ⟨h1, h2⟩ := readRWindings_get hws
          have h3 := voltageTypes_length hvts
          rw [List.length_range] at h1
          rw [List.getLast?_eq_getElem?, List.length_zipWith, h1, h3, min_self, List.getElem?_zipWith] at hw
          split at hw
          · next x y hx hy =>
            cases hw
            obtain ⟨k, hk, hkw⟩ := h2 _ _ hx
            have hlt : n - 1 < n := by
              have := (List.getElem?_eq_some_iff.1 hk).1
              simpa using this
            rw [List.getElem?_range hlt] at hk
            cases hk
            have hn : n ≠ 0 := by omega
            cases hb : td.buses[n - 1]? with
            | none => simp [readRWinding, hb] at hkw
            | some b =>
              cases htap : td.taps[n - 1]? with
              | none => simp [readRWinding, hb, htap] at hkw
              | some tap =>
                rw [readRWinding_ok hb htap] at hkw
                cases hkw
                refine ⟨trafoBusPhases b.2, by simp [lastPhases, hn, hb], ?_⟩
                simp [regPhasesOf, rawRWinding, Function.comp_def]
          · cases hw
  · split at h
    · cases h
    · split at h
      · cases h
      · cases h
        cases hw

theorem ofDss_inj {a b : Nat} {p : String} (ha : ofDssPhase a = some p) (hb : ofDssPhase b = some p) : a = b := by
  unfold ofDssPhase at ha hb
  split_ifs at ha hb with h1 h2 h3 h4 h5 h6 h7 h8 h9 <;> first
    | (subst_vars; rfl)
    | (rw [← hb] at ha; exact absurd ha (by decide))

/-- The phase is kept if the last winding has the phases A, B and C. -/
theorem C62_pt_phase_partial {pick : List ℚ → Option ℚ} {comps : List CompSource} {parsed : List DTrafo} {ts : List TrafoData}
    {new : Option NewTrafo} {t r : DReg} {p : String} {w : RWinding} (h : RegReadBack pick comps parsed ts new t r) (hp : t.ptPhase = some p)
    (hk : p ∈ ["A", "B", "C"]) (hw : r.windings.getLast? = some w) (hl : regPhasesOf w = [some "A", some "B", some "C"]) :
    r.ptPhase = some p := by
  obtain ⟨text, d, st, v, h1, h2, h3⟩ := h
  obtain ⟨name, tr, -, -, -, rfl⟩ := writeReg_inv h1
  obtain ⟨shift, ws, ht, rfl⟩ := readReg_inv h3
  obtain ⟨ps, hv, hps⟩ := lastPhases_read ht hw
  obtain ⟨k, k1, k2⟩ := ofDss_toDss hk
  have hd : d.ptPhase = some (k : Int) := h2.ptPhase k (by simp [rawRegText, hp, k1])
  rw [hl] at hps
  obtain rfl : ps = [1, 2, 3] := by
    obtain ⟨a, b, c, rfl⟩ := List.length_eq_three.1 (by simpa using (congrArg List.length hps).symm : ps.length = 3)
    · simp only [List.map_cons, List.map_nil, List.cons.injEq, and_true] at hps
      rw [ofDss_inj hps.1.symm (by decide : ofDssPhase 1 = some "A"), ofDss_inj hps.2.1.symm (by decide : ofDssPhase 2 = some "B"),
        ofDss_inj hps.2.2.symm (by decide : ofDssPhase 3 = some "C")]
  show readPtPhase v.phases d.ptPhase = some p
  rw [hv, hd]
  simp only [List.mem_cons, List.not_mem_nil, or_false] at hk
  rcases hk with rfl | rfl | rfl
  · rw [ofDss_inj k2 (by decide : ofDssPhase 1 = some "A")]; decide
  · rw [ofDss_inj k2 (by decide : ofDssPhase 2 = some "B")]; decide
  · rw [ofDss_inj k2 (by decide : ofDssPhase 3 = some "C")]; decide

/-- With a single phase B or C the phase is lost. -/
theorem C62_pt_phase_violated {pick : List ℚ → Option ℚ} {comps : List CompSource} {parsed : List DTrafo} {ts : List TrafoData}
    {new : Option NewTrafo} {t r : DReg} {p : String} {w : RWinding} (h : RegReadBack pick comps parsed ts new t r) (hp : t.ptPhase = some p)
    (hk : p ∈ ["B", "C"]) (hw : r.windings.getLast? = some w) (hl : regPhasesOf w = [some p]) : r.ptPhase = none := by
  obtain ⟨text, d, st, v, h1, h2, h3⟩ := h
  obtain ⟨name, tr, -, -, -, rfl⟩ := writeReg_inv h1
  obtain ⟨shift, ws, ht, rfl⟩ := readReg_inv h3
  obtain ⟨ps, hv, hps⟩ := lastPhases_read ht hw
  obtain ⟨k, k1, k2⟩ := ofDss_toDss (List.mem_cons_of_mem "A" hk)
  have hd : d.ptPhase = some (k : Int) := h2.ptPhase k (by simp [rawRegText, hp, k1])
  rw [hl] at hps
  show readPtPhase v.phases d.ptPhase = none
  rw [hv, hd]
  obtain ⟨a, rfl⟩ := List.length_eq_one_iff.1 (by simpa using (congrArg List.length hps).symm : ps.length = 1)
  · simp only [List.mem_cons, List.not_mem_nil, or_false] at hk
    rcases hk with rfl | rfl
    · rw [ofDss_inj k2 (by decide : ofDssPhase 2 = some "B")]
      simp [readPtPhase]
    · rw [ofDss_inj k2 (by decide : ofDssPhase 3 = some "C")]
      simp [readPtPhase]

/-! ### regulators without a transformer -/

theorem regPhases_written {l : List RegPhase} : ∀ {ps : List String}, l.map (·.phase) = ps.map some → (∀ p ∈ ps, p ∈ ["A", "B", "C"]) →
    ∃ ns : List Nat, (l.map fun q => q.phase.bind toDssPhase) = ns.map some ∧ ns.map ofDssPhase = ps.map some := by
  induction l with
  | nil =>
    intro ps h _
    cases ps with
    | nil => exact ⟨[], rfl, rfl⟩
    | cons _ _ => cases h
  | cons w l ih =>
    intro ps h hk
    cases ps with
    | nil => cases h
    | cons p ps =>
      rw [List.map_cons, List.map_cons, List.cons.injEq] at h
      obtain ⟨ns, h1, h2⟩ := ih h.2 fun q hq => hk q (List.mem_cons_of_mem _ hq)
      obtain ⟨n, h4, h5⟩ := ofDss_toDss (hk p List.mem_cons_self)
      refine ⟨n :: ns, ?_, ?_⟩
      · rw [List.map_cons, h1, h.1, Option.bind_some, h4]
        rfl
      · rw [List.map_cons, h2, h5]
        rfl

/-- what is read of a regulator without a transformer -/
theorem new_read_back {pick : List ℚ → Option ℚ} {comps : List CompSource} {parsed : List DTrafo} {ts : List TrafoData}
    {new : Option NewTrafo} {t r : DReg} {n f e : String} {w1 w2 : RWinding} {ps : List String} (hn : t.name = some n)
    (ho : OwnTrafo t f e w1 w2) (hp : regPhasesOf w1 = ps.map some) (hk : ∀ p ∈ ps, p ∈ ["A", "B", "C"])
    (h : RegReadBack pick comps parsed ts new t r) (hnew : ∀ x, new = some x → ∃ td tr, NewRead x parsed ts td tr) :
    r.connected = some (pyLower ("trans_" ++ n)) ∧ r.fromEl.map pyLower = some (pyLower (cleanName f)) ∧
      r.toEl.map pyLower = some (pyLower (cleanName e)) ∧ (∀ x xs, t.reactances = some (x :: xs) → r.reactances = some [x]) ∧
      r.phaseShift = some (if w1.conn = w2.conn then 0 else -30) ∧
      (∃ tr ∈ parsed, tr.name = r.connected ∧ tr.fromEl = r.fromEl ∧ tr.toEl = r.toEl) ∧
      ∃ w1' w2', r.windings = [w1', w2'] ∧ w1'.conn = w1.conn ∧ w2'.conn = w2.conn ∧ w1'.nominal = w1.nominal ∧ w2'.nominal = w2.nominal ∧
        regPhasesOf w1' = ps.map some ∧ regPhasesOf w2' = ps.map some ∧
        (∀ v, w1.rated = some v → w2.rated = some v → w1'.rated = some v ∧ w2'.rated = some v) ∧
        (∀ v, w1.emergency = some v → w1'.emergency = some (v * 1000) ∧ w2'.emergency = some (v * 1000)) ∧
        (∀ v1 v2, w1.nominal = some v1 → w2.nominal = some v2 → (v2 ≤ v1 → w1'.voltageType = some 0 ∧ w2'.voltageType = some 2) ∧
          (v1 < v2 → w1'.voltageType = some 2 ∧ w2'.voltageType = some 0)) := by
  obtain ⟨text, d, st, v, h1, h2, h3⟩ := h
  obtain ⟨name, trn, hn', htr, -, rfl⟩ := writeReg_inv h1
  rw [hn] at hn'
  cases hn'
  obtain ⟨nt, rfl, hnt, rfl⟩ := regTrafo_new ho.alone htr
  obtain ⟨td, tr, hR⟩ := hnew nt rfl
  obtain ⟨v1, hv1⟩ := Option.isSome_iff_exists.1 ho.nominal1
  obtain ⟨v2, hv2⟩ := Option.isSome_iff_exists.1 ho.nominal2
  obtain ⟨c1, hc1⟩ := regConn_known ho.conn1
  obtain ⟨c2, hc2⟩ := regConn_known ho.conn2
  obtain ⟨ns, hns1, hns2⟩ := regPhases_written hp hk
  unfold newTrafo at hnt
  rw [ho.windings] at hnt
  simp only at hnt
  split at hnt
  · cases hnt
  · next p pws hpw =>
    rw [if_neg (by simp [hv1, hv2])] at hnt
    injection hnt with hnt
    rw [← hpw, hns1] at hnt
    have e1 : nt.windings = 2 := by rw [← hnt]; rfl
    have e2 : nt.buses = some (cleanName f, cleanName e, ns.map some) := by rw [← hnt]; simp [newBuses, ho.from_el, ho.to_el]
    have e3 : nt.conns = [c1, c2] := by rw [← hnt]; simp [hc1, hc2]
    have e4 : nt.kVs = [v1 / 1000, v2 / 1000] := by rw [← hnt]; simp [hv1, hv2]
    have e5 : nt.name = "trans_" ++ n := by rw [← hnt]
    have e6 : nt.emerg = w1.emergency := by rw [← hnt]
    have e7 : nt.xhl = t.reactances.bind (·[0]?) := by rw [← hnt]
    have e8 : nt.kVAs = [w1, w2].filterMap fun x => x.rated.map (· / 1000) := by rw [← hnt]
    have hnsne : ns ≠ [] := by
      rintro rfl
      rw [hpw] at hns1
      cases hns1
    obtain ⟨a', b', ha', hb', hbuses⟩ := hR.reports.buses e1 _ _ ns e2 hnsne
    have hconns := hR.reports.conns (by rw [e3, e1]; rfl)
    rw [e3] at hconns
    obtain ⟨y1, y2, hyy, hy1, hy2⟩ : ∃ y1 y2, td.conns = [y1, y2] ∧ pyLower y1 = pyLower c1 ∧ pyLower y2 = pyLower c2 := by
      obtain ⟨y1, y2, hy⟩ := List.length_eq_two.1 (by simpa using congrArg List.length hconns : td.conns.length = 2)
      rw [hy] at hconns
      simp only [List.map_cons, List.map_nil, List.cons.injEq, and_true] at hconns
      exact ⟨y1, y2, hy, hconns.1, hconns.2⟩
    obtain ⟨r1, s1⟩ := readRConn_known ho.conn1 hc1 hy1
    obtain ⟨r2, s2⟩ := readRConn_known ho.conn2 hc2 hy2
    have hkVs := hR.reports.kVs (by rw [e4, e1]; rfl)
    rw [e4] at hkVs
    have hwin : td.windings = some 2 := by rw [hR.reports.windings, e1]
    obtain ⟨t1, t2, htaps⟩ := List.length_eq_two.1 (hR.reports.taps.trans e1)
    have hshift : readShift 2 td.conns = .ok (some (if w1.conn = w2.conn then 0 else -30)) := by
      rw [hyy]
      exact readShift_known ho.conn1 ho.conn2 (le_refl 2) s1 s2
    have hvt : voltageTypes 2 td.kVs = .ok [some (if v2 ≤ v1 then 0 else 2), some (if v2 ≤ v1 then 2 else 0)] := by
      rw [hkVs]
      unfold voltageTypes
      have : v2 / 1000 ≤ v1 / 1000 ↔ v2 ≤ v1 := by rw [div_le_div_iff_of_pos_right (by norm_num)]
      by_cases h : v2 ≤ v1 <;> simp [this, h]
    -- the transformer that is read
    obtain ⟨seen, stT, stT', hseen, hread⟩ := hR.read
    have hst : readBuses stT td.buses = some ⟨a', b', ns⟩ := by rw [hbuses]; rfl
    have hrw := readWindings_two (d := td) (n := 2) (ps := ns) (a := (a', some ns)) (b := (b', some ns)) (by rw [hbuses]; rfl) (by rw [hbuses]; rfl)
    rw [readTrafo_eq hR.reports.enabled hwin hst hshift hrw hvt] at hread
    injection hread with hread
    injection hread with hread
    injection hread with _ hread
    have hlow : pyLower td.name = td.name := by rw [hR.reports.name, pyLower_idem]
    have g1 : tr.name = some td.name := by 
      rw [← hread]
      show some (trafoName seen td) = _
      unfold trafoName
      rw [if_neg hseen, hlow]
    have g2 : tr.fromEl = some a' := by rw [← hread]; rfl
    have g3 : tr.toEl = some b' := by rw [← hread]; rfl
    have g4 : tr.reactances = readReactances td 2 := by rw [← hread]; rfl
    -- the regulator
    obtain ⟨x, hx, hxl⟩ := h2.transformer
    have hxl : pyLower x = td.name := by rw [hxl, hR.reports.name]; rfl
    have hdt : d.transformer.map pyLower = some td.name := by rw [hx, Option.map_some, hxl]
    have hfind : findTrafo ts d = some td := by
      simp only [findTrafo, hx]
      exact find_only hR.mem (by simpa using hxl.symm) fun y hy hyn => hR.only y hy (by
        have : y.name = pyLower x := by simpa using hyn
        rw [this, hxl])
    have hpar : parsedTrafo parsed (some td.name) = some tr :=
      find_only hR.mem' (by simpa using g1) fun y hy hyn => hR.only' y hy (by
        have : y.name = some td.name := by simpa using hyn
        rw [this, g1])
    obtain ⟨shift, ws, ht, rfl⟩ := readReg_inv h3
    have hrw' := readRWindings_two (t := td) (d := d) (a := (a', some ns)) (b := (b', some ns)) (x := t1) (y := t2) (by rw [hbuses]; rfl)
      (by rw [hbuses]; rfl) (by rw [htaps]; rfl) (by rw [htaps]; rfl)
    unfold readRegTrafo at ht
    simp only [hfind, hwin, hshift, hrw', hvt] at ht
    injection ht with ht
    injection ht with _ ht
    injection ht with hsh hws
    have hconn : some td.name = some (pyLower ("trans_" ++ n)) := by rw [hR.reports.name, e5]
    refine ⟨hdt.trans hconn, ?_, ?_, ?_, hsh.symm, ⟨tr, hR.mem', ?_, ?_, ?_⟩, ?_⟩
    · simp [rawReg, hdt, hpar, g2, ha']
    · simp [rawReg, hdt, hpar, g3, hb']
    · intro x xs hxs
      have : td.xsc = some [x] := hR.reports.xsc e1 x (by rw [e7, hxs]; rfl)
      simp [rawReg, hdt, hpar, g4, readReactances, this]
    · rw [g1]; exact hdt.symm
    · simp [rawReg, hdt, hpar]
    · simp [rawReg, hdt, hpar]
    · refine ⟨{ rawRWinding td d 0 (a', some ns) t1 with voltageType := some (if v2 ≤ v1 then 0 else 2) },
        { rawRWinding td d 1 (b', some ns) t2 with voltageType := some (if v2 ≤ v1 then 2 else 0) }, hws.symm, ?_, ?_, ?_, ?_, ?_, ?_, ?_, ?_, ?_⟩
      · simp [rawRWinding, hyy, r1]
      · simp [rawRWinding, hyy, r2]
      · simp [rawRWinding, hkVs, hv1]
      · simp [rawRWinding, hkVs, hv2]
      · rw [← hns2]; simp [rawRWinding, regPhasesOf, trafoBusPhases, Function.comp_def]
      · rw [← hns2]; simp [rawRWinding, regPhasesOf, trafoBusPhases, Function.comp_def]
      · intro v hr1 hr2
        have e9 : nt.kVAs = [v / 1000, v / 1000] := by rw [e8]; simp [hr1, hr2]
        have := hR.reports.kVAs (by rw [e9, e1]; rfl) (by rw [e9]; simp)
        rw [e9] at this
        simp [rawRWinding, this]
      · intro v hv
        have := hR.reports.emerg v (by rw [e6, hv])
        simp [rawRWinding, this]
      · intro x1 x2 hx1 hx2
        rw [hv1] at hx1
        rw [hv2] at hx2
        cases hx1
        cases hx2
        refine ⟨fun h => ?_, fun h => ?_⟩
        · simp [h]
        · simp [not_le.2 h]

/-- A regulator without a transformer gets one, called after it. Both are read with its ends, and the regulator with its connections,
voltages, phases, equal ratings and (first) reactance. (Missing: the emergency ratings, see below, and what is missing above.) -/
theorem C62_new_partial {pick : List ℚ → Option ℚ} {comps : List CompSource} {parsed : List DTrafo} {ts : List TrafoData}
    {new : Option NewTrafo} {t r : DReg} {n f e : String} {w1 w2 : RWinding} {ps : List String} (hn : t.name = some n)
    (ho : OwnTrafo t f e w1 w2) (hp : regPhasesOf w1 = ps.map some) (hk : ∀ p ∈ ps, p ∈ ["A", "B", "C"])
    (h : RegReadBack pick comps parsed ts new t r) (hnew : ∀ x, new = some x → ∃ td tr, NewRead x parsed ts td tr) :
    r.connected = some (pyLower ("trans_" ++ n)) ∧ r.fromEl.map pyLower = some (pyLower (cleanName f)) ∧
      r.toEl.map pyLower = some (pyLower (cleanName e)) ∧ (∀ x xs, t.reactances = some (x :: xs) → r.reactances = some [x]) ∧
      r.phaseShift = some (if w1.conn = w2.conn then 0 else -30) ∧
      (∃ tr ∈ parsed, tr.name = r.connected ∧ tr.fromEl = r.fromEl ∧ tr.toEl = r.toEl) ∧
      ∃ w1' w2', r.windings = [w1', w2'] ∧ w1'.conn = w1.conn ∧ w2'.conn = w2.conn ∧ w1'.nominal = w1.nominal ∧ w2'.nominal = w2.nominal ∧
        regPhasesOf w1' = ps.map some ∧ regPhasesOf w2' = ps.map some ∧
        (∀ v, w1.rated = some v → w2.rated = some v → w1'.rated = some v ∧ w2'.rated = some v) ∧
        (∀ v1 v2, w1.nominal = some v1 → w2.nominal = some v2 → (v2 ≤ v1 → w1'.voltageType = some 0 ∧ w2'.voltageType = some 2) ∧
          (v1 < v2 → w1'.voltageType = some 2 ∧ w2'.voltageType = some 0)) := by
  obtain ⟨h1, h2, h3, h4, h5, h6, w1', w2', h7, h8, h9, h10, h11, h12, h13, h14, -, h15⟩ := new_read_back hn ho hp hk h hnew
  exact ⟨h1, h2, h3, h4, h5, h6, w1', w2', h7, h8, h9, h10, h11, h12, h13, h14, h15⟩

/-- its emergency rating becomes a thousand times as large, in all windings -/
theorem C62_emergency_violated {pick : List ℚ → Option ℚ} {comps : List CompSource} {parsed : List DTrafo} {ts : List TrafoData}
    {new : Option NewTrafo} {t r : DReg} {n f e : String} {w1 w2 : RWinding} {ps : List String} {v : ℚ} (hn : t.name = some n)
    (ho : OwnTrafo t f e w1 w2) (hp : regPhasesOf w1 = ps.map some) (hk : ∀ p ∈ ps, p ∈ ["A", "B", "C"])
    (h : RegReadBack pick comps parsed ts new t r) (hnew : ∀ x, new = some x → ∃ td tr, NewRead x parsed ts td tr)
    (hv : w1.emergency = some v) : ∀ w ∈ r.windings, w.emergency = some (v * 1000) := by
  obtain ⟨-, -, -, -, -, -, w1', w2', h7, -, -, -, -, -, -, -, h14, -⟩ := new_read_back hn ho hp hk h hnew
  intro w hw
  rw [h7] at hw
  simp only [List.mem_cons, List.not_mem_nil, or_false] at hw
  rcases hw with rfl | rfl
  · exact (h14 v hv).1
  · exact (h14 v hv).2

/-- Windings without connection or rating are left out of the lists, so that the values of the next winding are those of an earlier one; a
regulator without ratings gets a list without beginning. -/
theorem C62_lists_violated {pick : List ℚ → Option ℚ} {comps : List CompSource} {t : DReg} {text : RegText} {new : NewTrafo}
    (h : writeReg pick comps t = .ok (some (text, some new))) :
    (∀ w1 w2 x, t.windings = [w1, w2] → w1.conn = none → regConn w2.conn = some x → new.conns = [x]) ∧
    (∀ w1 w2 v, t.windings = [w1, w2] → w1.rated = none → w2.rated = some v → new.kVAs = [v / 1000]) ∧
    ((∀ w ∈ t.windings, w.rated = none) → new.kVAs = []) := by
  obtain ⟨name, trn, -, htr, -, -⟩ := writeReg_inv h
  cases hc : t.connected with
  | some c => exact absurd (regTrafo_connected hc htr).2 (by simp)
  | none =>
    obtain ⟨nt, he, hnt, -⟩ := regTrafo_new hc htr
    cases he
    unfold newTrafo at hnt
    split at hnt
    · cases hnt
    · next w ws hw =>
      split at hnt
      · cases hnt
      · split at hnt
        · cases hnt
        · cases hnt
          rw [← hw]
          refine ⟨?_, ?_, ?_⟩
          · intro w1 w2 x hws h1 h2
            have hn : regConn none = none := rfl
            simp [hws, h1, h2, hn]
          · intro w1 w2 v hws h1 h2
            simp [hws, h1, h2]
          · intro hr
            simp only [List.filterMap_eq_nil_iff]
            intro w hw
            rw [hr w hw]
            rfl

/-- without a transformer, no windings, no phases in the first one, or a missing voltage raise -/
theorem C62_errors (pick : List ℚ → Option ℚ) (comps : List CompSource) {t : DReg} {n : String} (hn : t.name = some n) (hc : t.connected = none) :
    (t.windings = [] → writeReg pick comps t = .error .indexError) ∧
    (∀ w ws, t.windings = w :: ws → (w.pws = [] ∨ ∃ x ∈ t.windings, x.nominal = none) → writeReg pick comps t = .error .typeError) := by
  refine ⟨fun h => ?_, fun w ws h hx => ?_⟩
  · unfold writeReg
    simp [hn, regTrafo, hc, newTrafo, h]
  · have : newTrafo n t = .error .typeError := by
      unfold newTrafo
      rw [h]
      simp only
      rw [h] at hx
      cases hw : w.pws with
      | nil => rfl
      | cons p ps =>
        rcases hx with hx | hx
        · rw [hw] at hx; cases hx
        · simp only
          rw [if_pos hx]
    unfold writeReg
    simp [hn, regTrafo, hc, this]

/-- if no regulator has a name, writing them raises -/
theorem C62_unnamed (pick : List ℚ → Option ℚ) (comps : List CompSource) {rs : List DReg} (hne : rs ≠ []) (h : ∀ r ∈ rs, r.name = none) :
    writeRegs pick comps rs = .error .keyError := by
  have key : ∀ l : List DReg, (∀ r ∈ l, r.name = none) → ∃ x, l.mapM (writeReg pick comps) = .ok x := by
    intro l
    induction l with
    | nil => intro _; exact ⟨[], rfl⟩
    | cons r l ih =>
      intro h
      obtain ⟨x, hx⟩ := ih fun y hy => h y (List.mem_cons_of_mem _ hy)
      refine ⟨none :: x, ?_⟩
      have hr : writeReg pick comps r = .ok none := by
        unfold writeReg
        rw [h r List.mem_cons_self]
      rw [List.mapM_cons, hr, hx]
      rfl
  obtain ⟨x, hx⟩ := key rs h
  unfold writeRegs
  rw [hx]
  simp only
  rw [if_pos ⟨hne, h⟩]

/-- The first regulator whose transformer OpenDSS does not report stops the reader, and so does one after a regulator with two or three
windings. -/
theorem C62_not_found {parsed : List DTrafo} {ts : List TrafoData} {d : RegData} (he : d.enabled = true) {c : String}
    (hc : d.transformer = some c) (hn : ∀ t ∈ ts, t.name ≠ pyLower c) :
    readReg parsed ts none d = .error .unboundLocalError ∧
    ∀ v : RegVars, v.count = 2 ∨ v.count = 3 → ∃ e, readReg parsed ts (some v) d = .error e := by
  have hf : findTrafo ts d = none := by
    simp only [findTrafo, hc]
    rw [List.find?_eq_none]
    intro t ht
    simpa using hn t ht
  constructor
  · unfold readReg readRegTrafo
    simp [he, hf]
  · intro v hv
    refine ⟨if parsed = [] then .indexError else .typeError, ?_⟩
    unfold readReg readRegTrafo
    simp [he, hf, hv]

/-- The regulated winding is the second one if it is not set. -/
theorem C62_winding_default {pick : List ℚ → Option ℚ} {comps : List CompSource} {parsed : List DTrafo} {ts : List TrafoData}
    {new : Option NewTrafo} {t r : DReg} (h : RegReadBack pick comps parsed ts new t r) (hw : t.winding = none) : r.winding = some 2 := by
  obtain ⟨text, d, st, v, h1, h2, h3⟩ := h
  obtain ⟨name, tr, hn, ht, hl, rfl⟩ := writeReg_inv h1
  obtain ⟨shift, ws, -, rfl⟩ := readReg_inv h3
  have := h2.winding
  simp only [rawRegText, regWinding, hw] at this
  exact this

/-- A connection other than wye and delta is read under the name that OpenDSS gives it: zigzag is not read as `Z`. -/
theorem C62_connection_violated {x : String} (hx : regConn (some "Z") = some x) {y : String} (hy : pyLower y = pyLower x) :
    readRConn (some y) = some y ∧ y ≠ "Z" := by
  have : x = "Zigzag" := by
    have h : regConn (some "Z") = some "Zigzag" := by decide +kernel
    rw [h] at hx
    exact (Option.some.inj hx).symm
  subst this
  have hl : pyLower "Zigzag" = "zigzag" := by decide +kernel
  refine ⟨?_, ?_⟩
  · simp only [readRConn, hy, hl]
    rw [if_neg (by decide), if_neg (by decide)]
  · rintro rfl
    revert hy
    decide +kernel

theorem named_texts {pick : List ℚ → Option ℚ} {comps : List CompSource} {rs : List DReg} {l : List (Option (RegText × Option NewTrafo))}
    (h : List.Forall₂ (fun r y => writeReg pick comps r = .ok y) rs l) :
    List.Forall₂ (fun r y => writeReg pick comps r = .ok (some y)) (rs.filter fun r => r.name.isSome) (l.filterMap id) := by
  induction h with
  | nil => exact .nil
  | @cons r y rs l hr _ ih =>
    cases hn : r.name with
    | none =>
      have : y = none := by
        unfold writeReg at hr
        rw [hn] at hr
        cases hr; rfl
      subst this
      rw [List.filter_cons_of_neg (by simp [hn]), List.filterMap_cons_none rfl]
      exact ih
    | some n =>
      cases y with
      | none =>
        unfold writeReg at hr
        rw [hn] at hr
        simp only at hr
        split at hr
        · cases hr
        · split at hr <;> cases hr
      | some y =>
        rw [List.filter_cons_of_pos (by simp [hn]), List.filterMap_cons_some (f := id) (a := some y) rfl]
        exact .cons hr ih

/-- A file has the regulators with names in the order of the model, each with the text that it has alone. -/
theorem C62_file {pick : List ℚ → Option ℚ} {comps : List CompSource} {rs : List DReg} {l : List (RegText × Option NewTrafo)}
    (h : writeRegs pick comps rs = .ok l) :
    List.Forall₂ (fun r y => writeReg pick comps r = .ok (some y)) (rs.filter fun r => r.name.isSome) l := by
  unfold writeRegs at h
  split at h
  · cases h
  · next l' hl' =>
    split at h
    · cases h
    · cases h
      exact named_texts (Net.mapM_forall₂ hl')

/-! ### examples -/

example : regConn (some "Z") = some "Zigzag" := by decide +kernel
example : (writeRegs List.head? [] [{ name := some "b", connected := some "t" }, {}, { name := some "a", connected := some "t" }]).toOption.map
    (fun l => l.map fun y => (y.1.name, y.1.winding)) = some [("b", 2), ("a", 2)] := by decide +kernel

/-- a regulator with the phases `ps`, whose voltage is measured at phase B -/
def exReg (ps : List String) : DReg where
  name := some "R1"
  winding := some 2
  delay := some 30
  ptRatio := some 60
  bandwidth := some 2
  bandcenter := some 122
  ptPhase := some "B"
  fromEl := some "n.1"
  toEl := some "n2"
  reactances := some [1]
  windings := [
    { conn := some "Y", nominal := some 7200, rated := some 10000, emergency := some 15000, pws := ps.map fun p => { phase := some p } },
    { conn := some "Y", nominal := some 7200, rated := some 10000, pws := ps.map fun p => { phase := some p } }]

def exRegText : RegText where
  name := "R1"
  transformer := "trans_R1"
  winding := 2
  delay := some 30
  ptratio := some 60
  band := some (24 / 10)
  vregs := [122]
  ptPhase := some (some 2)

def exNew (ns : List Nat) : NewTrafo where
  name := "trans_R1"
  phases := ns.length
  windings := 2
  buses := some ("n_1", "n2", ns.map some)
  conns := ["Wye", "Wye"]
  kVs := [72 / 10, 72 / 10]
  kVAs := [10, 10]
  emerg := some 15000
  xhl := some 1

example : writeReg List.head? [] (exReg ["A", "B", "C"]) = .ok (some (exRegText, some (exNew [1, 2, 3]))) := by decide +kernel
example : writeReg List.head? [] (exReg ["B"]) = .ok (some (exRegText, some (exNew [2]))) := by decide +kernel

def exRegData : RegData where
  name := "r1"
  transformer := some "trans_r1"
  winding := some 2
  delay := some 30
  ptratio := some 60
  band := some (24 / 10)
  vreg := some 122
  vregInt := some 122
  ptPhase := some 2

def exNewData (ns : List Nat) : TrafoData where
  name := "trans_r1"
  windings := some 2
  phases := some ns.length
  buses := [("n_1", some ns), ("n2", some ns)]
  conns := ["wye", "wye"]
  kVs := [72 / 10, 72 / 10]
  kVAs := [10, 10]
  taps := [1, 1]
  emerg := some 15000
  xsc := some [1]

theorem exReg_reports : ReportsReg exRegText exRegData := by
  constructor <;> first
    | rfl
    | exact ⟨"trans_r1", by decide +kernel, by decide +kernel⟩
    | (intro v hv; exact hv)
    | decide +kernel
    | (intro v hv; cases hv; rfl)

theorem exNew_reports (ns : List Nat) : ReportsNew (exNew ns) (exNewData ns) := by
  constructor
  case buses =>
    intro _ a b ns' h _
    simp only [exNew, Option.some.injEq, Prod.mk.injEq] at h
    obtain ⟨rfl, rfl, h⟩ := h
    rw [List.map_injective_iff.2 (Option.some_injective _) h]
    exact ⟨_, _, rfl, rfl, rfl⟩
  case name => show "trans_r1" = pyLower "trans_R1"; decide +kernel
  case conns => intro _; show ["wye", "wye"].map pyLower = ["Wye", "Wye"].map pyLower; decide +kernel
  all_goals simp [exNew, exNewData]

/-- the transformer that is read -/
def exParsed (ns : List Nat) : DTrafo :=
  rawTrafo [] (exNewData ns) ⟨"n_1", "n2", ns⟩ (some 0) 2
    (List.zipWith (fun w v => { w with voltageType := v }) [rawWinding (exNewData ns) 2 ns 0 ("n_1", some ns), rawWinding (exNewData ns) 2 ns 1 ("n2", some ns)]
      [some 0, some 2])

theorem exParsed_read (ns : List Nat) : readTrafo [] none (exNewData ns) = .ok (some (some ⟨"n_1", "n2", ns⟩, exParsed ns)) := by
  refine readTrafo_eq rfl rfl rfl ?_ (readWindings_two rfl rfl) ?_
  · show readShift 2 ["wye", "wye"] = _
    decide +kernel
  · show voltageTypes 2 [72 / 10, 72 / 10] = _
    decide +kernel

theorem exNew_read (ns : List Nat) : NewRead (exNew ns) [exParsed ns] [exNewData ns] (exNewData ns) (exParsed ns) where
  reports := exNew_reports ns
  mem := List.mem_singleton_self _
  only := fun x hx _ => List.mem_singleton.1 hx
  read := ⟨[], none, _, List.not_mem_nil, exParsed_read ns⟩
  mem' := List.mem_singleton_self _
  only' := fun x hx _ => List.mem_singleton.1 hx

example : ∃ r w1 w2, RegReadBack List.head? [] [exParsed [1, 2, 3]] [exNewData [1, 2, 3]] (some (exNew [1, 2, 3])) (exReg ["A", "B", "C"]) r ∧
    OwnTrafo (exReg ["A", "B", "C"]) "n.1" "n2" w1 w2 ∧ regPhasesOf w1 = ["A", "B", "C"].map some ∧ r.ptPhase = some "B" := by
  have h : (readReg [exParsed [1, 2, 3]] [exNewData [1, 2, 3]] none exRegData).toOption.join.map (fun x => x.2.ptPhase) = some (some "B") := by
    decide +kernel
  cases hr : readReg [exParsed [1, 2, 3]] [exNewData [1, 2, 3]] none exRegData with
  | error e => rw [hr] at h; cases h
  | ok x =>
    cases x with
    | none => rw [hr] at h; cases h
    | some x =>
      rw [hr] at h
      refine ⟨x.2, _, _, ⟨exRegText, exRegData, none, x.1, by decide +kernel, exReg_reports, hr⟩,
        ⟨rfl, rfl, rfl, rfl, Or.inl rfl, Or.inl rfl, rfl, rfl⟩, rfl, ?_⟩
      exact Option.some.inj h

example : ∃ r w, RegReadBack List.head? [] [exParsed [2]] [exNewData [2]] (some (exNew [2])) (exReg ["B"]) r ∧
    r.windings.getLast? = some w ∧ regPhasesOf w = [some "B"] ∧ r.ptPhase = none := by
  have h : (readReg [exParsed [2]] [exNewData [2]] none exRegData).toOption.join.map (fun x => x.2.windings.getLast?.map regPhasesOf) =
      some (some [some "B"]) := by decide +kernel
  cases hr : readReg [exParsed [2]] [exNewData [2]] none exRegData with
  | error e => rw [hr] at h; cases h
  | ok x =>
    cases x with
    | none => rw [hr] at h; cases h
    | some x =>
      rw [hr] at h
      have hb : RegReadBack List.head? [] [exParsed [2]] [exNewData [2]] (some (exNew [2])) (exReg ["B"]) x.2 :=
        ⟨exRegText, exRegData, none, x.1, by decide +kernel, exReg_reports, hr⟩
      replace h : x.2.windings.getLast?.map regPhasesOf = some [some "B"] := Option.some.inj h
      cases hw : x.2.windings.getLast? with
      | none => rw [hw] at h; cases h
      | some w =>
        rw [hw] at h
        have hl := Option.some.inj h
        exact ⟨x.2, w, hb, hw, hl, C62_pt_phase_violated hb rfl (by decide) hw hl⟩

/-- a regulator that is read and written again -/
example : ((readReg [exParsed [1, 2, 3]] [exNewData [1, 2, 3]] none exRegData).toOption.join.map fun x =>
    (writeReg List.head? [] x.2).toOption.join.map fun y => (y.1.name, y.1.transformer, y.1.vregs)) =
      some (some ("regulator_r1", "trans_r1", [122, 732 / 5])) := by decide +kernel

example : (writeReg List.head? [⟨"T", [1, 2], [3]⟩] { exReg ["A"] with name := some "T", connected := some "T" }).toOption.join.map
    (fun y => (y.1.r, y.1.x)) = some (some 1, some 3) := by decide +kernel

end Ditto.Dss
