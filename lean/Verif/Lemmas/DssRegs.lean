import Verif.Spec.DssRegs
import Verif.Lemmas.DssTrafos

namespace Ditto.Dss
open Ditto Ditto.Spec

theorem charLower_idem (c : Char) : c.toLower.toLower = c.toLower := by
  by_cases h : c.val ≥ 'A'.val ∧ c.val ≤ 'Z'.val
  · have e : (c.toLower).val = c.val + ('a'.val - 'A'.val) := by
      unfold Char.toLower
      rw [dif_pos h]
    have hn : ¬ (c.toLower.val ≥ 'A'.val ∧ c.toLower.val ≤ 'Z'.val) := by
      rw [e]
      have h1 : ('A'.val : UInt32).toNat = 65 := rfl
      have h2 : ('Z'.val : UInt32).toNat = 90 := rfl
      have h3 : ('a'.val - 'A'.val : UInt32).toNat = 32 := rfl
      simp only [ge_iff_le, UInt32.le_iff_toNat_le, UInt32.toNat_add, h1, h2, h3] at h ⊢
      omega
    unfold Char.toLower at hn ⊢
    rw [dif_pos h] at hn ⊢
    rw [dif_neg hn]
  · have e : c.toLower = c := by
      unfold Char.toLower
      rw [dif_neg h]
    rw [e, e]

theorem pyLower_idem (s : String) : pyLower (pyLower s) = pyLower s := by
  unfold pyLower
  rw [String.toList_ofList, List.map_map]
  congr 1
  exact List.map_congr_left fun c _ => charLower_idem c

/-- the regulator that is read, with its windings `ws` -/
def rawReg (parsed : List DTrafo) (d : RegData) (v : RegVars) (shift : Option ℚ) (ws : List RWinding) : DReg where
  name := some (regName d.name)
  winding := d.winding
  ctPrim := d.ct
  noload := d.noload
  delay := d.delay
  highstep := d.maxtap
  lowstep := d.maxtap
  ptRatio := d.ptratio
  bandwidth := d.band
  bandcenter := d.vreg
  voltageLimit := d.vlimit
  setpoint := d.vregInt.map fun k => (k : ℚ)
  ptPhase := readPtPhase v.phases d.ptPhase
  phaseShift := shift
  connected := d.transformer.map pyLower
  fromEl := (parsedTrafo parsed (d.transformer.map pyLower)).bind (·.fromEl)
  toEl := (parsedTrafo parsed (d.transformer.map pyLower)).bind (·.toEl)
  reactances := (parsedTrafo parsed (d.transformer.map pyLower)).bind (·.reactances)
  windings := ws

theorem readReg_inv {parsed : List DTrafo} {ts : List TrafoData} {st : Option RegVars} {d : RegData} {v : RegVars} {r : DReg}
    (h : readReg parsed ts st d = .ok (some (v, r))) :
    ∃ shift ws, readRegTrafo parsed ts st d = .ok (v, shift, ws) ∧ r = rawReg parsed d v shift ws := by
  unfold readReg at h
  split at h
  · split at h
    · cases h
    · next v' shift ws hr =>
      cases h
      exact ⟨shift, ws, hr, rfl⟩
  · cases h

/-- the text of a regulator with name `name` and transformer `tr` -/
def rawRegText (pick : List ℚ → Option ℚ) (ts : List CompSource) (r : DReg) (name tr : String) : RegText where
  name := name
  transformer := tr
  winding := regWinding r
  ct := r.ctPrim
  delay := r.delay
  ptratio := r.ptRatio
  band := r.bandwidth.map fun b => b * (12 / 10)
  vregs := r.bandcenter.toList ++ (r.setpoint.map fun s => s / 100 * 120).toList
  ptPhase := r.ptPhase.map toDssPhase
  vlimit := r.voltageLimit
  x := pick (compXs ts name)
  r := pick (compRs ts name)

theorem writeReg_inv {pick : List ℚ → Option ℚ} {ts : List CompSource} {r : DReg} {text : RegText} {new : Option NewTrafo}
    (h : writeReg pick ts r = .ok (some (text, new))) :
    ∃ name tr, r.name = some name ∧ regTrafo name r = .ok (tr, new) ∧ r.noload = none ∧ text = rawRegText pick ts r name tr := by
  unfold writeReg at h
  split at h
  · cases h
  · next name hn =>
    split at h
    · cases h
    · next tr new' ht =>
      split at h
      · cases h
      · next hl =>
        cases h
        refine ⟨name, tr, hn, ht, ?_, rfl⟩
        cases hx : r.noload with
        | none => rfl
        | some x => rw [hx] at hl; exact absurd rfl hl

theorem regTrafo_connected {name c tr : String} {r : DReg} {new : Option NewTrafo} (hc : r.connected = some c)
    (h : regTrafo name r = .ok (tr, new)) : tr = c ∧ new = none := by
  unfold regTrafo at h
  rw [hc] at h
  cases h
  exact ⟨rfl, rfl⟩

theorem regTrafo_new {name tr : String} {r : DReg} {new : Option NewTrafo} (hc : r.connected = none)
    (h : regTrafo name r = .ok (tr, new)) : ∃ n, new = some n ∧ newTrafo name r = .ok n ∧ tr = n.name := by
  unfold regTrafo at h
  rw [hc] at h
  simp only at h
  split at h
  · cases h
  · next t ht => cases h; exact ⟨t, rfl, ht, rfl⟩

theorem newTrafo_name {name : String} {r : DReg} {n : NewTrafo} (h : newTrafo name r = .ok n) : n.name = "trans_" ++ name := by
  unfold newTrafo at h
  split at h
  · cases h
  · split at h
    · cases h
    · split at h
      · cases h
      · cases h; rfl

/-- what the reader makes of winding `i` with the bus `b` and the tap `tap` -/
def rawRWinding (t : TrafoData) (d : RegData) (i : Nat) (b : String × Option (List Nat)) (tap : ℚ) : RWinding where
  conn := readRConn t.conns[i]?
  nominal := t.kVs[i]?.map fun x => x * 1000
  rated := t.kVAs[i]?.map fun x => x * 1000
  emergency := t.emerg.map fun x => x * 1000
  resistance := t.rs[i]?
  pws := (trafoBusPhases b.2).map fun p => { phase := ofDssPhase p, tap := some tap, compR := d.r, compX := d.x }

theorem readRWinding_ok {t : TrafoData} {d : RegData} {i : Nat} {b : String × Option (List Nat)} {tap : ℚ} (hb : t.buses[i]? = some b)
    (ht : t.taps[i]? = some tap) : readRWinding t d i = .ok (rawRWinding t d i b tap) := by
  unfold readRWinding
  rw [hb, ht]
  rfl

theorem readRWindings_two {t : TrafoData} {d : RegData} {a b : String × Option (List Nat)} {x y : ℚ} (ha : t.buses[0]? = some a)
    (hb : t.buses[1]? = some b) (hx : t.taps[0]? = some x) (hy : t.taps[1]? = some y) :
    readRWindings t d (List.range 2) = .ok [rawRWinding t d 0 a x, rawRWinding t d 1 b y] := by
  have hr : List.range 2 = [0, 1] := rfl
  rw [hr]
  simp only [readRWindings, readRWinding_ok ha hx, readRWinding_ok hb hy]

theorem readRConn_known {c : Option String} (h : KnownConn c) {x y : String} (hx : regConn c = some x) (hy : pyLower y = pyLower x) :
    readRConn (some y) = c ∧ connText c = some (pyLower y) := by
  rw [hy]
  rcases h with rfl | rfl
  · obtain rfl : "Wye" = x := by simpa [regConn] using hx
    have : pyLower "Wye" = "wye" := by decide +kernel
    constructor
    · simp [readRConn, hy, this]
    · rw [this]; rfl
  · obtain rfl : "Delta" = x := by simpa [regConn] using hx
    have : pyLower "Delta" = "delta" := by decide +kernel
    constructor
    · simp [readRConn, hy, this]
    · rw [this]; rfl

theorem regConn_known {c : Option String} (h : KnownConn c) : ∃ x, regConn c = some x := by
  rcases h with rfl | rfl
  · exact ⟨"Wye", rfl⟩
  · exact ⟨"Delta", rfl⟩

theorem find_only {α : Type} {l : List α} {p : α → Bool} {x : α} (hm : x ∈ l) (hx : p x = true) (ho : ∀ y ∈ l, p y = true → y = x) :
    l.find? p = some x := by
  cases h : l.find? p with
  | none => exact absurd hx (by simpa using List.find?_eq_none.1 h x hm)
  | some y => rw [ho y (List.mem_of_find?_eq_some h) (List.find?_some h)]

end Ditto.Dss
