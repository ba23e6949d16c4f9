import Verif.Spec.DssTrafos
import Verif.Lemmas.DssLoads

namespace Ditto.Dss
open Ditto Ditto.Spec

/-- a connection that OpenDSS knows -/
def KnownConn (c : Option String) : Prop := c = some "Y" ∨ c = some "D"

theorem connText_known {c : Option String} (h : KnownConn c) : ∃ x, connText c = some x ∧ ∀ c', pyLower c' = x → readTConn (some c') = c := by
  rcases h with rfl | rfl
  · refine ⟨"wye", by decide, fun c' hc => ?_⟩
    simp [readTConn, hc]
  · refine ⟨"delta", by decide, fun c' hc => ?_⟩
    simp [readTConn, hc]

theorem readShift_known {a b : Option String} (ha : KnownConn a) (hb : KnownConn b) {n : Nat} (hn : 2 ≤ n) {x y : String} {rest : List String}
    (hx : connText a = some (pyLower x)) (hy : connText b = some (pyLower y)) :
    readShift n (x :: y :: rest) = .ok (some (if a = b then 0 else -30)) := by
  unfold readShift
  rw [if_pos hn]
  have h1 : connText (some "Y") = some "wye" := by decide
  have h2 : connText (some "D") = some "delta" := by decide
  have h3 : ("wye" : String) ≠ "delta" := by decide
  have h4 : ("delta" : String) ≠ "wye" := by decide
  rcases ha with rfl | rfl <;> rcases hb with rfl | rfl <;> simp only [h1, h2, Option.some.injEq] at hx hy <;>
    simp [← hx, ← hy]

theorem wdgText_ok {taps : Bool} {b : String} {w : TWinding} {x : WdgText} (h : wdgText taps b w = .ok x) :
    x.conn = connText w.conn ∧ x.kV = w.nominal.map (· / 1000) ∧ x.kVA = w.rated.map (· / 1000) ∧
      x.emerg = w.emergency.map (· / 1000) ∧ x.r = w.resistance ∧ x.bus = (cleanName b, wdgSuffix w) ∧
      (taps = true → x.tap = w.pws.head?.bind (·.tap)) := by
  unfold wdgText at h
  split at h
  · cases h
  · rename_i tap ht
    cases h
    refine ⟨rfl, rfl, rfl, rfl, rfl, rfl, fun h => ?_⟩
    unfold tapText at ht
    rw [if_pos h] at ht
    split at ht
    · cases ht
    · next hp => cases ht; rw [hp]; rfl

theorem tapWdgText_ok {taps : Bool} {ws : List TWinding} {b1 b2 : String} {cnt : Nat} {w : TWinding} {x : WdgText}
    (h : tapWdgText taps ws b1 b2 cnt w = .ok x) :
    x.conn = connText w.conn ∧ x.kV = w.nominal.map (· / 1000) ∧ x.kVA = w.rated.map (· / 1000) ∧
      x.emerg = w.emergency.map (· / 1000) ∧ (∀ v, w.resistance = some v → x.r = some v) ∧ (w.resistance = none → x.r = some (defaultR cnt)) ∧
      (∃ s, tapSuffix ws cnt w = .ok s ∧ x.bus = (cleanName (if cnt = 0 then b1 else b2), s)) ∧
      (taps = true → x.tap = w.pws.head?.bind (·.tap)) := by
  unfold tapWdgText at h
  split at h
  · cases h
  · rename_i s hs
    split at h
    · cases h
    · rename_i tap ht
      cases h
      refine ⟨rfl, rfl, rfl, rfl, fun v hv => by simp [hv], fun hv => by simp [hv], ⟨s, hs, rfl⟩, fun h => ?_⟩
      unfold tapText at ht
      rw [if_pos h] at ht
      split at ht
      · cases ht
      · next hp => cases ht; rw [hp]; rfl

/-- what the reader makes of winding `i` with the bus `b` -/
def rawWinding (d : TrafoData) (n : Nat) (ps : List Nat) (i : Nat) (b : String × Option (List Nat)) : TWinding where
  conn := readTConn d.conns[i]?
  nominal := d.kVs[i]?.map fun x => x * 1000
  rated := d.kVAs[i]?.map fun x => x * 1000
  emergency := d.emerg.map fun x => x * 1000
  resistance := d.rs[i]?
  grounded := decide (n = 2 ∧ ∃ ns ∈ b.2, 0 ∈ ns)
  pws := ps.map fun p => { phase := ofDssPhase p, tap := d.taps[i]? }

theorem readWinding_ok {d : TrafoData} {n : Nat} {ps : List Nat} {i : Nat} {b : String × Option (List Nat)} (hb : d.buses[i]? = some b) :
    readWinding d n (some ps) i = .ok (rawWinding d n ps i b) := by
  unfold readWinding
  rw [hb]
  rfl

/-- the fields of a winding that has been written as `x` and is read as winding `i` -/
theorem winding_kept {t : TrafoText} {d : TrafoData} (hd : ReportsTrafo t d) {i : Nat} {x : WdgText} (hx : t.wdgs[i]? = some x)
    {taps : Bool} {w : TWinding} (hc : KnownConn w.conn) (h1 : x.conn = connText w.conn) (h2 : x.kV = w.nominal.map (· / 1000))
    (h5 : ∀ v, w.resistance = some v → x.r = some v) (h7 : taps = true → x.tap = w.pws.head?.bind (·.tap))
    (hv : w.nominal.isSome = true) {w' : TWinding} (c1 : w'.conn = readTConn d.conns[i]?) (c2 : w'.nominal = d.kVs[i]?.map fun x => x * 1000)
    (c3 : w'.resistance = d.rs[i]?) (c4 : ∀ p ∈ w'.pws, p.tap = d.taps[i]?) : WindingKept taps w w' := by
  constructor
  · obtain ⟨y, hy, hr⟩ := connText_known hc
    rw [hy] at h1
    obtain ⟨c', hc', hl⟩ := hd.conn i x y hx h1
    rw [c1, hc', hr c' hl]
  · obtain ⟨v, hv⟩ := Option.isSome_iff_exists.1 hv
    rw [hv] at h2 ⊢
    rw [c2, hd.kV i x _ hx h2]
    simp
  · intro v hw
    rw [c3]
    exact hd.r i x v hx (h5 v hw)
  · intro ht p v hp hpv p' hp'
    rw [c4 p' hp']
    refine hd.tap i x v hx ?_
    rw [h7 ht, hp]
    exact hpv

theorem two_items {l : List String} (h : l.length = 2) : ∃ a b, l = [a, b] := by
  match l, h with
  | [a, b], _ => exact ⟨a, b, rfl⟩

/-- the parts of a list with known first items -/
theorem list_two {α : Type} {l : List α} {a b : α} (h : l.length = 2) (h0 : l[0]? = some a) (h1 : l[1]? = some b) : l = [a, b] := by
  match l, h with
  | [x, y], _ =>
    simp only [List.getElem?_cons_zero, Option.some.injEq, List.getElem?_cons_succ] at h0 h1
    rw [h0, h1]

theorem list_three {α : Type} {l : List α} {a b c : α} (h : l.length = 3) (h0 : l[0]? = some a) (h1 : l[1]? = some b) (h2 : l[2]? = some c) :
    l = [a, b, c] := by
  match l, h with
  | [x, y, z], _ =>
    simp only [List.getElem?_cons_zero, Option.some.injEq, List.getElem?_cons_succ] at h0 h1 h2
    rw [h0, h1, h2]

theorem readWindings_two {d : TrafoData} {n : Nat} {ps : List Nat} {a b : String × Option (List Nat)} (ha : d.buses[0]? = some a)
    (hb : d.buses[1]? = some b) : readWindings d n (some ps) (List.range 2) = .ok [rawWinding d n ps 0 a, rawWinding d n ps 1 b] := by
  have hr : List.range 2 = [0, 1] := rfl
  rw [hr]
  simp only [readWindings, readWinding_ok ha, readWinding_ok hb]

theorem readWindings_three {d : TrafoData} {n : Nat} {ps : List Nat} {a b c : String × Option (List Nat)} (ha : d.buses[0]? = some a)
    (hb : d.buses[1]? = some b) (hc : d.buses[2]? = some c) :
    readWindings d n (some ps) (List.range 3) = .ok [rawWinding d n ps 0 a, rawWinding d n ps 1 b, rawWinding d n ps 2 c] := by
  have hr : List.range 3 = [0, 1, 2] := rfl
  rw [hr]
  simp only [readWindings, readWinding_ok ha, readWinding_ok hb, readWinding_ok hc]

/-- the transformer that is read, with its windings `ws` -/
def rawTrafo (seen : List String) (d : TrafoData) (v : BusVars) (shift : Option ℚ) (n : Nat) (ws : List TWinding) : DTrafo where
  name := some (trafoName seen d)
  fromEl := some v.b1
  toEl := some v.b2
  loadloss := d.loadloss
  noload := d.noload
  normhkva := d.normhkva
  phaseShift := shift
  reactances := readReactances d n
  centerTap := decide (n = 3 ∧ trafoPhaseCount d = 1)
  isSubstation := d.sub
  windings := ws

theorem readTrafo_eq {seen : List String} {st : Option BusVars} {d : TrafoData} {v : BusVars} {shift : Option ℚ} {n : Nat} {ws : List TWinding}
    {vts : List (Option Nat)} (he : d.enabled = true) (hn : d.windings = some n) (hst : readBuses st d.buses = some v)
    (hs : readShift n d.conns = .ok shift) (hw : readWindings d n (some v.phases) (List.range n) = .ok ws)
    (hv : voltageTypes n d.kVs = .ok vts) :
    readTrafo seen st d = .ok (some (some v, rawTrafo seen d v shift n (List.zipWith (fun w v => { w with voltageType := v }) ws vts))) := by
  have hc : windingCount d = n := by simp only [windingCount, hn]
  unfold readTrafo
  rw [if_pos he, hc]
  simp only [hst, hs, Option.map_some, hw, hv]
  rfl

/-- What is read of a transformer with two windings. `ns1` and `ns2` are the numbers after its buses. -/
theorem read_two {taps : Bool} {t : DTrafo} {n f e : String} {w1 w2 : TWinding} {text : TrafoText} {d : TrafoData} {seen : List String}
    {ns1 ns2 : List Nat} (st : Option BusVars) (hn : t.name = some n) (hf : t.fromEl = some f) (he : t.toEl = some e)
    (hw : t.windings = [w1, w2]) (ht : writeTrafo taps t = .ok text) (hd : ReportsTrafo text d) (hseen : pyLower n ∉ seen)
    (hc1 : KnownConn w1.conn) (hc2 : KnownConn w2.conn) (v1 v2 : ℚ) (hv1 : w1.nominal = some v1) (hv2 : w2.nominal = some v2)
    (hs1 : wdgSuffix w1 = ns1.map some) (hs2 : wdgSuffix w2 = ns2.map some) :
    ∃ st' r w1' w2', readTrafo seen st d = .ok (some (st', r)) ∧ r.name = some (pyLower n) ∧
      r.fromEl.map pyLower = some (pyLower (cleanName f)) ∧ r.toEl.map pyLower = some (pyLower (cleanName e)) ∧
      r.windings = [w1', w2'] ∧ WindingKept taps w1 w1' ∧ WindingKept taps w2 w2' ∧
      phasesOf w1' = (trafoBusPhases (if ns1 = [] then none else some ns1)).map ofDssPhase ∧ phasesOf w2' = phasesOf w1' ∧
      (w1'.grounded = true ↔ 0 ∈ ns1) ∧ (w2'.grounded = true ↔ 0 ∈ ns2) ∧
      (w1'.voltageType = some (if v2 ≤ v1 then 0 else 2) ∧ w2'.voltageType = some (if v2 ≤ v1 then 2 else 0)) ∧
      (w1.rated = w2.rated → ∀ v, w1.rated = some v → w1'.rated = some v ∧ w2'.rated = some v) ∧
      (∀ v, (w2.emergency.or w1.emergency) = some v → w1'.emergency = some v ∧ w2'.emergency = some v) ∧
      r.phaseShift = some (if w1.conn = w2.conn then 0 else -30) ∧ (∀ x, t.reactances = some [x] → r.reactances = some [x]) ∧
      (∀ v, t.noload = some v → r.noload = some v) ∧
      (w1.resistance = none → w2.resistance = none → ∀ v, t.loadloss = some v → r.loadloss = some v) ∧
      (w1.rated = none → w2.rated = none → ∀ v, t.normhkva = some v → r.normhkva = some v) ∧
      r.centerTap = false ∧ r.isSubstation = false := by
  unfold writeTrafo at ht
  simp only [hf, he, hw] at ht
  split at ht
  · cases ht
  · cases ht
  · rename_i t1 t2 h1 h2
    injection ht with ht
    obtain ⟨a1, a2, a3, a4, a5, a6, a7⟩ := wdgText_ok h1
    obtain ⟨b1, b2, b3, b4, b5, b6, b7⟩ := wdgText_ok h2
    have hwd : text.wdgs = [t1, t2] := by rw [← ht]
    have hlen : text.wdgs.length = 2 := by rw [hwd]; rfl
    have g1 : text.wdgs[0]? = some t1 := by rw [hwd]; rfl
    have g2 : text.wdgs[1]? = some t2 := by rw [hwd]; rfl
    have hwin : text.windings = some 2 := by rw [← ht]; simp [trafoHead, hw]
    obtain ⟨hwin, hbl, hcl, hkl⟩ := hd.windings 2 hwin
    rw [hs1] at a6
    rw [hs2] at b6
    obtain ⟨bn1, hbn1, hb1⟩ := hd.bus 0 t1 _ ns1 g1 a6
    obtain ⟨bn2, hbn2, hb2⟩ := hd.bus 1 t2 _ ns2 g2 b6
    have hbuses := list_two hbl hb1 hb2
    obtain ⟨y1, hy1, -⟩ := connText_known hc1
    obtain ⟨y2, hy2, -⟩ := connText_known hc2
    obtain ⟨c1, hcc1, hl1⟩ := hd.conn 0 t1 y1 g1 (by rw [a1, hy1])
    obtain ⟨c2, hcc2, hl2⟩ := hd.conn 1 t2 y2 g2 (by rw [b1, hy2])
    have hconns := list_two hcl hcc1 hcc2
    have hk1 := hd.kV 0 t1 _ g1 (by rw [a2, hv1]; rfl)
    have hk2 := hd.kV 1 t2 _ g2 (by rw [b2, hv2]; rfl)
    have hkVs := list_two hkl hk1 hk2
    have hst : readBuses st d.buses = some ⟨bn1, bn2, trafoBusPhases (if ns1 = [] then none else some ns1)⟩ := by rw [hbuses]; rfl
    have hshift : readShift 2 d.conns = .ok (some (if w1.conn = w2.conn then 0 else -30)) := by
      rw [hconns]
      exact readShift_known hc1 hc2 (le_refl 2) (by rw [hy1, hl1]) (by rw [hy2, hl2])
    have hvt : voltageTypes 2 d.kVs = .ok [some (if v2 ≤ v1 then 0 else 2), some (if v2 ≤ v1 then 2 else 0)] := by
      rw [hkVs]
      unfold voltageTypes
      have : v2 / 1000 ≤ v1 / 1000 ↔ v2 ≤ v1 := by rw [div_le_div_iff_of_pos_right (by norm_num)]
      by_cases h : v2 ≤ v1 <;> simp [this, h]
    have hrw := readWindings_two hb1 hb2 (n := 2) (ps := trafoBusPhases (if ns1 = [] then none else some ns1))
    refine ⟨_, _, { rawWinding d 2 (trafoBusPhases (if ns1 = [] then none else some ns1)) 0 (bn1, if ns1 = [] then none else some ns1) with
      voltageType := some (if v2 ≤ v1 then 0 else 2) }, { rawWinding d 2 (trafoBusPhases (if ns1 = [] then none else some ns1)) 1
        (bn2, if ns2 = [] then none else some ns2) with voltageType := some (if v2 ≤ v1 then 2 else 0) },
      readTrafo_eq hd.enabled hwin hst hshift hrw hvt, ?_⟩
    have hname : pyLower d.name = pyLower n := hd.name n (by rw [← ht]; exact hn)
    refine ⟨?_, ?_, ?_, rfl, ?_, ?_, ?_, ?_, ?_, ?_, ⟨rfl, rfl⟩, ?_, ?_, rfl, ?_, ?_, ?_, ?_, ?_, ?_⟩
    · simp [rawTrafo, trafoName, hname, hseen]
    · simp [rawTrafo, hbn1]
    · simp [rawTrafo, hbn2]
    · exact winding_kept hd g1 hc1 a1 a2 (fun v hv => by rw [a5, hv]) a7 (by rw [hv1]; rfl) rfl rfl rfl (by
        intro p hp
        obtain ⟨_, _, rfl⟩ := List.mem_map.1 hp
        rfl)
    · exact winding_kept hd g2 hc2 b1 b2 (fun v hv => by rw [b5, hv]) b7 (by rw [hv2]; rfl) rfl rfl rfl (by
        intro p hp
        obtain ⟨_, _, rfl⟩ := List.mem_map.1 hp
        rfl)
    · simp [phasesOf, rawWinding, Function.comp_def]
    · simp [phasesOf, rawWinding, Function.comp_def]
    · by_cases h : ns1 = [] <;> simp [rawWinding, h]
    · by_cases h : ns2 = [] <;> simp [rawWinding, h]
    · intro hr v hv
      have heq : text.wdgs.length = 2 → ∀ w ∈ text.wdgs, ∀ w' ∈ text.wdgs, w.kVA = w'.kVA := by
        intro _ w hw w' hw'
        rw [hwd] at hw hw'
        simp only [List.mem_cons, List.not_mem_nil, or_false] at hw hw'
        rcases hw with rfl | rfl <;> rcases hw' with rfl | rfl <;> simp [a3, b3, hr]
      have k1 := hd.kVA heq 0 t1 _ g1 (by rw [a3, hv]; rfl)
      have k2 := hd.kVA heq 1 t2 _ g2 (by rw [b3, ← hr, hv]; rfl)
      simp [rawWinding, k1, k2]
    · intro v hv
      have : d.emerg = some (v / 1000) := by
        apply hd.emerg
        rw [hwd]
        simp only [List.filterMap_cons, List.filterMap_nil, a4, b4]
        cases h2 : w2.emergency with
        | some x =>
          rw [h2, Option.some_or, Option.some.injEq] at hv
          cases w1.emergency <;> simp [hv]
        | none =>
          rw [h2, Option.none_or] at hv
          simp [hv]
      simp [rawWinding, this]
    · intro x hx
      have : d.xsc = some [x] := hd.xsc2 hlen x (by rw [← ht]; simp [hx])
      simp [rawTrafo, readReactances, this]
    · intro v hv
      exact hd.noload v (by rw [← ht]; exact hv)
    · intro hr1 hr2 v hv
      refine hd.loadloss ?_ v (by rw [← ht]; exact hv)
      intro w hw
      rw [hwd] at hw
      simp only [List.mem_cons, List.not_mem_nil, or_false] at hw
      rcases hw with rfl | rfl
      · rw [a5, hr1]
      · rw [b5, hr2]
    · intro hr1 hr2 v hv
      refine hd.normhkva ?_ v (by rw [← ht]; exact hv)
      intro w hw
      rw [hwd] at hw
      simp only [List.mem_cons, List.not_mem_nil, or_false] at hw
      rcases hw with rfl | rfl
      · rw [a3, hr1]; rfl
      · rw [b3, hr2]; rfl
    · simp [rawTrafo]
    · exact hd.sub

theorem tapSuffix_one (ws : List TWinding) (w : TWinding) : tapSuffix ws 1 w = .ok ([1, 0].map some) := rfl

theorem tapSuffix_two (ws : List TWinding) (w : TWinding) : tapSuffix ws 2 w = .ok ([0, 2].map some) := rfl

theorem voltageTypes_three (v1 v2 v3 : ℚ) : ∃ x y z, voltageTypes 3 [v1 / 1000, v2 / 1000, v3 / 1000] = .ok [x, y, z] ∧
    (v2 ≤ v1 → v3 ≤ v1 → x = some 0 ∧ y = some 2 ∧ z = some 2) ∧ (v1 < v2 → v3 ≤ v2 → x = some 2 ∧ y = some 0 ∧ z = some 2) ∧
    (v1 < v3 → v2 < v3 → x = some 2 ∧ y = some 2 ∧ z = some 0) := by
  have hm : ∀ a b : ℚ, max (a / 1000) (b / 1000) = max a b / 1000 := fun a b => by rw [max_div_div_right (by norm_num)]
  have hi : ∀ a b : ℚ, a / 1000 = b / 1000 ↔ a = b := fun a b => by rw [div_left_inj' (by norm_num)]
  unfold voltageTypes
  rw [if_neg (by norm_num), if_pos rfl]
  simp only [List.foldl_cons, List.foldl_nil, hm, hi]
  by_cases h1 : v1 = max (max v1 v2) v3
  · rw [if_pos h1]
    have h2 : v2 ≤ v1 := by rw [h1]; exact (le_max_right _ _).trans (le_max_left _ _)
    have h3 : v3 ≤ v1 := by rw [h1]; exact le_max_right _ _
    exact ⟨_, _, _, rfl, fun _ _ => ⟨rfl, rfl, rfl⟩, fun h => absurd h (not_lt.2 h2), fun h => absurd h (not_lt.2 h3)⟩
  · rw [if_neg h1]
    have h4 : v2 ≤ v1 → ¬ v3 ≤ v1 := fun a b => h1 (by rw [max_eq_left a, max_eq_left b])
    by_cases h5 : v2 = max (max v1 v2) v3
    · rw [if_pos h5]
      have h3 : v3 ≤ v2 := by rw [h5]; exact le_max_right _ _
      exact ⟨_, _, _, rfl, fun a b => absurd b (h4 a), fun _ _ => ⟨rfl, rfl, rfl⟩, fun _ h => absurd h (not_lt.2 h3)⟩
    · rw [if_neg h5]
      have h6 : v1 < v2 → ¬ v3 ≤ v2 := fun a b => h5 (by rw [max_eq_right a.le, max_eq_left b])
      exact ⟨_, _, _, rfl, fun a b => absurd b (h4 a), fun a b => absurd b (h6 a), fun _ _ => ⟨rfl, rfl, rfl⟩⟩

/-- What is read of a center tap. `ns` are the numbers after its first bus. -/
theorem read_three {taps : Bool} {t : DTrafo} {n f e : String} {w1 w2 w3 : TWinding} {text : TrafoText} {d : TrafoData} {seen : List String}
    {ns : List Nat} (st : Option BusVars) (hn : t.name = some n) (hf : t.fromEl = some f) (he : t.toEl = some e)
    (hw : t.windings = [w1, w2, w3]) (hct : t.centerTap = true) (ht : writeTrafo taps t = .ok text) (hd : ReportsTrafo text d)
    (hseen : pyLower n ∉ seen) (hc1 : KnownConn w1.conn) (hc2 : KnownConn w2.conn) (hc3 : KnownConn w3.conn) (v1 v2 v3 : ℚ)
    (hv1 : w1.nominal = some v1) (hv2 : w2.nominal = some v2) (hv3 : w3.nominal = some v3)
    (hs1 : tapSuffix t.windings 0 w1 = .ok (ns.map some)) (hns : ns ≠ []) :
    ∃ st' r w1' w2' w3', readTrafo seen st d = .ok (some (st', r)) ∧ r.name = some (pyLower n) ∧
      r.fromEl.map pyLower = some (pyLower (cleanName f)) ∧ r.toEl.map pyLower = some (pyLower (cleanName e)) ∧
      r.windings = [w1', w2', w3'] ∧ WindingKept taps w1 w1' ∧ WindingKept taps w2 w2' ∧ WindingKept taps w3 w3' ∧
      phasesOf w1' = ns.map ofDssPhase ∧ phasesOf w2' = phasesOf w1' ∧ phasesOf w3' = phasesOf w1' ∧
      (w1'.grounded = false ∧ w2'.grounded = false ∧ w3'.grounded = false) ∧
      ((∀ v, w1.rated = some v → w1'.rated = some v) ∧ (∀ v, w2.rated = some v → w2'.rated = some v) ∧
        (∀ v, w3.rated = some v → w3'.rated = some v)) ∧
      (∀ v, ((w3.emergency.or w2.emergency).or w1.emergency) = some v →
        w1'.emergency = some v ∧ w2'.emergency = some v ∧ w3'.emergency = some v) ∧
      ((w1.resistance = none → w1'.resistance = some (12 / 10)) ∧ (w2.resistance = none → w2'.resistance = some (6 / 10)) ∧
        (w3.resistance = none → w3'.resistance = some (12 / 10))) ∧
      r.phaseShift = some (if w1.conn = w2.conn then 0 else -30) ∧
      (∀ a b c, t.reactances = some [a, b, c] → r.reactances = some [a, c, b]) ∧
      (t.reactances = none → r.reactances = some [204 / 100, 204 / 100, 136 / 100]) ∧
      (∀ v, t.noload = some v → r.noload = some v) ∧
      (∀ p : Nat, trafoPhases t.windings = some p → (r.centerTap = true ↔ p = 1)) ∧ r.isSubstation = false ∧
      (v2 ≤ v1 → v3 ≤ v1 → w1'.voltageType = some 0 ∧ w2'.voltageType = some 2 ∧ w3'.voltageType = some 2) ∧
      (v1 < v2 → v3 ≤ v2 → w1'.voltageType = some 2 ∧ w2'.voltageType = some 0 ∧ w3'.voltageType = some 2) ∧
      (v1 < v3 → v2 < v3 → w1'.voltageType = some 2 ∧ w2'.voltageType = some 2 ∧ w3'.voltageType = some 0) := by
  unfold writeTrafo at ht
  simp only [hf, he, hw, hct, if_true] at ht
  split at ht
  · cases ht
  · cases ht
  · cases ht
  · rename_i t1 t2 t3 h1 h2 h3
    rw [← hw] at h1 h2 h3
    injection ht with ht
    obtain ⟨a1, a2, a3, a4, a5, a6, ⟨s1, a7, a8⟩, a9⟩ := tapWdgText_ok h1
    obtain ⟨b1, b2, b3, b4, b5, b6, ⟨s2, b7, b8⟩, b9⟩ := tapWdgText_ok h2
    obtain ⟨c1, c2, c3, c4, c5, c6, ⟨s3, c7, c8⟩, c9⟩ := tapWdgText_ok h3
    rw [hs1] at a7
    rw [tapSuffix_one] at b7
    rw [tapSuffix_two] at c7
    cases a7
    cases b7
    cases c7
    have key : text.wdgs = [t1, t2, t3] ∧ text.windings = some 3 ∧ text.name = t.name ∧ text.noload = t.noload ∧
        text.phases = trafoPhases t.windings ∧ (∀ a b c, t.reactances = some [a, b, c] → text.xhl = some a ∧ text.xlt = some b ∧ text.xht = some c) ∧
        (t.reactances = none → text.xhl = some (204 / 100) ∧ text.xht = some (204 / 100) ∧ text.xlt = some (136 / 100)) := by
      rw [← ht]
      split
      · next h => simp [trafoHead, hw, h]
      · next h => simp [trafoHead, hw, h]
      · next h1 h =>
        refine ⟨rfl, by simp [trafoHead, hw], rfl, rfl, rfl, ?_, ?_⟩
        · intro a b c hx
          rw [hx] at h
          exact absurd (Option.some.inj h).symm (h1 a b c)
        · intro hx
          rw [hx] at h
          cases h
    obtain ⟨hwd, hwin, hnm, hnl, hph, hx3, hx0⟩ := key
    have hlen : text.wdgs.length = 3 := by rw [hwd]; rfl
    have g1 : text.wdgs[0]? = some t1 := by rw [hwd]; rfl
    have g2 : text.wdgs[1]? = some t2 := by rw [hwd]; rfl
    have g3 : text.wdgs[2]? = some t3 := by rw [hwd]; rfl
    obtain ⟨hwin, hbl, hcl, hkl⟩ := hd.windings 3 hwin
    obtain ⟨bn1, hbn1, hb1⟩ := hd.bus 0 t1 _ ns g1 a8
    obtain ⟨bn2, hbn2, hb2⟩ := hd.bus 1 t2 _ [1, 0] g2 b8
    obtain ⟨bn3, hbn3, hb3⟩ := hd.bus 2 t3 _ [0, 2] g3 c8
    rw [if_neg hns] at hb1
    have hbuses := list_three hbl hb1 hb2 hb3
    obtain ⟨y1, hy1, -⟩ := connText_known hc1
    obtain ⟨y2, hy2, -⟩ := connText_known hc2
    obtain ⟨y3, hy3, -⟩ := connText_known hc3
    obtain ⟨d1, hcc1, hl1⟩ := hd.conn 0 t1 y1 g1 (by rw [a1, hy1])
    obtain ⟨d2, hcc2, hl2⟩ := hd.conn 1 t2 y2 g2 (by rw [b1, hy2])
    obtain ⟨d3, hcc3, hl3⟩ := hd.conn 2 t3 y3 g3 (by rw [c1, hy3])
    have hconns := list_three hcl hcc1 hcc2 hcc3
    have hk1 := hd.kV 0 t1 _ g1 (by rw [a2, hv1]; rfl)
    have hk2 := hd.kV 1 t2 _ g2 (by rw [b2, hv2]; rfl)
    have hk3 := hd.kV 2 t3 _ g3 (by rw [c2, hv3]; rfl)
    have hkVs := list_three hkl hk1 hk2 hk3
    have hst : readBuses st d.buses = some ⟨bn1, bn2, ns⟩ := by rw [hbuses]; rfl
    have hshift : readShift 3 d.conns = .ok (some (if w1.conn = w2.conn then 0 else -30)) := by
      rw [hconns]
      exact readShift_known hc1 hc2 (by norm_num) (by rw [hy1, hl1]) (by rw [hy2, hl2])
    have hvt : ∃ x y z, voltageTypes 3 d.kVs = .ok [x, y, z] ∧ (v2 ≤ v1 → v3 ≤ v1 → x = some 0 ∧ y = some 2 ∧ z = some 2) ∧
        (v1 < v2 → v3 ≤ v2 → x = some 2 ∧ y = some 0 ∧ z = some 2) ∧ (v1 < v3 → v2 < v3 → x = some 2 ∧ y = some 2 ∧ z = some 0) := by
      rw [hkVs]
      exact voltageTypes_three v1 v2 v3
    obtain ⟨x, y, z, hvt, hvt1, hvt2, hvt3⟩ := hvt
    have hrw := readWindings_three hb1 hb2 hb3 (n := 3) (ps := ns)
    refine ⟨_, _, { rawWinding d 3 ns 0 (bn1, some ns) with voltageType := x },
      { rawWinding d 3 ns 1 (bn2, if ([1, 0] : List Nat) = [] then none else some [1, 0]) with voltageType := y },
      { rawWinding d 3 ns 2 (bn3, if ([0, 2] : List Nat) = [] then none else some [0, 2]) with voltageType := z },
      readTrafo_eq hd.enabled hwin hst hshift hrw hvt, ?_⟩
    have hname : pyLower d.name = pyLower n := hd.name n (by rw [hnm]; exact hn)
    have hkva : text.wdgs.length = 2 → ∀ w ∈ text.wdgs, ∀ w' ∈ text.wdgs, w.kVA = w'.kVA := fun h => by rw [hlen] at h; cases h
    refine ⟨?_, ?_, ?_, rfl, ?_, ?_, ?_, ?_, ?_, ?_, ?_, ⟨?_, ?_, ?_⟩, ?_, ⟨?_, ?_, ?_⟩, rfl, ?_, ?_, ?_, ?_, ?_, hvt1, hvt2, hvt3⟩
    · simp [rawTrafo, trafoName, hname, hseen]
    · simpa [rawTrafo] using hbn1
    · simpa [rawTrafo] using hbn2
    · exact winding_kept hd g1 hc1 a1 a2 a5 a9 (by rw [hv1]; rfl) rfl rfl rfl (by
        intro p hp
        obtain ⟨_, _, rfl⟩ := List.mem_map.1 hp
        rfl)
    · exact winding_kept hd g2 hc2 b1 b2 b5 b9 (by rw [hv2]; rfl) rfl rfl rfl (by
        intro p hp
        obtain ⟨_, _, rfl⟩ := List.mem_map.1 hp
        rfl)
    · exact winding_kept hd g3 hc3 c1 c2 c5 c9 (by rw [hv3]; rfl) rfl rfl rfl (by
        intro p hp
        obtain ⟨_, _, rfl⟩ := List.mem_map.1 hp
        rfl)
    · simp [phasesOf, rawWinding, Function.comp_def]
    · simp [phasesOf, rawWinding, Function.comp_def]
    · simp [phasesOf, rawWinding, Function.comp_def]
    · simp [rawWinding]
    · intro v hv
      have := hd.kVA hkva 0 t1 _ g1 (by rw [a3, hv]; rfl)
      simp [rawWinding, this]
    · intro v hv
      have := hd.kVA hkva 1 t2 _ g2 (by rw [b3, hv]; rfl)
      simp [rawWinding, this]
    · intro v hv
      have := hd.kVA hkva 2 t3 _ g3 (by rw [c3, hv]; rfl)
      simp [rawWinding, this]
    · intro v hv
      have : d.emerg = some (v / 1000) := by
        apply hd.emerg
        rw [hwd]
        simp only [List.filterMap_cons, List.filterMap_nil, a4, b4, c4]
        revert hv
        cases w1.emergency <;> cases w2.emergency <;> cases w3.emergency <;> simp
      simp [rawWinding, this]
    · intro h
      exact hd.r 0 t1 _ g1 (a6 h)
    · intro h
      exact hd.r 1 t2 _ g2 (b6 h)
    · intro h
      exact hd.r 2 t3 _ g3 (c6 h)
    · intro a b c hx
      obtain ⟨q1, q2, q3⟩ := hx3 a b c hx
      have := hd.xsc3 hlen _ _ _ q1 q3 q2
      simp [rawTrafo, readReactances, this]
    · intro hx
      obtain ⟨q1, q2, q3⟩ := hx0 hx
      have := hd.xsc3 hlen _ _ _ q1 q2 q3
      simp [rawTrafo, readReactances, this]
    · intro v hv
      exact hd.noload v (by rw [hnl]; exact hv)
    · intro p hp
      have := hd.phases p (by rw [hph]; exact hp)
      simp [rawTrafo, trafoPhaseCount, this]
    · exact hd.sub

end Ditto.Dss
