import Verif.Lemmas.DssTrafos

/-! C61: transformers keep their ends, windings, ratings and impedances in OpenDSS files. -/
namespace Ditto.Dss
open Ditto Ditto.Spec

/-- the phases of a winding are `ps`, all of them A, B or C -/
def HasPhases (w : TWinding) (ps : List String) : Prop := phasesOf w = ps.map some ∧ ∀ p ∈ ps, p ∈ ["A", "B", "C"]

theorem phases_written {l : List PWinding} : ∀ {ps : List String}, l.map (·.phase) = ps.map some → (∀ p ∈ ps, p ∈ ["A", "B", "C"]) →
    ∃ ns : List Nat, (l.filterMap (·.phase)).map toDssPhase = ns.map some ∧ ns.map ofDssPhase = ps.map some ∧ 0 ∉ ns := by
  induction l with
  | nil =>
    intro ps h _
    cases ps with
    | nil => exact ⟨[], rfl, rfl, List.not_mem_nil⟩
    | cons _ _ => cases h
  | cons w l ih =>
    intro ps h hk
    cases ps with
    | nil => cases h
    | cons p ps =>
      rw [List.map_cons, List.map_cons, List.cons.injEq] at h
      obtain ⟨ns, h1, h2, h3⟩ := ih h.2 fun q hq => hk q (List.mem_cons_of_mem _ hq)
      obtain ⟨n, h4, h5⟩ := ofDss_toDss (hk p List.mem_cons_self)
      refine ⟨n :: ns, ?_, ?_, ?_⟩
      · rw [List.filterMap_cons_some (f := fun x : PWinding => x.phase) h.1, List.map_cons, h1, h4]
        rfl
      · rw [List.map_cons, h2, h5]
        rfl
      · intro h0
        rcases List.mem_cons.1 h0 with rfl | h0
        · cases h5
        · exact h3 h0

theorem otherPhase_written {p : String} (hp : p ∈ ["A", "B", "C"]) : ∃ k : Nat, otherPhase (some p) = [some k] ∧ k ≠ 0 ∧ ofDssPhase k ≠ some p ∧
    ∃ q ∈ ["A", "B", "C"], ofDssPhase k = some q := by
  simp only [List.mem_cons, List.not_mem_nil, or_false] at hp
  rcases hp with rfl | rfl | rfl
  · exact ⟨2, by decide, by decide, by decide, "B", by decide, by decide⟩
  · exact ⟨3, by decide, by decide, by decide, "C", by decide, by decide⟩
  · exact ⟨1, by decide, by decide, by decide, "A", by decide, by decide⟩

/-- the numbers after the bus of a winding -/
theorem suffix_written {w : TWinding} {ps : List String} (h : HasPhases w ps) : ∃ ns : List Nat, wdgSuffix w = ns.map some ∧
    (0 ∈ ns ↔ w.grounded = true) ∧
    (ps.length ≠ 3 → (w.conn = some "D" → ps.length ≠ 1) → ns.map ofDssPhase = ps.map some ++ (if w.grounded then [none] else [])) ∧
    (ps.length = 3 → ns = if w.grounded then [0] else []) ∧
    (∀ p, ps = [p] → w.conn = some "D" → ∃ q ∈ ["A", "B", "C"], q ≠ p ∧
      ns.map ofDssPhase = [some p, some q] ++ (if w.grounded then [none] else [])) := by
  obtain ⟨h1, h2⟩ := h
  have hl : w.pws.length = ps.length := by
    have := congrArg List.length h1
    simpa [phasesOf] using this
  obtain ⟨ns, h3, h4, h5⟩ := phases_written h1 h2
  have hg : (if w.grounded = true then [some 0] else []) = (if w.grounded = true then [0] else []).map (some : Nat → Option Nat) := by
    split <;> rfl
  have hg' : ((if w.grounded = true then [0] else []) : List Nat).map ofDssPhase = if w.grounded = true then [none] else [] := by
    split <;> rfl
  unfold wdgSuffix
  rw [hg]
  by_cases h6 : ps.length = 3
  · refine ⟨if w.grounded = true then [0] else [], ?_, ?_, fun h => absurd h6 h, fun _ => rfl, ?_⟩
    · rw [if_neg (not_not.2 (hl.trans h6))]
      rfl
    · cases w.grounded <;> simp
    · intro p hp
      rw [hp] at h6
      cases h6
  · rw [if_pos (hl ▸ h6), h3]
    by_cases h7 : w.conn = some "D" ∧ ps.length = 1
    · obtain ⟨p, rfl⟩ := List.length_eq_one_iff.1 h7.2
      obtain ⟨q, hq⟩ := List.length_eq_one_iff.1 (hl.trans h7.2)
      have hqp : q.phase = some p := by
        have := h1
        rw [phasesOf, hq] at this
        simpa using this
      obtain ⟨k, k1, k2, k3, r, k4, k5⟩ := otherPhase_written (h2 p List.mem_cons_self)
      refine ⟨ns ++ [k] ++ (if w.grounded = true then [0] else []), ?_, ?_, fun _ h => absurd h7.2 (h h7.1), fun h => absurd h h6, ?_⟩
      · have : secondConn w = [some k] := by
          unfold secondConn
          rw [if_pos h7.1, hq]
          simp only [hqp, k1]
        rw [this]
        simp
      · cases w.grounded <;> simp [h5, k2.symm]
      · intro p' hp' _
        obtain rfl : p = p' := by simpa using hp'
        refine ⟨r, k4, ?_, ?_⟩
        · rintro rfl
          exact k3 k5
        · rw [List.map_append, List.map_append, h4, hg']
          simp [k5]
    · have h8 : secondConn w = [] := by
        unfold secondConn
        split
        · next hD =>
          split
          · next p hp =>
            rw [hp] at hl
            exact absurd ⟨hD, hl.symm⟩ h7
          · rfl
        · rfl
      refine ⟨ns ++ (if w.grounded = true then [0] else []), ?_, ?_, ?_, fun h => absurd h h6, ?_⟩
      · rw [h8]
        simp
      · cases w.grounded <;> simp [h5]
      · intro _ _
        rw [List.map_append, h4, hg']
      · rintro p rfl hD
        exact absurd ⟨hD, rfl⟩ h7

/-- the core of the theorems about two windings -/
theorem two_read_back {taps : Bool} {seen : List String} {t r : DTrafo} {n f e : String} {w1 w2 : TWinding} (ht : TwoWindings t n f e w1 w2)
    (hr : ReadBack taps seen t r) {ns1 ns2 : List Nat} (hs1 : wdgSuffix w1 = ns1.map some) (hs2 : wdgSuffix w2 = ns2.map some) :
    ∃ v1 v2 w1' w2', w1.nominal = some v1 ∧ w2.nominal = some v2 ∧ r.name = some (pyLower n) ∧
      r.fromEl.map pyLower = some (pyLower (cleanName f)) ∧ r.toEl.map pyLower = some (pyLower (cleanName e)) ∧
      r.windings = [w1', w2'] ∧ WindingKept taps w1 w1' ∧ WindingKept taps w2 w2' ∧
      phasesOf w1' = (trafoBusPhases (if ns1 = [] then none else some ns1)).map ofDssPhase ∧ phasesOf w2' = phasesOf w1' ∧
      (w1'.grounded = true ↔ 0 ∈ ns1) ∧ (w2'.grounded = true ↔ 0 ∈ ns2) ∧
      (w1'.voltageType = some (if v2 ≤ v1 then 0 else 2) ∧ w2'.voltageType = some (if v2 ≤ v1 then 2 else 0)) ∧
      (w1.rated = w2.rated → ∀ v, w1.rated = some v → w1'.rated = some v ∧ w2'.rated = some v) ∧
      (∀ v, (w2.emergency.or w1.emergency) = some v → w1'.emergency = some v ∧ w2'.emergency = some v) ∧
      r.phaseShift = some (if w1.conn = w2.conn then 0 else -30) ∧ (∀ x, t.reactances = some [x] → r.reactances = some [x]) ∧
      (∀ v, t.noload = some v → r.noload = some v) ∧
      (w1.resistance = none → w2.resistance = none → ∀ v, t.loadloss = some v → r.loadloss = some v) ∧
      (w1.rated = none → w2.rated = none → ∀ v, t.normhkva = some v → r.normhkva = some v) ∧
      r.centerTap = false ∧ r.isSubstation = false := by
  obtain ⟨text, d, st, st', h1, h2, h3, h4⟩ := hr
  obtain ⟨v1, hv1⟩ := Option.isSome_iff_exists.1 ht.nominal1
  obtain ⟨v2, hv2⟩ := Option.isSome_iff_exists.1 ht.nominal2
  obtain ⟨_, r', w1', w2', h5, h6⟩ := read_two st ht.name ht.from_el ht.to_el ht.windings h1 h2 (h3 n ht.name) ht.conn1 ht.conn2 v1 v2
    hv1 hv2 hs1 hs2
  rw [h4] at h5
  cases h5
  exact ⟨v1, v2, w1', w2', hv1, hv2, h6⟩

/-- Writing succeeds for a transformer with ends, two windings and at least one phase. -/
theorem C61_write (taps : Bool) (t : DTrafo) (n f e : String) (w1 w2 : TWinding) (ht : TwoWindings t n f e w1 w2) (h1 : w1.pws ≠ [])
    (h2 : w2.pws ≠ []) : ∃ text, writeTrafo taps t = .ok text := by
  have key : ∀ (b : String) (w : TWinding), w.pws ≠ [] → ∃ x, wdgText taps b w = .ok x := by
    intro b w hw
    unfold wdgText tapText
    cases taps with
    | false => exact ⟨_, rfl⟩
    | true =>
      cases hp : w.pws with
      | nil => exact absurd hp hw
      | cons p ps => exact ⟨_, rfl⟩
  obtain ⟨x1, k1⟩ := key f w1 h1
  obtain ⟨x2, k2⟩ := key e w2 h2
  unfold writeTrafo
  simp only [ht.from_el, ht.to_el, ht.windings, k1, k2]
  exact ⟨_, rfl⟩

/-- A transformer with two windings of the same phases, in this order and if there are three of them A, B and C, the first of them not
grounded and no single phase in delta, is read with the same name (in lower case), ends, connections, voltages, phases, grounding,
resistances and reactance, and if its windings agree on them with the same rating and emergency rating. The voltage type is that of the
voltages and the phase shift that of the connections. (Missing: see the theorems below.) -/
theorem C61_two_partial {taps : Bool} {seen : List String} {t r : DTrafo} {n f e : String} {w1 w2 : TWinding} {ps : List String}
    (ht : TwoWindings t n f e w1 w2) (hr : ReadBack taps seen t r) (hp1 : HasPhases w1 ps) (hp2 : HasPhases w2 ps) (hne : ps ≠ [])
    (h3 : ps.length = 3 → ps = ["A", "B", "C"]) (hg : w1.grounded = false) (hD : w1.conn = some "D" → ps.length ≠ 1) :
    r.name = some (pyLower n) ∧ r.fromEl.map pyLower = some (pyLower (cleanName f)) ∧ r.toEl.map pyLower = some (pyLower (cleanName e)) ∧
      (∀ x, t.reactances = some [x] → r.reactances = some [x]) ∧ (∀ v, t.noload = some v → r.noload = some v) ∧
      (w1.resistance = none → w2.resistance = none → ∀ v, t.loadloss = some v → r.loadloss = some v) ∧
      (w1.rated = none → w2.rated = none → ∀ v, t.normhkva = some v → r.normhkva = some v) ∧
      r.phaseShift = some (if w1.conn = w2.conn then 0 else -30) ∧ r.centerTap = false ∧
      ∃ w1' w2', r.windings = [w1', w2'] ∧ WindingKept taps w1 w1' ∧ WindingKept taps w2 w2' ∧
        phasesOf w1' = phasesOf w1 ∧ phasesOf w2' = phasesOf w2 ∧ w1'.grounded = w1.grounded ∧ w2'.grounded = w2.grounded ∧
        (w1.rated = w2.rated → ∀ v, w1.rated = some v → w1'.rated = some v ∧ w2'.rated = some v) ∧
        (w1.emergency = w2.emergency → ∀ v, w1.emergency = some v → w1'.emergency = some v ∧ w2'.emergency = some v) ∧
        (∀ v1 v2, w1.nominal = some v1 → w2.nominal = some v2 → (v2 ≤ v1 → w1'.voltageType = some 0 ∧ w2'.voltageType = some 2) ∧
          (v1 < v2 → w1'.voltageType = some 2 ∧ w2'.voltageType = some 0)) := by
  obtain ⟨ns1, a1, a2, a3, a4, -⟩ := suffix_written hp1
  obtain ⟨ns2, b1, b2, -⟩ := suffix_written hp2
  obtain ⟨v1, v2, w1', w2', c1, c2, c3, c4, c5, c6, c7, c8, c9, c10, c11, c12, ⟨c13, c14⟩, c15, c16, c17, c18, c19, c20, c21, c22, c23⟩ :=
    two_read_back ht hr a1 b1
  have hph : phasesOf w1' = ps.map some := by
    rw [c9]
    by_cases hl : ps.length = 3
    · have := a4 hl
      rw [hg] at this
      simp only [Bool.false_eq_true, if_false] at this
      rw [this, h3 hl]
      decide
    · have := a3 hl hD
      rw [hg] at this
      simp only [Bool.false_eq_true, if_false, List.append_nil] at this
      have hns : ns1 ≠ [] := by
        rintro rfl
        exact hne (List.map_eq_nil_iff.1 this.symm)
      rw [if_neg hns]
      exact this
  refine ⟨c3, c4, c5, c18, c19, c20, c21, c17, c22, w1', w2', c6, c7, c8, by rw [hph, hp1.1], by rw [c10, hph, hp2.1],
    Bool.eq_iff_iff.2 (c11.trans a2), Bool.eq_iff_iff.2 (c12.trans b2), c15, ?_, ?_⟩
  · intro h v hv
    exact c16 v (by rw [← h, hv]; rfl)
  · intro x1 x2 hx1 hx2
    rw [c1] at hx1
    rw [c2] at hx2
    cases hx1
    cases hx2
    refine ⟨fun h => ?_, fun h => ?_⟩
    · rw [c13, c14, if_pos h, if_pos h]
      exact ⟨rfl, rfl⟩
    · rw [c13, c14, if_neg (not_le.2 h), if_neg (not_le.2 h)]
      exact ⟨rfl, rfl⟩

/-- three grounded phases are read as a single phase winding without phase, in all the windings -/
theorem C61_grounded_violated {taps : Bool} {seen : List String} {t r : DTrafo} {n f e : String} {w1 w2 : TWinding} {ps ps2 : List String}
    (ht : TwoWindings t n f e w1 w2) (hr : ReadBack taps seen t r) (hp1 : HasPhases w1 ps) (hp2 : HasPhases w2 ps2) (h3 : ps.length = 3)
    (hg : w1.grounded = true) : ∀ w ∈ r.windings, phasesOf w = [none] := by
  obtain ⟨ns1, a1, _, _, a4, -⟩ := suffix_written hp1
  obtain ⟨ns2, b1, b2, -⟩ := suffix_written hp2
  obtain ⟨v1, v2, w1', w2', _, _, _, _, _, c6, _, _, c9, c10, _⟩ := two_read_back ht hr a1 b1
  have := a4 h3
  rw [hg] at this
  simp only [if_true] at this
  have h1 : phasesOf w1' = [none] := by
    rw [c9, this]
    rfl
  intro w hw
  rw [c6] at hw
  simp only [List.mem_cons, List.not_mem_nil, or_false] at hw
  rcases hw with rfl | rfl
  · exact h1
  · rw [c10, h1]

/-- one or two grounded phases are read with another phase winding, which has no phase -/
theorem C61_neutral_violated {taps : Bool} {seen : List String} {t r : DTrafo} {n f e : String} {w1 w2 : TWinding} {ps ps2 : List String}
    (ht : TwoWindings t n f e w1 w2) (hr : ReadBack taps seen t r) (hp1 : HasPhases w1 ps) (hp2 : HasPhases w2 ps2) (h3 : ps.length ≠ 3)
    (hD : w1.conn = some "D" → ps.length ≠ 1) (hg : w1.grounded = true) : ∀ w ∈ r.windings, phasesOf w = ps.map some ++ [none] := by
  obtain ⟨ns1, a1, a2, a3, -⟩ := suffix_written hp1
  obtain ⟨ns2, b1, b2, -⟩ := suffix_written hp2
  obtain ⟨v1, v2, w1', w2', _, _, _, _, _, c6, _, _, c9, c10, _⟩ := two_read_back ht hr a1 b1
  have := a3 h3 hD
  rw [hg] at this
  simp only [if_true] at this
  have hns : ns1 ≠ [] := by
    rintro rfl
    simp at this
  have h1 : phasesOf w1' = ps.map some ++ [none] := by
    rw [c9, if_neg hns]
    exact this
  intro w hw
  rw [c6] at hw
  simp only [List.mem_cons, List.not_mem_nil, or_false] at hw
  rcases hw with rfl | rfl
  · exact h1
  · rw [c10, h1]

/-- a single phase in delta is read with a second phase -/
theorem C61_delta_violated {taps : Bool} {seen : List String} {t r : DTrafo} {n f e : String} {w1 w2 : TWinding} {p : String} {ps2 : List String}
    (ht : TwoWindings t n f e w1 w2) (hr : ReadBack taps seen t r) (hp1 : HasPhases w1 [p]) (hp2 : HasPhases w2 ps2)
    (hD : w1.conn = some "D") (hg : w1.grounded = false) : ∃ q ∈ ["A", "B", "C"], q ≠ p ∧ ∀ w ∈ r.windings, phasesOf w = [some p, some q] := by
  obtain ⟨ns1, a1, a2, _, _, a5⟩ := suffix_written hp1
  obtain ⟨ns2, b1, b2, -⟩ := suffix_written hp2
  obtain ⟨v1, v2, w1', w2', _, _, _, _, _, c6, _, _, c9, c10, _⟩ := two_read_back ht hr a1 b1
  obtain ⟨q, h1, h2, h3⟩ := a5 p rfl hD
  rw [hg] at h3
  simp only [Bool.false_eq_true, if_false, List.append_nil] at h3
  have hns : ns1 ≠ [] := by
    rintro rfl
    simp at h3
  have h4 : phasesOf w1' = [some p, some q] := by
    rw [c9, if_neg hns]
    exact h3
  refine ⟨q, h1, h2, fun w hw => ?_⟩
  rw [c6] at hw
  simp only [List.mem_cons, List.not_mem_nil, or_false] at hw
  rcases hw with rfl | rfl
  · exact h4
  · rw [c10, h4]

/-- all the windings are read with the phases of the first: other phases of the second are lost -/
theorem C61_secondary_violated {taps : Bool} {seen : List String} {t r : DTrafo} {n f e : String} {w1 w2 : TWinding} {ps ps2 : List String}
    (ht : TwoWindings t n f e w1 w2) (hr : ReadBack taps seen t r) (hp1 : HasPhases w1 ps) (hp2 : HasPhases w2 ps2) :
    ∃ l, ∀ w ∈ r.windings, phasesOf w = l := by
  obtain ⟨ns1, a1, -⟩ := suffix_written hp1
  obtain ⟨ns2, b1, -⟩ := suffix_written hp2
  obtain ⟨v1, v2, w1', w2', _, _, _, _, _, c6, _, _, c9, c10, _⟩ := two_read_back ht hr a1 b1
  refine ⟨phasesOf w1', fun w hw => ?_⟩
  rw [c6] at hw
  simp only [List.mem_cons, List.not_mem_nil, or_false] at hw
  rcases hw with rfl | rfl
  · rfl
  · exact c10

/-- three phases in any order are read in the order A, B, C -/
theorem C61_order_violated {taps : Bool} {seen : List String} {t r : DTrafo} {n f e : String} {w1 w2 : TWinding} {ps ps2 : List String}
    (ht : TwoWindings t n f e w1 w2) (hr : ReadBack taps seen t r) (hp1 : HasPhases w1 ps) (hp2 : HasPhases w2 ps2) (h3 : ps.length = 3)
    (hg : w1.grounded = false) : ∀ w ∈ r.windings, phasesOf w = [some "A", some "B", some "C"] := by
  obtain ⟨ns1, a1, _, _, a4, -⟩ := suffix_written hp1
  obtain ⟨ns2, b1, b2, -⟩ := suffix_written hp2
  obtain ⟨v1, v2, w1', w2', _, _, _, _, _, c6, _, _, c9, c10, _⟩ := two_read_back ht hr a1 b1
  have := a4 h3
  rw [hg] at this
  simp only [Bool.false_eq_true, if_false] at this
  have h1 : phasesOf w1' = [some "A", some "B", some "C"] := by
    rw [c9, this]
    decide
  intro w hw
  rw [c6] at hw
  simp only [List.mem_cons, List.not_mem_nil, or_false] at hw
  rcases hw with rfl | rfl
  · exact h1
  · rw [c10, h1]

/-- both windings get the emergency rating of the second -/
theorem C61_emergency_violated {taps : Bool} {seen : List String} {t r : DTrafo} {n f e : String} {w1 w2 : TWinding} {ps ps2 : List String}
    (ht : TwoWindings t n f e w1 w2) (hr : ReadBack taps seen t r) (hp1 : HasPhases w1 ps) (hp2 : HasPhases w2 ps2) {v : ℚ}
    (hv : w2.emergency = some v) : ∀ w ∈ r.windings, w.emergency = some v := by
  obtain ⟨ns1, a1, -⟩ := suffix_written hp1
  obtain ⟨ns2, b1, -⟩ := suffix_written hp2
  obtain ⟨v1, v2, w1', w2', _, _, _, _, _, c6, _, _, _, _, _, _, _, _, c16, _⟩ := two_read_back ht hr a1 b1
  intro w hw
  rw [c6] at hw
  have := c16 v (by rw [hv]; rfl)
  simp only [List.mem_cons, List.not_mem_nil, or_false] at hw
  rcases hw with rfl | rfl
  · exact this.1
  · exact this.2

/-- a transformer of a substation is read as another transformer -/
theorem C61_substation_violated {taps : Bool} {seen : List String} {t r : DTrafo} (hr : ReadBack taps seen t r) : r.isSubstation = false := by
  obtain ⟨text, d, st, st', h1, h2, h3, h4⟩ := hr
  unfold readTrafo at h4
  split at h4
  · split at h4
    · cases h4
    · dsimp only at h4
      split at h4
      · cases h4
      · cases h4
      · cases h4
        exact h2.sub
  · cases h4

/-! ### center taps -/

/-- A center tap in wye with one phase is read as a center tap with the same name (in lower case), ends, connections, voltages, ratings,
resistances where they are known and phase of the primary. (Missing: its reactances and default resistances, other phases of the secondary
windings, and deltas; see below.) -/
theorem C61_center_partial {taps : Bool} {seen : List String} {t r : DTrafo} {n f e : String} {w1 w2 w3 : TWinding} {p : String}
    (ht : CenterTap t n f e w1 w2 w3) (hr : ReadBack taps seen t r) (hp : HasPhases w1 [p]) (hY : w1.conn = some "Y") :
    r.name = some (pyLower n) ∧ r.fromEl.map pyLower = some (pyLower (cleanName f)) ∧ r.toEl.map pyLower = some (pyLower (cleanName e)) ∧
      r.centerTap = true ∧ (∀ v, t.noload = some v → r.noload = some v) ∧
      ∃ w1' w2' w3', r.windings = [w1', w2', w3'] ∧ WindingKept taps w1 w1' ∧ WindingKept taps w2 w2' ∧ WindingKept taps w3 w3' ∧
        (∀ w ∈ r.windings, phasesOf w = [some p]) ∧
        (∀ v, w1.rated = some v → w1'.rated = some v) ∧ (∀ v, w2.rated = some v → w2'.rated = some v) ∧
        (∀ v, w3.rated = some v → w3'.rated = some v) ∧
        (w1.emergency = w2.emergency → w2.emergency = w3.emergency → ∀ v, w1.emergency = some v → ∀ w ∈ r.windings, w.emergency = some v) ∧
        (∀ v1 v2 v3, w1.nominal = some v1 → w2.nominal = some v2 → w3.nominal = some v3 →
          (v2 ≤ v1 → v3 ≤ v1 → w1'.voltageType = some 0 ∧ w2'.voltageType = some 2 ∧ w3'.voltageType = some 2) ∧
          (v1 < v2 → v3 ≤ v2 → w1'.voltageType = some 2 ∧ w2'.voltageType = some 0 ∧ w3'.voltageType = some 2) ∧
          (v1 < v3 → v2 < v3 → w1'.voltageType = some 2 ∧ w2'.voltageType = some 2 ∧ w3'.voltageType = some 0)) := by
  obtain ⟨text, d, st, st', h1, h2, h3, h4⟩ := hr
  obtain ⟨v1, hv1⟩ := Option.isSome_iff_exists.1 ht.nominal1
  obtain ⟨v2, hv2⟩ := Option.isSome_iff_exists.1 ht.nominal2
  obtain ⟨v3, hv3⟩ := Option.isSome_iff_exists.1 ht.nominal3
  obtain ⟨hp1, hp2⟩ := hp
  obtain ⟨k, k1, k2⟩ := ofDss_toDss (hp2 p List.mem_cons_self)
  obtain ⟨q, hq, hqp⟩ : ∃ q, w1.pws = [q] ∧ q.phase = some p := by
    unfold phasesOf at hp1
    obtain ⟨q, hq⟩ := List.length_eq_one_iff.1 (by simpa using congrArg List.length hp1 : w1.pws.length = 1)
    rw [hq] at hp1
    exact ⟨q, hq, by simpa using hp1⟩
  have hs : tapSuffix t.windings 0 w1 = .ok ([k].map some) := by
    have hne : (some "Y" : Option String) ≠ some "D" := by decide
    unfold tapSuffix
    simp only [if_true, hq, hY, if_neg hne, hqp, Option.bind_some, k1]
    rfl
  obtain ⟨_, r', w1', w2', w3', h5, h6, h7, h8, h9, h10, h11, h12, h13, h14, h15, -, ⟨h16, h17, h18⟩, h19, -, -, -, -, h20, h21, -, h22⟩ :=
    read_three st ht.name ht.from_el ht.to_el ht.windings ht.center h1 h2 (h3 n ht.name) ht.conn1 ht.conn2 ht.conn3 v1 v2 v3 hv1 hv2 hv3
      hs (List.cons_ne_nil _ _)
  rw [h4] at h5
  cases h5
  have hph : phasesOf w1' = [some p] := by rw [h13]; simp [k2]
  refine ⟨h6, h7, h8, ?_, h20, w1', w2', w3', h9, h10, h11, h12, ?_, h16, h17, h18, ?_, ?_⟩
  · refine (h21 1 ?_).2 rfl
    rw [ht.windings]
    have hne : ¬ (3 = 3 ∧ (some "Y" : Option String) = some "D") := by decide
    simp [trafoPhases, hY, hq]
  · intro w hw
    rw [h9] at hw
    simp only [List.mem_cons, List.not_mem_nil, or_false] at hw
    rcases hw with rfl | rfl | rfl
    · exact hph
    · rw [h14, hph]
    · rw [h15, hph]
  · intro e1 e2 v hv w hw
    have := h19 v (by rw [← e2, ← e1, hv]; rfl)
    rw [h9] at hw
    simp only [List.mem_cons, List.not_mem_nil, or_false] at hw
    rcases hw with rfl | rfl | rfl
    · exact this.1
    · exact this.2.1
    · exact this.2.2
  · intro x1 x2 x3 e1 e2 e3
    rw [hv1] at e1
    rw [hv2] at e2
    rw [hv3] at e3
    cases e1
    cases e2
    cases e3
    exact h22

/-- A center tap in delta with two phases is read as a center tap, with these phases in all its windings. -/
theorem C61_center_delta_partial {taps : Bool} {seen : List String} {t r : DTrafo} {n f e : String} {w1 w2 w3 : TWinding} {p q : String}
    (ht : CenterTap t n f e w1 w2 w3) (hr : ReadBack taps seen t r) (hp : HasPhases w1 [p, q]) (hD : w1.conn = some "D") :
    r.centerTap = true ∧ r.windings.length = 3 ∧ ∀ w ∈ r.windings, phasesOf w = [some p, some q] := by
  obtain ⟨text, d, st, st', h1, h2, h3, h4⟩ := hr
  obtain ⟨v1, hv1⟩ := Option.isSome_iff_exists.1 ht.nominal1
  obtain ⟨v2, hv2⟩ := Option.isSome_iff_exists.1 ht.nominal2
  obtain ⟨v3, hv3⟩ := Option.isSome_iff_exists.1 ht.nominal3
  obtain ⟨hp1, hp2⟩ := hp
  obtain ⟨k, k1, k2⟩ := ofDss_toDss (hp2 p List.mem_cons_self)
  obtain ⟨l, l1, l2⟩ := ofDss_toDss (hp2 q (List.mem_cons_of_mem _ List.mem_cons_self))
  obtain ⟨x, y, hxy, hx, hy⟩ : ∃ x y, w1.pws = [x, y] ∧ x.phase = some p ∧ y.phase = some q := by
    unfold phasesOf at hp1
    obtain ⟨x, y, hq⟩ := List.length_eq_two.1 (by simpa using congrArg List.length hp1 : w1.pws.length = 2)
    rw [hq] at hp1
    simp only [List.map_cons, List.map_nil, List.cons.injEq, and_true] at hp1
    exact ⟨x, y, hq, hp1.1, hp1.2⟩
  have hs : tapSuffix t.windings 0 w1 = .ok ([k, l].map some) := by
    unfold tapSuffix
    simp only [if_true, hxy, hD, hx, hy, Option.bind_some, k1, l1]
    rfl
  obtain ⟨_, r', w1', w2', w3', h5, -, -, -, h9, -, -, -, h13, h14, h15, -, -, -, -, -, -, -, -, h21, -⟩ :=
    read_three st ht.name ht.from_el ht.to_el ht.windings ht.center h1 h2 (h3 n ht.name) ht.conn1 ht.conn2 ht.conn3 v1 v2 v3 hv1 hv2 hv3
      hs (List.cons_ne_nil _ _)
  rw [h4] at h5
  cases h5
  have hph : phasesOf w1' = [some p, some q] := by rw [h13]; simp [k2, l2]
  refine ⟨?_, by rw [h9]; rfl, ?_⟩
  · refine (h21 1 ?_).2 rfl
    rw [ht.windings]
    simp [trafoPhases, hD, hxy]
  · intro w hw
    rw [h9] at hw
    simp only [List.mem_cons, List.not_mem_nil, or_false] at hw
    rcases hw with rfl | rfl | rfl
    · exact hph
    · rw [h14, hph]
    · rw [h15, hph]

/-- A center tap in delta with one phase is written with no phases at all. -/
theorem C61_no_phases_violated {taps : Bool} {t : DTrafo} {n f e : String} {w1 w2 w3 : TWinding} {q : PWinding} {text : TrafoText}
    (ht : CenterTap t n f e w1 w2 w3) (hw : w1.pws = [q]) (hD : w1.conn = some "D") (h : writeTrafo taps t = .ok text) :
    text.phases = some 0 := by
  have hp : trafoPhases t.windings = some 0 := by rw [ht.windings]; simp [trafoPhases, hD, hw]
  unfold writeTrafo at h
  simp only [ht.from_el, ht.to_el, ht.windings, ht.center, if_true] at h
  split at h
  · cases h
  · cases h
  · cases h
  · injection h with h
    rw [← h]
    split <;> exact hp

/-- what is read of a center tap with one phase in wye -/
theorem center_read_back {taps : Bool} {seen : List String} {t r : DTrafo} {n f e : String} {w1 w2 w3 : TWinding} {p : String}
    (ht : CenterTap t n f e w1 w2 w3) (hr : ReadBack taps seen t r) (hp : HasPhases w1 [p]) (hY : w1.conn = some "Y") :
    (∀ a b c, t.reactances = some [a, b, c] → r.reactances = some [a, c, b]) ∧
    (t.reactances = none → r.reactances = some [204 / 100, 204 / 100, 136 / 100]) ∧
    ∃ w1' w2' w3', r.windings = [w1', w2', w3'] ∧ (w1.resistance = none → w1'.resistance = some (12 / 10)) ∧
      (w2.resistance = none → w2'.resistance = some (6 / 10)) ∧ (w3.resistance = none → w3'.resistance = some (12 / 10)) := by
  obtain ⟨text, d, st, st', h1, h2, h3, h4⟩ := hr
  obtain ⟨v1, hv1⟩ := Option.isSome_iff_exists.1 ht.nominal1
  obtain ⟨v2, hv2⟩ := Option.isSome_iff_exists.1 ht.nominal2
  obtain ⟨v3, hv3⟩ := Option.isSome_iff_exists.1 ht.nominal3
  obtain ⟨hp1, hp2⟩ := hp
  obtain ⟨k, k1, k2⟩ := ofDss_toDss (hp2 p List.mem_cons_self)
  obtain ⟨q, hq, hqp⟩ : ∃ q, w1.pws = [q] ∧ q.phase = some p := by
    unfold phasesOf at hp1
    obtain ⟨q, hq⟩ := List.length_eq_one_iff.1 (by simpa using congrArg List.length hp1 : w1.pws.length = 1)
    rw [hq] at hp1
    exact ⟨q, hq, by simpa using hp1⟩
  have hs : tapSuffix t.windings 0 w1 = .ok ([k].map some) := by
    have hne : (some "Y" : Option String) ≠ some "D" := by decide
    unfold tapSuffix
    simp only [if_true, hq, hY, if_neg hne, hqp, Option.bind_some, k1]
    rfl
  obtain ⟨_, r', w1', w2', w3', h5, -, -, -, h9, -, -, -, -, -, -, -, -, -, ⟨h10, h11, h12⟩, -, h13, h14, -⟩ :=
    read_three st ht.name ht.from_el ht.to_el ht.windings ht.center h1 h2 (h3 n ht.name) ht.conn1 ht.conn2 ht.conn3 v1 v2 v3 hv1 hv2 hv3
      hs (List.cons_ne_nil _ _)
  rw [h4] at h5
  cases h5
  exact ⟨h13, h14, w1', w2', w3', h9, h10, h11, h12⟩

/-- the reactances of a center tap change places: the second is written as that between the secondary windings, and read last -/
theorem C61_reactances_violated {taps : Bool} {seen : List String} {t r : DTrafo} {n f e : String} {w1 w2 w3 : TWinding} {p : String}
    (ht : CenterTap t n f e w1 w2 w3) (hr : ReadBack taps seen t r) (hp : HasPhases w1 [p]) (hY : w1.conn = some "Y") {a b c : ℚ}
    (hx : t.reactances = some [a, b, c]) : r.reactances = some [a, c, b] := (center_read_back ht hr hp hY).1 a b c hx

/-- the default resistances are shifted by one winding: the primary gets that of a secondary winding, 1.2, and the first secondary winding
that of the primary, 0.6 -/
theorem C61_resistance_violated {taps : Bool} {seen : List String} {t r : DTrafo} {n f e : String} {w1 w2 w3 : TWinding} {p : String}
    (ht : CenterTap t n f e w1 w2 w3) (hr : ReadBack taps seen t r) (hp : HasPhases w1 [p]) (hY : w1.conn = some "Y")
    (h1 : w1.resistance = none) (h2 : w2.resistance = none) (h3 : w3.resistance = none) :
    r.windings.map (·.resistance) = [some (12 / 10), some (6 / 10), some (12 / 10)] := by
  obtain ⟨-, -, w1', w2', w3', h, k1, k2, k3⟩ := center_read_back ht hr hp hY
  rw [h, List.map_cons, List.map_cons, List.map_cons, List.map_nil, k1 h1, k2 h2, k3 h3]

/-- the second connection of a center tap in delta with one phase depends on the secondary windings: here both are phase B -/
theorem C61_same_phase_violated (taps : Bool) (t : DTrafo) (w1 w2 w3 : TWinding) (f e : String) (q1 q3 : PWinding) (hw : t.windings = [w1, w2, w3])
    (hc : t.centerTap = true) (hf : t.fromEl = some f) (he : t.toEl = some e) (hD : w1.conn = some "D") (h1 : w1.pws = [q1])
    (hq1 : q1.phase = some "B") (h3 : w3.pws.getLast? = some q3) (hq3 : q3.phase = some "A") (text : TrafoText)
    (ht : writeTrafo taps t = .ok text) : text.wdgs.head?.map (·.bus) = some (cleanName f, [some 2, some 2]) := by
  have hl : lastPw t.windings = some q3 := by
    rw [hw]
    simp [lastPw, List.getLast?_append, h3]
  have hs : tapSuffix t.windings 0 w1 = .ok [some 2, some 2] := by
    unfold tapSuffix
    simp only [if_true, h1, hl, hD, hq1, Option.bind_some, hq3]
    rfl
  unfold writeTrafo at ht
  simp only [hf, he, hw, hc, if_true] at ht
  split at ht
  · cases ht
  · cases ht
  · cases ht
  · rename_i t1 t2 t3 k1 k2 k3
    rw [← hw] at k1
    obtain ⟨-, -, -, -, -, -, ⟨s, k4, k5⟩, -⟩ := tapWdgText_ok k1
    rw [hs] at k4
    cases k4
    injection ht with ht
    rw [← ht]
    split <;> simp [k5]

/-! ### what is not written -/

/-- three windings that are no center tap, and any other number of windings but two, are not described at all -/
theorem C61_windings_violated (taps : Bool) (t : DTrafo) (h2 : t.windings.length ≠ 2) (h3 : t.windings.length = 3 → t.centerTap = false)
    (text : TrafoText) (ht : writeTrafo taps t = .ok text) : text.wdgs = [] ∧ text.xhl = none := by
  unfold writeTrafo at ht
  split at ht
  · split at ht
    · next h => rw [h] at h2; exact absurd rfl h2
    · next h =>
      rw [h] at h3
      rw [h3 rfl] at ht
      simp only [Bool.false_eq_true, if_false] at ht
      cases ht
      exact ⟨rfl, rfl⟩
    · cases ht
      exact ⟨rfl, rfl⟩
  · cases ht

/-- without one of the ends the writer raises -/
theorem C61_ends (taps : Bool) (t : DTrafo) (h : t.fromEl = none ∨ t.toEl = none) : writeTrafo taps t = .error .nameError := by
  unfold writeTrafo
  rcases h with h | h
  · rw [h]
  · rw [h]
    cases t.fromEl <;> rfl

/-- a transformer with four windings is read with the ends of the transformer before it -/
theorem C61_stale_violated {seen : List String} {v : BusVars} {st' : Option BusVars} {d : TrafoData} {r : DTrafo}
    (h4 : 4 ≤ d.buses.length) (h : readTrafo seen (some v) d = .ok (some (st', r))) :
    st' = some v ∧ r.fromEl = some v.b1 ∧ r.toEl = some v.b2 ∧ ∀ w ∈ r.windings, phasesOf w = v.phases.map ofDssPhase := by
  have hb : readBuses (some v) d.buses = some v := by
    unfold readBuses
    split
    · next hx => rw [hx] at h4; simp at h4
    · next hx => rw [hx] at h4; simp at h4
    · rfl
  have hws : ∀ (l : List Nat) n ws, readWindings d n (some v.phases) l = .ok ws → ∀ w ∈ ws, phasesOf w = v.phases.map ofDssPhase := by
    intro l
    induction l with
    | nil =>
      intro n ws h w hw
      cases h
      cases hw
    | cons i l ih =>
      intro n ws h w hw
      unfold readWindings at h
      split at h
      · cases h
      · next x hx =>
        split at h
        · cases h
        · next xs hxs =>
          cases h
          rcases List.mem_cons.1 hw with rfl | hw
          · cases hbus : d.buses[i]? with
            | none => simp [readWinding, hbus] at hx
            | some b =>
              rw [readWinding_ok hbus] at hx
              cases hx
              simp [phasesOf, rawWinding, Function.comp_def]
          · exact ih n xs hxs w hw
  unfold readTrafo at h
  rw [hb] at h
  split at h
  · split at h
    · cases h
    · dsimp only at h
      split at h
      · cases h
      · cases h
      · next ws vts h1 h2 =>
        cases h
        refine ⟨rfl, rfl, rfl, fun w hw => ?_⟩
        simp only at hw
        rw [List.mem_iff_getElem?] at hw
        obtain ⟨i, hi⟩ := hw
        rw [List.getElem?_zipWith] at hi
        split at hi
        · next a b ha hb' =>
          cases hi
          exact hws _ _ _ h1 a (List.mem_of_getElem? ha)
        · cases hi
  · cases h

/-- a transformer whose name is taken by another object is read without a name -/
theorem C61_duplicate_violated {seen : List String} {st st' : Option BusVars} {d : TrafoData} {r : DTrafo} (hs : pyLower d.name ∈ seen)
    (h : readTrafo seen st d = .ok (some (st', r))) : r.name = some "" := by
  have hn : trafoName seen d = "" := if_pos hs
  unfold readTrafo at h
  split at h
  · split at h
    · cases h
    · dsimp only at h
      split at h
      · cases h
      · cases h
      · cases h
        rw [hn]
  · cases h

/-- Without a number of windings two are read. -/
theorem C61_default {seen : List String} {st st' : Option BusVars} {d : TrafoData} {r : DTrafo} (hw : d.windings = none)
    (h : readTrafo seen st d = .ok (some (st', r))) : r.windings.length = 2 := by
  have hn : windingCount d = 2 := by simp only [windingCount, hw]
  have hl : ∀ (l : List Nat) n ps ws, readWindings d n ps l = .ok ws → ws.length = l.length := by
    intro l
    induction l with
    | nil => intro n ps ws h; cases h; rfl
    | cons i l ih =>
      intro n ps ws h
      unfold readWindings at h
      split at h
      · cases h
      · split at h
        · cases h
        · next xs hxs => cases h; rw [List.length_cons, List.length_cons, ih n ps xs hxs]
  unfold readTrafo at h
  split at h
  · split at h
    · cases h
    · dsimp only at h
      split at h
      · cases h
      · cases h
      · next ws vts h1 h2 =>
        cases h
        rw [hn] at h1 h2
        have k1 := hl _ _ _ _ h1
        have k2 : vts.length = 2 := by
          unfold voltageTypes at h2
          rw [if_pos rfl] at h2
          split at h2
          · cases h2
            split <;> rfl
          · cases h2
        rw [List.length_zipWith, k1, k2]
        rfl
  · cases h

/-! ### examples -/

/-- what OpenDSS may report of a text, for the examples -/
def exReport (t : TrafoText) : TrafoData where
  name := match t.name with | some n => n | none => ""
  windings := t.windings
  phases := t.phases.map Int.toNat
  loadloss := t.loadloss
  noload := t.noload
  normhkva := t.normhkva
  buses := t.wdgs.map fun w => (w.bus.1, if w.bus.2 = [] then none else some (w.bus.2.filterMap id))
  conns := t.wdgs.filterMap (·.conn)
  kVs := t.wdgs.filterMap (·.kV)
  kVAs := t.wdgs.filterMap (·.kVA)
  rs := t.wdgs.filterMap (·.r)
  taps := t.wdgs.filterMap (·.tap)
  emerg := (t.wdgs.filterMap (·.emerg)).getLast?
  xsc := match t.xhl, t.xht, t.xlt with
    | some a, some b, some c => some [a, b, c]
    | some a, _, _ => some [a]
    | _, _, _ => none

/-- a transformer from delta to grounded wye with three phases -/
def exTwo : DTrafo where
  name := some "T1"
  fromEl := some "Bus.7"
  toEl := some "bus8"
  noload := some (1 / 5)
  reactances := some [6]
  windings := [
    { conn := some "D", nominal := some 12470, rated := some 50000, resistance := some 1,
      pws := [{ phase := some "A", tap := some 1 }, { phase := some "B", tap := some 1 }, { phase := some "C", tap := some 1 }] },
    { conn := some "Y", nominal := some 480, rated := some 50000, resistance := some 2, grounded := true,
      pws := [{ phase := some "A", tap := some (21 / 20) }, { phase := some "B", tap := some (21 / 20) }, { phase := some "C", tap := some (21 / 20) }] }]

def exTwoText : TrafoText where
  name := some "T1"
  phases := some 3
  windings := some 2
  noload := some (1 / 5)
  wdgs := [
    { conn := some "delta", kV := some (12470 / 1000), kVA := some 50, r := some 1, bus := ("Bus_7", []), tap := some 1 },
    { conn := some "wye", kV := some (480 / 1000), kVA := some 50, r := some 2, bus := ("bus8", [some 0]), tap := some (21 / 20) }]
  xhl := some 6

example : writeTrafo true exTwo = .ok exTwoText := by decide +kernel

/-- a center tap of phase B -/
def exTap : DTrafo where
  name := some "ct"
  fromEl := some "p"
  toEl := some "s"
  reactances := some [2, 1, 3]
  centerTap := true
  isSubstation := true
  windings := [
    { conn := some "Y", nominal := some 7200, rated := some 25000, pws := [{ phase := some "B", tap := some 1 }] },
    { conn := some "Y", nominal := some 120, rated := some 25000, pws := [{ phase := some "B", tap := some 1 }] },
    { conn := some "Y", nominal := some 120, rated := some 25000, pws := [{ phase := some "B", tap := some 1 }] }]

def exTapText : TrafoText where
  name := some "ct"
  phases := some 1
  windings := some 3
  wdgs := [
    { conn := some "wye", kV := some (7200 / 1000), kVA := some 25, r := some (12 / 10), bus := ("p", [some 2]), tap := some 1 },
    { conn := some "wye", kV := some (120 / 1000), kVA := some 25, r := some (6 / 10), bus := ("s", [some 1, some 0]), tap := some 1 },
    { conn := some "wye", kV := some (120 / 1000), kVA := some 25, r := some (12 / 10), bus := ("s", [some 0, some 2]), tap := some 1 }]
  xhl := some 2
  xlt := some 1
  xht := some 3

example : writeTrafo true exTap = .ok exTapText := by decide +kernel

theorem exTwo_reports : ReportsTrafo exTwoText (exReport exTwoText) := by
  constructor
  case bus =>
    rintro (_ | _ | i) w b ns hw hb <;> simp [exTwoText] at hw
    all_goals
      subst hw
      simp only [Prod.mk.injEq] at hb
      obtain ⟨rfl, hb⟩ := hb
      refine ⟨_, rfl, ?_⟩
    · obtain rfl : ns = [] := by simpa using hb.symm
      decide +kernel
    · obtain rfl : ns = [0] := by
        have : ns.map some = [0].map some := hb.symm
        exact List.map_injective_iff.2 (Option.some_injective _) this
      decide +kernel
  case conn =>
    rintro (_ | _ | i) w c hw hc <;> simp [exTwoText] at hw <;> subst hw <;> cases hc
    · exact ⟨"delta", by decide +kernel, by decide +kernel⟩
    · exact ⟨"wye", by decide +kernel, by decide +kernel⟩
  case kV | r | tap =>
    rintro (_ | _ | i) w v hw hv <;> simp [exTwoText] at hw <;> subst hw <;> cases hv <;> decide +kernel
  case kVA =>
    rintro - (_ | _ | i) w v hw hv <;> simp [exTwoText] at hw <;> subst hw <;> cases hv <;> decide +kernel
  all_goals simp [exTwoText, exReport]
  omega

theorem exTap_reports : ReportsTrafo exTapText (exReport exTapText) := by
  constructor
  case bus =>
    rintro (_ | _ | _ | i) w b ns hw hb <;> simp [exTapText] at hw
    all_goals
      subst hw
      simp only [Prod.mk.injEq] at hb
      obtain ⟨rfl, hb⟩ := hb
      refine ⟨_, rfl, ?_⟩
    · obtain rfl : ns = [2] := by
        have : ns.map some = [2].map some := hb.symm
        exact List.map_injective_iff.2 (Option.some_injective _) this
      decide +kernel
    · obtain rfl : ns = [1, 0] := by
        have : ns.map some = [1, 0].map some := hb.symm
        exact List.map_injective_iff.2 (Option.some_injective _) this
      decide +kernel
    · obtain rfl : ns = [0, 2] := by
        have : ns.map some = [0, 2].map some := hb.symm
        exact List.map_injective_iff.2 (Option.some_injective _) this
      decide +kernel
  case conn =>
    rintro (_ | _ | _ | i) w c hw hc <;> simp [exTapText] at hw <;> subst hw <;> cases hc <;>
      exact ⟨"wye", by decide +kernel, by decide +kernel⟩
  case kV | r | tap =>
    rintro (_ | _ | _ | i) w v hw hv <;> simp [exTapText] at hw <;> subst hw <;> cases hv <;> decide +kernel
  case kVA =>
    rintro - (_ | _ | _ | i) w v hw hv <;> simp [exTapText] at hw <;> subst hw <;> cases hv <;> decide +kernel
  all_goals simp [exTapText, exReport]
  omega

example : ∃ r, ReadBack true ["line1"] exTwo r ∧ ∃ w1 w2, TwoWindings exTwo "T1" "Bus.7" "bus8" w1 w2 ∧ HasPhases w1 ["A", "B", "C"] ∧
    HasPhases w2 ["A", "B", "C"] ∧ w1.grounded = false ∧ w2.grounded = true := by
  have h : (readTrafo ["line1"] none (exReport exTwoText)).toOption.join.isSome = true := by decide +kernel
  obtain ⟨⟨st', r⟩, hr⟩ := Option.isSome_iff_exists.1 h
  refine ⟨r, ⟨exTwoText, _, none, st', by decide +kernel, exTwo_reports, ?_, ?_⟩, _, _, ⟨rfl, rfl, rfl, rfl, ?_, ?_, rfl, rfl⟩, ⟨rfl, ?_⟩, ⟨rfl, ?_⟩, rfl, rfl⟩
  · intro n hn
    cases hn
    decide +kernel
  · cases hx : readTrafo ["line1"] none (exReport exTwoText) with
    | error e => rw [hx] at hr; cases hr
    | ok y =>
      rw [hx] at hr
      cases y with
      | none => cases hr
      | some z => cases hr; rfl
  all_goals decide +kernel

example : ∃ r, ReadBack true [] exTap r ∧ (∃ w1 w2 w3, CenterTap exTap "ct" "p" "s" w1 w2 w3 ∧ HasPhases w1 ["B"] ∧ w1.conn = some "Y") ∧
    r.reactances = some [2, 3, 1] := by
  have h : (readTrafo [] none (exReport exTapText)).toOption.join.isSome = true := by decide +kernel
  obtain ⟨⟨st', r⟩, hr⟩ := Option.isSome_iff_exists.1 h
  have hb : ReadBack true [] exTap r := by
    refine ⟨exTapText, _, none, st', by decide +kernel, exTap_reports, fun _ _ => List.not_mem_nil, ?_⟩
    cases hx : readTrafo [] none (exReport exTapText) with
    | error e => rw [hx] at hr; cases hr
    | ok y =>
      rw [hx] at hr
      cases y with
      | none => cases hr
      | some z => cases hr; rfl
  have hc : CenterTap exTap "ct" "p" "s" _ _ _ := ⟨rfl, rfl, rfl, rfl, rfl, Or.inl rfl, Or.inl rfl, Or.inl rfl, rfl, rfl, rfl⟩
  exact ⟨r, hb, ⟨_, _, _, hc, ⟨rfl, by decide +kernel⟩, rfl⟩, C61_reactances_violated hc hb ⟨rfl, by decide +kernel⟩ rfl rfl⟩

example : (readTrafo [] none { name := "t", buses := [("a", none), ("b", none)], conns := ["Delta", "Wye"], kVs := [12, 1] }).toOption.join.map
    (fun x => x.2.windings.length) = some 2 := by decide +kernel

/-- a center tap in delta between the phases A and B -/
def exTapDelta : DTrafo where
  name := some "ct"
  fromEl := some "p"
  toEl := some "s"
  centerTap := true
  windings := [
    { conn := some "D", nominal := some 12470, pws := [{ phase := some "A" }, { phase := some "B" }] },
    { conn := some "Y", nominal := some 120, pws := [{ phase := some "A" }] },
    { conn := some "Y", nominal := some 120, pws := [{ phase := some "A" }] }]

example : (writeTrafo true exTapDelta).map (fun t => (t.phases, t.wdgs.map (·.bus))) =
    .ok (some 1, [("p", [some 1, some 2]), ("s", [some 1, some 0]), ("s", [some 0, some 2])]) := by decide +kernel

example : ∃ w1 w2 w3, CenterTap exTapDelta "ct" "p" "s" w1 w2 w3 ∧ HasPhases w1 ["A", "B"] ∧ w1.conn = some "D" :=
  ⟨_, _, _, ⟨rfl, rfl, rfl, rfl, rfl, Or.inr rfl, Or.inl rfl, Or.inl rfl, rfl, rfl, rfl⟩, ⟨rfl, by decide +kernel⟩, rfl⟩

end Ditto.Dss
