import Verif.Lemmas.Metrics

/-! C36: the lengths of lines in `compute_all_metrics`. -/
namespace Ditto.Metrics
open Ditto

theorem computeAll_ok {u : Bool} {ext : MObj → Option PyErr} {objs : List MObj} {m : Metrics} (h : computeAll u ext objs = .ok m) :
    ∃ r, analyzeAll u ext {} objs = .ok r ∧ m = postProcess r := by
  unfold computeAll at h
  cases hr : analyzeAll u ext {} objs with
  | error e => rw [hr] at h; cases h
  | ok r => rw [hr] at h; cases h; exact ⟨r, rfl, rfl⟩

/-- C36: the metrics are computed for exactly the models whose lines have wires and known lengths, whose loads have phase loads of which
the first has known values, and whose transformers do not consist of a single winding with a known voltage, as long as the parts that are
not modelled raise no exception. -/
theorem C36_succeeds (u : Bool) (ext : MObj → Option PyErr) (objs : List MObj) (hext : ∀ o ∈ objs, ext o = none) :
    (∃ m, computeAll u ext objs = .ok m) ↔ ∀ o ∈ objs, Analyzable o := by
  rw [← analyzeAll_ok_iff u ext objs hext {}]
  unfold computeAll
  cases analyzeAll u ext {} objs <;> simp

/-- C36: the reported lengths are those of the lines of low and of medium voltage. -/
theorem C36_lengths (u : Bool) (ext : MObj → Option PyErr) (objs : List MObj) (m : Metrics) (h : computeAll u ext objs = .ok m) :
    LengthsOf (fun l => Low l.voltage) objs m.raw.lv ∧ LengthsOf (fun l => Medium l.voltage) objs m.raw.mv := by
  obtain ⟨r, hr, rfl⟩ := computeAll_ok h
  have hw := fun l hl => lines_wires hr l hl
  have k0 := lens_all hr (·.total) (fun _ _ => True) rfl (fun L k oh len => (add_total L k oh len).trans (by congr))
  have k1 := lens_all hr (·.ph1) (fun n _ => n = 1) rfl (fun L k oh len => (add_ph1 L k oh len).trans (by congr))
  have k2 := lens_all hr (·.ph2) (fun n _ => n = 2) rfl (fun L k oh len => (add_ph2 L k oh len).trans (by congr))
  have k3 := lens_all hr (·.ph3) (fun n _ => n = 3) rfl (fun L k oh len => (add_ph3 L k oh len).trans (by congr))
  have k4 := lens_all hr (·.oh1) (fun n o => n = 1 ∧ o) rfl (fun L k oh len => (add_oh1 L k oh len).trans (by congr))
  have k5 := lens_all hr (·.oh2) (fun n o => n = 2 ∧ o) rfl (fun L k oh len => (add_oh2 L k oh len).trans (by congr))
  have k6 := lens_all hr (·.oh3) (fun n o => n = 3 ∧ o) rfl (fun L k oh len => (add_oh3 L k oh len).trans (by congr))
  rw [sel_all hw, sel_all hw] at k0
  rw [sel_phases hw, sel_phases hw] at k1 k2 k3
  rw [sel_overhead hw, sel_overhead hw] at k4 k5 k6
  constructor
  · constructor
    · exact congrArg miles k0.1
    · exact congrArg miles k1.1
    · exact congrArg miles k2.1
    · exact congrArg miles k3.1
    · exact congrArg miles k4.1
    · exact congrArg miles k5.1
    · exact congrArg miles k6.1
  · constructor
    · exact congrArg miles k0.2
    · exact congrArg miles k1.2
    · exact congrArg miles k2.2
    · exact congrArg miles k3.2
    · exact congrArg miles k4.2
    · exact congrArg miles k5.2
    · exact congrArg miles k6.2

theorem miles_le {x y : ℚ} (h : x ≤ y) : miles x ≤ miles y := by
  unfold miles
  exact mul_le_mul_of_nonneg_right h (by norm_num)

/-- C36: the overhead lengths are part of the lengths by number of phases. -/
theorem C36_overhead (C : MLine → Prop) (objs : List MObj) (l : Lens) (h : LengthsOf C objs l) :
    0 ≤ l.oh1 ∧ l.oh1 ≤ l.ph1 ∧ 0 ≤ l.oh2 ∧ l.oh2 ≤ l.ph2 ∧ 0 ≤ l.oh3 ∧ l.oh3 ≤ l.ph3 := by
  have h0 : ∀ P, 0 ≤ miles (totalLength P objs) := by
    intro P
    have := miles_le (totalLength_le (P := fun _ => False) (Q := P) objs (fun _ _ h => h.elim))
    have h1 : totalLength (fun _ => False) objs = 0 := by simp [totalLength]
    rw [h1] at this
    simpa [miles] using this
  rw [h.oh1, h.ph1, h.oh2, h.ph2, h.oh3, h.ph3]
  exact ⟨h0 _, miles_le (totalLength_le _ fun l _ h => ⟨h.1, h.2.1⟩), h0 _, miles_le (totalLength_le _ fun l _ h => ⟨h.1, h.2.1⟩),
    h0 _, miles_le (totalLength_le _ fun l _ h => ⟨h.1, h.2.1⟩)⟩

theorem hasPhases_unique {j k : Nat} {l : MLine} (h : HasPhases j l) (h' : HasPhases k l) : j = k := by
  obtain ⟨ws, hw, rfl⟩ := h
  obtain ⟨ws', hw', rfl⟩ := h'
  rw [hw] at hw'
  cases hw'
  rfl

/-- C36: the lengths by number of phases add up to the total length if every line of the class has one to three phases. -/
theorem C36_partition (C : MLine → Prop) (objs : List MObj) (l : Lens) (h : LengthsOf C objs l)
    (hp : ∀ x ∈ linesOf objs, C x → HasPhases 1 x ∨ HasPhases 2 x ∨ HasPhases 3 x) : l.ph1 + l.ph2 + l.ph3 = l.total := by
  rw [h.ph1, h.ph2, h.ph3, h.total]
  have h1 : totalLength C objs = totalLength (fun x => C x ∧ HasPhases 1 x) objs +
      totalLength (fun x => C x ∧ (HasPhases 2 x ∨ HasPhases 3 x)) objs :=
    totalLength_add objs (fun x hx => by have := hp x hx; tauto)
      (fun x h1 h2 => by
        rcases h2.2 with h2 | h2
        · exact absurd (hasPhases_unique h1.2 h2) (by decide)
        · exact absurd (hasPhases_unique h1.2 h2) (by decide))
  have h2 : totalLength (fun x => C x ∧ (HasPhases 2 x ∨ HasPhases 3 x)) objs = totalLength (fun x => C x ∧ HasPhases 2 x) objs +
      totalLength (fun x => C x ∧ HasPhases 3 x) objs :=
    totalLength_add objs (fun x hx => by tauto) (fun x h1 h2 => absurd (hasPhases_unique h1.2 h2.2) (by decide))
  rw [h1, h2]
  unfold miles
  ring

/-- C36: no voltage is both low and medium, so no line is counted twice. -/
theorem C36_exclusive (v : Option ℚ) (h : Low v) : ¬ Medium v := low_not_medium h

/-- two lines of medium voltage, one of low voltage with a wire that is not used, and one of high voltage -/
def exLines : List MObj :=
  [.line { voltage := some 7200, length := some 1000, lineType := some "overhead", wires := some [⟨some "A", false, none⟩, ⟨some "N", false, none⟩] },
   .line { voltage := some 7200, length := some 500, lineType := some "underground", wires := some [⟨some "A", false, none⟩, ⟨some "B", false, none⟩, ⟨some "C", false, none⟩] },
   .line { voltage := some 240, length := some 30, lineType := some "overhead", wires := some [⟨some "A", false, none⟩, ⟨some "B", true, none⟩, ⟨some "C", false, none⟩] },
   .line { voltage := some 66000, length := some 30, wires := some [] }]

theorem exLines_run : (computeAll false (fun _ => none) exLines).map (fun m => (m.raw.lv, m.raw.mv)) =
    .ok (({ total := 30, ph2 := 30, oh2 := 30 } : Lens).scale toMiles,
      ({ total := 1500, ph1 := 1000, ph3 := 500, oh1 := 1000 } : Lens).scale toMiles) := by decide +kernel

end Ditto.Metrics
