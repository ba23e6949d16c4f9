import Verif.Props.Metrics
import Verif.Lemmas.LoadMetrics

/-! C37: the demand in `compute_all_metrics`. -/
namespace Ditto.Metrics
open Ditto

/-- C37: the total demand is the sum of the demands of the loads, and that on a phase the sum of those on the phase. -/
theorem C37_demand (u : Bool) (ext : MObj → Option PyErr) (objs : List MObj) (m : Metrics) (h : computeAll u ext objs = .ok m) :
    m.raw.kw = ((loadsOf objs).map demand).sum / 1000 ∧ m.raw.kwA = ((loadsOf objs).map (phaseDemand "A")).sum / 1000 ∧
    m.raw.kwB = ((loadsOf objs).map (phaseDemand "B")).sum / 1000 ∧ m.raw.kwC = ((loadsOf objs).map (phaseDemand "C")).sum / 1000 := by
  obtain ⟨r, hr, rfl⟩ := computeAll_ok h
  have h0 := fold_loads (u := u) (ext := ext) (·.kw) demand (fun _ => rfl) (fun r l => (afterLoad_demand u r l).1) objs {} r hr
  have h1 := fold_loads (u := u) (ext := ext) (·.kwA) (phaseDemand "A") (fun _ => rfl) (fun r l => (afterLoad_demand u r l).2.1) objs {} r hr
  have h2 := fold_loads (u := u) (ext := ext) (·.kwB) (phaseDemand "B") (fun _ => rfl) (fun r l => (afterLoad_demand u r l).2.2.1) objs {} r hr
  have h3 := fold_loads (u := u) (ext := ext) (·.kwC) (phaseDemand "C") (fun _ => rfl) (fun r l => (afterLoad_demand u r l).2.2.2) objs {} r hr
  simp only [zero_add] at h0 h1 h2 h3
  simp only [postProcess, convert, h0, h1, h2, h3]
  exact ⟨trivial, trivial, trivial, trivial⟩

/-- C37: the total demand is the active power of the phase loads in use, if no demand is estimated. Without this condition it is not
(`C37_estimate_violated`). -/
theorem C37_total_partial (u : Bool) (ext : MObj → Option PyErr) (objs : List MObj) (m : Metrics) (h : computeAll u ext objs = .ok m)
    (hE : ∀ l ∈ loadsOf objs, ¬ Estimated l) : m.raw.kw = activePower ((loadsOf objs).flatMap live) / 1000 := by
  rw [(C37_demand u ext objs m h).1]
  congr 1
  have : ∀ ls : List MLoad, (∀ l ∈ ls, ¬ Estimated l) → (ls.map demand).sum = activePower (ls.flatMap live) := by
    intro ls
    induction ls with
    | nil => intro _; rfl
    | cons l ls ih =>
      intro hl
      have h1 : demand l = activePower (live l) := by
        unfold demand
        cases l.kva <;> simp [hl l List.mem_cons_self]
      rw [List.map_cons, List.sum_cons, ih fun x hx => hl x (List.mem_cons_of_mem _ hx), h1]
      simp [activePower, List.filterMap_append]
  exact this _ hE

theorem count_phases (pls : List MPhaseLoad) (h : ∀ pl ∈ pls, pl.phase ∈ [some "A", some "B", some "C"]) :
    (onPhase "A" pls).length + (onPhase "B" pls).length + (onPhase "C" pls).length = pls.length ∧
    activePower (onPhase "A" pls) + activePower (onPhase "B" pls) + activePower (onPhase "C" pls) = activePower pls := by
  induction pls with
  | nil => simp [onPhase, activePower]
  | cons pl pls ih =>
    obtain ⟨h1, h2⟩ := ih fun x hx => h x (List.mem_cons_of_mem _ hx)
    have hp := h pl List.mem_cons_self
    simp only [activePower, onPhase] at h1 h2 ⊢
    simp only [List.mem_cons, List.not_mem_nil, or_false] at hp
    rcases hp with hp | hp | hp
    all_goals
      simp only [hp, List.filter_cons, Option.some.injEq, String.reduceEq, decide_true, decide_false, if_true, if_false, Bool.false_eq_true,
        List.length_cons]
      refine ⟨by omega, ?_⟩
      cases hpp : pl.p with
      | none => simp only [List.filterMap_cons, hpp]; exact h2
      | some x => simp only [List.filterMap_cons, hpp, List.sum_cons]; rw [← h2]; ring

/-- C37: the demands on the phases add up to the total demand, if the phase loads in use are on the phases A, B and C, and there is one
for each estimated load. Without the last condition they do not (`C37_dropped_violated`). -/
theorem C37_phases_partial (u : Bool) (ext : MObj → Option PyErr) (objs : List MObj) (m : Metrics) (h : computeAll u ext objs = .ok m)
    (hp : ∀ l ∈ loadsOf objs, ∀ pl ∈ live l, pl.phase ∈ [some "A", some "B", some "C"])
    (hE : ∀ l ∈ loadsOf objs, Estimated l → live l ≠ []) : m.raw.kwA + m.raw.kwB + m.raw.kwC = m.raw.kw := by
  obtain ⟨h0, h1, h2, h3⟩ := C37_demand u ext objs m h
  rw [h0, h1, h2, h3, ← add_div, ← add_div]
  congr 1
  clear h h0 h1 h2 h3
  generalize loadsOf objs = ls at hp hE
  induction ls with
  | nil => simp
  | cons l ls ih =>
    have ih' := ih (fun x hx => hp x (List.mem_cons_of_mem _ hx)) (fun x hx => hE x (List.mem_cons_of_mem _ hx))
    simp only [List.map_cons, List.sum_cons]
    obtain ⟨c1, c2⟩ := count_phases (live l) (hp l List.mem_cons_self)
    have key : phaseDemand "A" l + phaseDemand "B" l + phaseDemand "C" l = demand l := by
      unfold phaseDemand demand
      cases hk : l.kva with
      | none => exact c2
      | some k =>
        simp only []
        by_cases he : Estimated l
        · simp only [he, if_true]
          have hne : ((live l).length : ℚ) ≠ 0 := by
            have := hE l List.mem_cons_self he
            exact_mod_cast (List.length_pos_of_ne_nil this).ne'
          have c1' : ((onPhase "A" (live l)).length : ℚ) + (onPhase "B" (live l)).length + (onPhase "C" (live l)).length = (live l).length := by
            exact_mod_cast c1
          rw [← add_mul, ← add_mul, c1']
          field_simp
        · simp only [he, if_false]
          exact c2
    linarith

/-- C37: the reactive power is that of the phase loads in use. -/
theorem C37_reactive (u : Bool) (ext : MObj → Option PyErr) (objs : List MObj) (m : Metrics) (h : computeAll u ext objs = .ok m) :
    m.raw.kvar = ((loadsOf objs).map fun l => reactivePower (live l)).sum / 1000 := by
  obtain ⟨r, hr, rfl⟩ := computeAll_ok h
  have h0 := fold_loads (u := u) (ext := ext) (·.kvar) (fun l => reactivePower (live l)) (fun _ => rfl) (fun r l => afterLoad_kvar u r l) objs {} r hr
  simp only [zero_add] at h0
  simp only [postProcess, convert, h0]

/-- C37: the demand of low voltage on the phases, and its percentages -/
theorem C37_low (u : Bool) (ext : MObj → Option PyErr) (objs : List MObj) (m : Metrics) (h : computeAll u ext objs = .ok m) :
    let A := ((lowLoads objs).map fun l => activePower (onPhase "A" (live l))).sum
    let B := ((lowLoads objs).map fun l => activePower (onPhase "B" (live l))).sum
    let C := ((lowLoads objs).map fun l => activePower (onPhase "C" (live l))).sum
    m.raw.lvA = A / 1000 ∧ m.raw.lvB = B / 1000 ∧ m.raw.lvC = C / 1000 ∧
    (A + B + C ≠ 0 → m.lvPctA = 100 * A / (A + B + C) ∧ m.lvPctB = 100 * B / (A + B + C) ∧ m.lvPctC = 100 * C / (A + B + C)) ∧
    (A + B + C = 0 → m.lvPctA = 0 ∧ m.lvPctB = 0 ∧ m.lvPctC = 0) := by
  classical
  obtain ⟨r, hr, rfl⟩ := computeAll_ok h
  have h1 := fold_loads (u := u) (ext := ext) (·.lvA) (fun l => if Low l.voltage then activePower (onPhase "A" (live l)) else 0) (fun _ => rfl)
    (fun r l => (afterLoad_low u r l).1.trans (by congr)) objs {} r hr
  have h2 := fold_loads (u := u) (ext := ext) (·.lvB) (fun l => if Low l.voltage then activePower (onPhase "B" (live l)) else 0) (fun _ => rfl)
    (fun r l => (afterLoad_low u r l).2.1.trans (by congr)) objs {} r hr
  have h3 := fold_loads (u := u) (ext := ext) (·.lvC) (fun l => if Low l.voltage then activePower (onPhase "C" (live l)) else 0) (fun _ => rfl)
    (fun r l => (afterLoad_low u r l).2.2.trans (by congr)) objs {} r hr
  simp only [zero_add] at h1 h2 h3
  rw [sum_ite_filter] at h1 h2 h3
  intro A B C
  have hA : r.lvA = A := h1.trans (by unfold A lowLoads; congr)
  have hB : r.lvB = B := h2.trans (by unfold B lowLoads; congr)
  have hC : r.lvC = C := h3.trans (by unfold C lowLoads; congr)
  refine ⟨by simp [postProcess, convert, hA], by simp [postProcess, convert, hB], by simp [postProcess, convert, hC], fun h0 => ?_, fun h0 => ?_⟩
  · simp only [postProcess, hA, hB, hC, phasePct, ne_eq, h0, not_false_eq_true, if_true]
    refine ⟨?_, ?_, ?_⟩ <;> ring
  · simp only [postProcess, hA, hB, hC, phasePct, ne_eq, h0, not_true_eq_false, if_false]
    exact ⟨trivial, trivial, trivial⟩

/-- C37: the percentages sum up to 100 if the demand of low voltage is not 0. -/
theorem C37_percentages (u : Bool) (ext : MObj → Option PyErr) (objs : List MObj) (m : Metrics) (h : computeAll u ext objs = .ok m)
    (h0 : m.raw.lvA + m.raw.lvB + m.raw.lvC ≠ 0) : m.lvPctA + m.lvPctB + m.lvPctC = 100 := by
  obtain ⟨h1, h2, h3, h4, -⟩ := C37_low u ext objs m h
  have hne : ((lowLoads objs).map fun l => activePower (onPhase "A" (live l))).sum + ((lowLoads objs).map fun l => activePower (onPhase "B" (live l))).sum +
      ((lowLoads objs).map fun l => activePower (onPhase "C" (live l))).sum ≠ 0 := by
    intro hz
    apply h0
    rw [h1, h2, h3, ← add_div, ← add_div, hz, zero_div]
  obtain ⟨a, b, c⟩ := h4 hne
  rw [a, b, c, ← add_div, ← add_div, ← mul_add, ← mul_add, mul_div_assoc, div_self hne, mul_one]

/-- two loads of low voltage and one of medium voltage, with a phase load that is not in use -/
def exLoads : List MObj :=
  [.load { voltage := some 240, phaseLoads := some [⟨some "A", some 3000, some 1000, false⟩, ⟨some "B", some 1000, some 0, false⟩] },
   .load { voltage := some 240, phaseLoads := some [⟨some "C", some 4000, some 500, false⟩, ⟨some "A", some 9000, some 0, true⟩] },
   .load { voltage := some 7200, phaseLoads := some [⟨some "A", some 5000, some 0, false⟩, ⟨some "B", none, some 0, false⟩, ⟨some "C", some 6000, none, false⟩] }]

theorem exLoads_run : (computeAll false (fun _ => none) exLoads).map (fun m => [m.raw.kw, m.raw.kwA, m.raw.kwB, m.raw.kwC, m.raw.kvar,
    m.raw.lvA, m.lvPctA, m.lvPctB, m.lvPctC]) = .ok [19, 8, 1, 10, 3 / 2, 3, 75 / 2, 25 / 2, 50] := by decide +kernel

example : ∀ l ∈ loadsOf exLoads, ¬ Estimated l := by
  rintro l hl ⟨-, -, k, hk, -⟩
  simp only [exLoads, loadsOf, List.filterMap_cons, List.filterMap_nil, List.mem_cons, List.not_mem_nil, or_false] at hl
  rcases hl with rfl | rfl | rfl <;> cases hk

/-- C37: a load without any power is counted with the capacity of its transformer. -/
theorem C37_estimate_violated : ∃ (objs : List MObj) (m : Metrics), computeAll false (fun _ => none) objs = .ok m ∧
    m.raw.kw ≠ activePower ((loadsOf objs).flatMap live) / 1000 := by
  refine ⟨[.load { voltage := some 240, kva := some 25000, phaseLoads := some [⟨some "A", some 0, some 0, false⟩] }], ?_⟩
  have h : (computeAll false (fun _ => none) [.load { voltage := some 240, kva := some 25000, phaseLoads := some [⟨some "A", some 0, some 0, false⟩] }]).map
      (fun m => m.raw.kw) = .ok 25 := by decide +kernel
  cases hc : computeAll false (fun _ => none) [.load { voltage := some 240, kva := some 25000, phaseLoads := some [⟨some "A", some 0, some 0, false⟩] }] with
  | error e => rw [hc] at h; cases h
  | ok m =>
    rw [hc] at h
    refine ⟨m, rfl, ?_⟩
    have h' : m.raw.kw = 25 := by simpa [Except.map] using h
    rw [h']
    decide +kernel

/-- C37: a load none of whose phase loads is in use counts for the total demand, but not on any phase. -/
theorem C37_dropped_violated : ∃ (objs : List MObj), (∀ l ∈ loadsOf objs, ∀ pl ∈ live l, pl.phase ∈ [some "A", some "B", some "C"]) ∧
    (computeAll false (fun _ => none) objs).map (fun m => [m.raw.kw, m.raw.kwA, m.raw.kwB, m.raw.kwC]) = .ok [25, 0, 0, 0] :=
  ⟨[.load { voltage := some 240, kva := some 25000, phaseLoads := some [⟨some "A", some 4000, some 0, true⟩] }], by decide +kernel, by decide +kernel⟩

/-- C37: `total_demand` is the demand of `compute_all_metrics` if all phase loads are in use and no demand is estimated. -/
theorem C37_function_partial (u : Bool) (ext : MObj → Option PyErr) (objs : List MObj) (m : Metrics) (h : computeAll u ext objs = .ok m)
    (hE : ∀ l ∈ loadsOf objs, ¬ Estimated l) (hd : ∀ l ∈ loadsOf objs, ∀ pls, l.phaseLoads = some pls → ∀ pl ∈ pls, pl.dropped = false) :
    totalDemand objs = m.raw.kw ∧ totalReactive objs = m.raw.kvar := by
  rw [C37_total_partial u ext objs m h hE, C37_reactive u ext objs m h]
  unfold totalDemand totalReactive
  clear h hE
  have hl : ∀ l ∈ loadsOf objs, live l = l.phaseLoads.getD [] := by
    intro l hl
    unfold live
    cases hp : l.phaseLoads with
    | none => rfl
    | some pls =>
      simp only [Option.getD_some, List.filter_eq_self]
      intro pl hpl
      simp [hd l hl pls hp pl hpl]
  clear hd
  suffices H : (objs.map fun o => (o.phaseLoads.filterMap (·.p)).sum).sum = activePower ((loadsOf objs).flatMap live) ∧
      (objs.map fun o => (o.phaseLoads.filterMap (·.q)).sum).sum = ((loadsOf objs).map fun l => reactivePower (live l)).sum by
    rw [H.1, H.2]; exact ⟨rfl, rfl⟩
  induction objs with
  | nil => exact ⟨rfl, rfl⟩
  | cons o os ih =>
    rw [loadsOf_cons] at hl
    obtain ⟨i1, i2⟩ := ih fun l h => hl l (List.mem_append_right _ h)
    rw [List.map_cons, List.sum_cons, List.map_cons, List.sum_cons, i1, i2, loadsOf_cons]
    cases o with
    | load l =>
      have := hl l (by simp [loadsOf])
      simp [loadsOf, MObj.phaseLoads, this, activePower, reactivePower, List.filterMap_append]
    | _ => simp [loadsOf, MObj.phaseLoads]

example : (computeAll false (fun _ => none) exLoads).map (fun m => m.raw.kw) = .ok 19 ∧ totalDemand exLoads = 28 := by decide +kernel

/-- C37: `total_demand` also counts phase loads that are not in use. -/
theorem C37_function_violated : ∃ objs, (computeAll false (fun _ => none) objs).map (fun m => m.raw.kw) = .ok 19 ∧ totalDemand objs = 28 :=
  ⟨exLoads, by decide +kernel, by decide +kernel⟩

end Ditto.Metrics
