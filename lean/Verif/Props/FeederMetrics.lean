import Verif.Props.CountMetrics
import Verif.Lemmas.FeederMetrics

/-! C48 and C49: `compute_all_metrics_per_feeder`, and the functions for single metrics. -/
namespace Ditto.Metrics
open Ditto

/-- C48: a feeder without an entry in the substations raises `KeyError`. -/
theorem C48_rejects (u : Bool) (ext : String → MObj → Option PyErr) (subs : String → Option (Option String)) (feeders : List String)
    (objs : List (Option String × MObj)) (f : String) (hf : f ∈ feeders) (hs : subs f = none) :
    computePerFeeder u ext subs feeders objs = .error .keyError := by
  unfold computePerFeeder
  rw [mvFeeders_spec, if_pos ⟨f, hf, hs⟩]

/-- C48: the metrics are computed for the feeders with a substation, in their order; those of a feeder are the metrics of the model that
consists of the objects of the feeder. The names of the feeders are different: without this, the lengths and demands are wrong
(`C48_duplicate_violated`). -/
theorem C48_feeders_partial (u : Bool) (ext : String → MObj → Option PyErr) (subs : String → Option (Option String)) (feeders : List String)
    (objs : List (Option String × MObj)) (hn : feeders.Nodup) (res : List (String × Metrics))
    (h : computePerFeeder u ext subs feeders objs = .ok res) :
    res.map (·.1) = withSubstation subs feeders ∧ ∀ f m, (f, m) ∈ res → computeAll u (ext f) (objsIn f objs) = .ok m := by
  unfold computePerFeeder at h
  rw [mvFeeders_spec] at h
  by_cases hs : ∃ k ∈ feeders, subs k = none
  · rw [if_pos hs] at h; cases h
  rw [if_neg hs] at h
  have hn1 : (withSubstation subs feeders).Nodup := hn.filter _
  simp only [keysOf_nodup hn1] at h
  cases hr : objs.foldlM (analyzeIn u ext) ((withSubstation subs feeders).map fun f => (f, ({} : Results))) with
  | error e => rw [hr] at h; cases h
  | ok r0 =>
    rw [hr] at h
    simp only [Except.ok.injEq] at h
    subst h
    have hm : ((withSubstation subs feeders).map fun f => (f, ({} : Results))).map (·.1) = withSubstation subs feeders := by
      rw [List.map_map]
      exact List.map_id _
    have hF := feeder_fold u ext objs _ _ (by rw [hm]; exact hn1) hr
    rw [List.forall₂_map_left_iff] at hF
    have h1 : ∀ (l : List String) (r0 : List (String × Results)), List.Forall₂ (fun c d => d.1 = c ∧
        analyzeAll u (ext c) {} (objsIn c objs) = .ok d.2) l r0 →
        r0.map (·.1) = l ∧ ∀ e ∈ r0, e.1 ∈ l ∧ analyzeAll u (ext e.1) {} (objsIn e.1 objs) = .ok e.2 := by
      intro l r0 h
      induction h with
      | nil => exact ⟨rfl, fun e he => by cases he⟩
      | cons hd tl ih =>
        obtain ⟨i1, i2⟩ := ih
        refine ⟨by rw [List.map_cons, i1, hd.1], fun e he => ?_⟩
        rcases List.mem_cons.1 he with rfl | he
        · rw [hd.1]
          exact ⟨List.mem_cons_self, hd.2⟩
        · exact ⟨List.mem_cons_of_mem _ (i2 e he).1, (i2 e he).2⟩
    obtain ⟨k1, k2⟩ := h1 _ _ hF
    refine ⟨by rw [List.map_map]; exact k1, fun f m hm => ?_⟩
    obtain ⟨e, he, hfm⟩ := List.mem_map.1 hm
    simp only [Prod.mk.injEq] at hfm
    obtain ⟨rfl, rfl⟩ := hfm
    obtain ⟨k3, k4⟩ := k2 e he
    unfold computeAll
    rw [k4, List.count_eq_one_of_mem hn1 k3]
    rfl

/-- C48: the computation succeeds if every feeder has an entry in the substations and the objects of the feeders can be analyzed. -/
theorem C48_succeeds (u : Bool) (ext : String → MObj → Option PyErr) (subs : String → Option (Option String)) (feeders : List String)
    (objs : List (Option String × MObj)) (hs : ∀ f ∈ feeders, subs f ≠ none)
    (ho : ∀ o ∈ objs, ∀ f, o.1 = some f → f ∈ feeders → ext f o.2 = none ∧ Analyzable o.2) (hn : feeders.Nodup) :
    ∃ res, computePerFeeder u ext subs feeders objs = .ok res := by
  unfold computePerFeeder
  rw [mvFeeders_spec, if_neg (by rintro ⟨k, hk, h⟩; exact hs k hk h)]
  have hn1 : (withSubstation subs feeders).Nodup := hn.filter _
  simp only [keysOf_nodup hn1]
  obtain ⟨r0, hr⟩ := feeder_ok u ext objs ((withSubstation subs feeders).map fun f => (f, ({} : Results))) (fun o hob f hf hm => by
    rw [List.map_map] at hm
    obtain ⟨x, hx, rfl⟩ := List.mem_map.1 hm
    exact ho o hob _ hf (List.mem_filter.1 hx).1)
  rw [hr]
  exact ⟨_, rfl⟩

/-- C48: lengths, demand and customers of the feeders add up to those of the objects in feeders. -/
theorem C48_sum (u : Bool) (ext : String → MObj → Option PyErr) (subs : String → Option (Option String)) (feeders : List String)
    (objs : List (Option String × MObj)) (hn : feeders.Nodup) (res : List (String × Metrics))
    (h : computePerFeeder u ext subs feeders objs = .ok res) (ext' : MObj → Option PyErr) (m : Metrics)
    (hm : computeAll u ext' (objsInAny (withSubstation subs feeders) objs) = .ok m) :
    (res.map fun e => e.2.raw.lv.total).sum = m.raw.lv.total ∧ (res.map fun e => e.2.raw.mv.total).sum = m.raw.mv.total ∧
    (res.map fun e => e.2.raw.kw).sum = m.raw.kw ∧ (res.map fun e => e.2.raw.kvar).sum = m.raw.kvar ∧
    (res.map fun e => e.2.raw.customers).sum = m.raw.customers := by
  obtain ⟨h1, h2⟩ := C48_feeders_partial u ext subs feeders objs hn res h
  have hn1 : (withSubstation subs feeders).Nodup := hn.filter _
  have key : ∀ (F : Metrics → ℚ) (S : List MObj → ℚ), S [] = 0 → (∀ o os, S (o :: os) = S [o] + S os) →
      (∀ ext os m, computeAll u ext os = .ok m → F m = S os) → (res.map fun e => F e.2).sum = F m := by
    intro F S h0 hs hF
    rw [hF _ _ _ hm, ← sum_feeders S h0 hs _ hn1, ← h1, List.map_map]
    congr 1
    apply List.map_congr_left
    rintro ⟨f, m'⟩ he
    exact hF _ _ _ (h2 f m' he)
  refine ⟨key (·.raw.lv.total) (fun os => miles (totalLength (fun l => Low l.voltage) os)) (by simp [totalLength_nil, miles])
      (fun o os => by rw [totalLength_cons]; unfold miles; ring) (fun ext os m h => (C36_lengths u ext os m h).1.total),
    key (·.raw.mv.total) (fun os => miles (totalLength (fun l => Medium l.voltage) os)) (by simp [totalLength_nil, miles])
      (fun o os => by rw [totalLength_cons]; unfold miles; ring) (fun ext os m h => (C36_lengths u ext os m h).2.total),
    key (·.raw.kw) (fun os => ((loadsOf os).map demand).sum / 1000) (by simp [loadsOf])
      (fun o os => by rw [loadsOf_cons, List.map_append, List.sum_append, add_div]) (fun ext os m h => (C37_demand u ext os m h).1),
    key (·.raw.kvar) (fun os => ((loadsOf os).map fun l => reactivePower (live l)).sum / 1000) (by simp [loadsOf])
      (fun o os => by rw [loadsOf_cons, List.map_append, List.sum_append, add_div]) (fun ext os m h => C37_reactive u ext os m h),
    key (·.raw.customers) (fun os => ((loadsOf os).filterMap (·.users)).sum) (by simp [loadsOf])
      (fun o os => by rw [loadsOf_cons, List.filterMap_append, List.sum_append]) (fun ext os m h => (C47_loads u ext os m h).2.2.2)⟩

/-- two feeders with substations and one without; objects of both, and one that is in no feeder -/
def exFeederObjs : List (Option String × MObj) :=
  (exLines.map fun o => (some "f", o)) ++ (exLoads.map fun o => (some "g", o)) ++ [(none, .regulator), (some "h", .capacitor), (some "g", .regulator)]

def exSubs (f : String) : Option (Option String) := if f = "h" then some none else if f = "f" ∨ f = "g" then some (some "sub") else none

theorem exFeeder_run : (computePerFeeder false (fun _ _ => none) exSubs ["f", "g", "h"] exFeederObjs).map (fun l =>
    l.map fun e => (e.1, e.2.raw.mv.ph1, e.2.raw.kw, e.2.raw.regulators)) = .ok [("f", 621371 / 10 ^ 6, 0, 0), ("g", 0, 19, 1)] := by decide +kernel

/-- C48: the demand of a feeder whose name is given twice is divided by 1000 twice. -/
theorem C48_duplicate_violated : (computePerFeeder false (fun _ _ => none) exSubs ["g", "g"] exFeederObjs).map (fun l =>
      l.map fun e => (e.1, e.2.raw.kw)) = .ok [("g", 19 / 1000)] ∧
    (computeAll false (fun _ => none) (objsIn "g" exFeederObjs)).map (fun m => m.raw.kw) = .ok 19 := by decide +kernel

/-! ### Single metrics -/

theorem sumLines_eq {inClass : ℚ → Bool} {C : Option ℚ → Prop} {objs : List MObj}
    (hv : ∀ l ∈ linesOf objs, ∃ v, l.voltage = some v ∧ (inClass v = true ↔ C (some v)))
    (hl : ∀ l ∈ linesOf objs, C l.voltage → l.length ≠ none) :
    sumLines inClass (fun _ => true) objs = .ok (totalLength (fun l => C l.voltage) objs) := by
  classical
  induction objs with
  | nil => rw [totalLength_nil]; rfl
  | cons o os ih =>
    rw [totalLength_cons]
    rw [linesOf_cons] at hv hl
    have ih' := ih (fun l h => hv l (List.mem_append_right _ h)) (fun l h => hl l (List.mem_append_right _ h))
    by_cases ho : ∀ l, o ≠ .line l
    · rw [totalLength_other _ _ ho, zero_add, ← ih']
      cases o <;> first | rfl | exact absurd rfl (ho _)
    · push Not at ho
      obtain ⟨l, rfl⟩ := ho
      have hmem : l ∈ linesOf [.line l] ++ linesOf os := by simp [linesOf]
      obtain ⟨v, hlv, hc⟩ := hv l hmem
      have hlen := hl l hmem
      rw [totalLength_line]
      simp only [sumLines, hlv, Bool.and_true]
      rw [hlv] at hlen
      by_cases hC : C (some v)
      · rw [if_pos (hc.2 hC), if_pos hC]
        cases hx : l.length with
        | none => exact absurd hx (hlen hC)
        | some x =>
          simp only [ih']
          by_cases h0 : 0 ≤ x <;> simp [h0]
      · have : inClass v = false := by
          cases h : inClass v
          · rfl
          · exact absurd (hc.1 h) hC
        rw [this, if_neg hC]
        simpa using ih'

/-- C49: `lv_length_miles` and `mv_length_miles` are the lengths of `compute_all_metrics`, if all voltages are known and comparing the
nominal voltage itself with the limits gives the same classes as comparing that between phases. In general they are not
(`C49_lengths_violated`). -/
theorem C49_lengths_partial (u : Bool) (ext : MObj → Option PyErr) (objs : List MObj) (m : Metrics) (h : computeAll u ext objs = .ok m)
    (hv : ∀ l ∈ linesOf objs, ∃ v, l.voltage = some v ∧ (v ≤ 1000 ↔ Low (some v)) ∧ (1000 < v ∧ v ≤ 69000 ↔ Medium (some v)))
    (hl : ∀ l ∈ linesOf objs, l.length ≠ none) :
    lvLengthMiles objs = .ok m.raw.lv.total ∧ mvLengthMiles objs = .ok m.raw.mv.total := by
  obtain ⟨h1, h2⟩ := C36_lengths u ext objs m h
  have e1 := sumLines_eq (inClass := fun v => v ≤ lvThreshold) (C := Low) (objs := objs) (fun l hm => by
    obtain ⟨v, a, b, -⟩ := hv l hm
    exact ⟨v, a, decide_eq_true_iff.trans b⟩) (fun l hm _ => hl l hm)
  have e2 := sumLines_eq (inClass := fun v => mvThreshold ≥ v ∧ v > lvThreshold) (C := Medium) (objs := objs) (fun l hm => by
    obtain ⟨v, a, -, b⟩ := hv l hm
    refine ⟨v, a, ?_⟩
    rw [← b]
    exact decide_eq_true_iff.trans and_comm) (fun l hm _ => hl l hm)
  unfold lvLengthMiles mvLengthMiles
  rw [e1, e2, h1.total, h2.total]
  exact ⟨rfl, rfl⟩

/-- a line of 900 V and one of 66 kV between phase and neutral -/
def exThresholds : List MObj :=
  [.line { voltage := some 900, length := some 1000, wires := some [⟨some "A", false, none⟩] },
   .line { voltage := some 66000, length := some 2000, wires := some [⟨some "A", false, none⟩] }]

/-- C49: the lengths of the functions and those of `compute_all_metrics` are different. -/
theorem C49_lengths_violated : lvLengthMiles exThresholds = .ok (621371 / 10 ^ 6) ∧ mvLengthMiles exThresholds = .ok (2 * 621371 / 10 ^ 6) ∧
    (computeAll false (fun _ => none) exThresholds).map (fun m => (m.raw.lv.total, m.raw.mv.total)) = .ok (0, 621371 / 10 ^ 6) := by
  decide +kernel

/-- C49: a line whose voltage is not known raises `TypeError` in the functions, and is left out by `compute_all_metrics`. -/
theorem C49_unknown_violated : lvLengthMiles [.line { voltage := none, length := some 1, wires := some [] }] = .error .typeError ∧
    (computeAll false (fun _ => none) [.line { voltage := none, length := some 1, wires := some [] }]).map (fun m => m.raw.lv.total) = .ok 0 := by
  decide +kernel

/-- C49: the functions for numbers of objects agree with `compute_all_metrics`. -/
theorem C49_counts (u : Bool) (ext : MObj → Option PyErr) (objs : List MObj) (m : Metrics) (h : computeAll u ext objs = .ok m) :
    numberOfRegulators objs = m.raw.regulators ∧ numberOfFuses objs = m.raw.fuses ∧ numberOfReclosers objs = m.raw.reclosers ∧
    numberOfSwitches objs = m.raw.switches ∧ numberOfCapacitors objs = m.raw.capacitors := by
  obtain ⟨h1, h2, h3, -⟩ := C47_lines u ext objs m h
  obtain ⟨h4, h5, -⟩ := C47_devices u ext objs m h
  rw [h1, h2, h3, h4, h5]
  clear h h1 h2 h3 h4 h5
  induction objs with
  | nil => exact ⟨rfl, rfl, rfl, rfl, rfl⟩
  | cons o os ih =>
    obtain ⟨i1, i2, i3, i4, i5⟩ := ih
    unfold numberOfRegulators numberOfFuses numberOfReclosers numberOfSwitches numberOfCapacitors nRegulators nCapacitors nLines at *
    simp only [List.map_cons, List.sum_cons, i1, i2, i3, i4, i5]
    rw [linesOf_cons]
    simp only [List.filter_append, List.length_append]
    cases o with
    | line l =>
      have e1 : linesOf [.line l] = [l] := rfl
      rw [e1]
      refine ⟨by simp, ?_, ?_, ?_, by simp⟩
      · cases hb : l.isFuse <;> simp [hb]
      · cases hb : l.isRecloser <;> simp [hb]
      · cases hb : l.isSwitch <;> simp [hb]
    | load l => simp [linesOf]
    | regulator => simp [linesOf]; omega
    | capacitor => simp [linesOf]; omega
    | transformer ws => simp [linesOf]
    | other => simp [linesOf]

/-- C49: the three percentages of `percentage_load_LV_kW_phX` add up to 100, and there is none for another phase. -/
theorem C49_percentages (objs : List MObj) (a b c : ℚ) (hA : percentageLV "A" objs = .ok a) (hB : percentageLV "B" objs = .ok b)
    (hC : percentageLV "C" objs = .ok c) : a + b + c = 100 ∧ ∀ X, X ≠ "A" → X ≠ "B" → X ≠ "C" → percentageLV X objs = .error .valueError := by
  refine ⟨?_, fun X h1 h2 h3 => by unfold percentageLV; rw [if_neg (by simp [h1, h2, h3])]⟩
  unfold percentageLV at hA hB hC
  rw [if_pos (by simp)] at hA hB hC
  simp only at hA hB hC
  split at hA
  · cases hA
  · rename_i h0
    rw [if_neg h0] at hB hC
    simp only [Except.ok.injEq] at hA hB hC
    rw [← hA, ← hB, ← hC]
    field_simp

example : percentageLV "A" exLoads = .ok (1200 / 17) ∧ percentageLV "B" exLoads = .ok (100 / 17) ∧ percentageLV "C" exLoads = .ok (400 / 17) := by
  decide +kernel

/-- C49: `percentage_load_LV_kW_phX` counts phase loads that are not in use, `compute_all_metrics` does not. -/
theorem C49_dropped_violated : percentageLV "A" exLoads = .ok (1200 / 17) ∧
    (computeAll false (fun _ => none) exLoads).map (fun m => m.lvPctA) = .ok (75 / 2) := by decide +kernel

/-- C49: without any demand of low voltage, `percentage_load_LV_kW_phX` raises `ZeroDivisionError` where `compute_all_metrics` has 0. -/
theorem C49_percentage_violated : percentageLV "A" exLines = .error .zeroDivisionError ∧
    (computeAll false (fun _ => none) exLines).map (fun m => m.lvPctA) = .ok 0 := by decide +kernel

/-! ### Ratios -/

/-- C47: the ratios, where the denominator is not 0 -/
theorem C47_ratios (u : Bool) (ext : MObj → Option PyErr) (objs : List MObj) (m : Metrics) (h : computeAll u ext objs = .ok m) :
    (∀ x, m.mvPerCust = some x ↔ m.raw.customers ≠ 0 ∧ x = m.raw.mv.total / m.raw.customers) ∧
    (∀ x, m.lvPerCust = some x ↔ m.raw.customers ≠ 0 ∧ x = m.raw.lv.total / m.raw.customers) ∧
    (∀ x, m.ratio1to3 = some x ↔ m.raw.trafo3 ≠ 0 ∧ x = (m.raw.trafo1 : ℚ) / m.raw.trafo3) ∧
    (∀ x, m.sectPerRecl = some x ↔ m.raw.reclosers ≠ 0 ∧ x = (m.raw.sectionalizers : ℚ) / m.raw.reclosers) := by
  obtain ⟨r, -, rfl⟩ := computeAll_ok h
  have key : ∀ a b x : ℚ, ratio a b = some x ↔ b ≠ 0 ∧ x = a / b := by
    intro a b x
    unfold ratio
    split
    · rename_i h; simp [h]
    · rename_i h; simp [h, eq_comm]
  refine ⟨fun x => key _ _ x, fun x => key _ _ x, fun x => ?_, fun x => ?_⟩
  · simp only [postProcess, key, convert, ne_eq, Nat.cast_eq_zero]
  · simp only [postProcess, key, convert, ne_eq, Nat.cast_eq_zero]

/-- C37: the imbalance of the phases is the sum of the distances of the phases from a third of the demand, over the demand. For a demand of
the phases that is not negative and adds up, it is between 0 and 4/3, and it is 0 only for equal phases. -/
theorem C37_imbalance (u : Bool) (ext : MObj → Option PyErr) (objs : List MObj) (m : Metrics) (h : computeAll u ext objs = .ok m)
    (h0 : m.raw.kw ≠ 0) : ∃ x, m.imbalance = some x ∧
    x = (|m.raw.kwA - m.raw.kw / 3| + |m.raw.kwB - m.raw.kw / 3| + |m.raw.kwC - m.raw.kw / 3|) / m.raw.kw ∧
    (0 ≤ m.raw.kwA → 0 ≤ m.raw.kwB → 0 ≤ m.raw.kwC → m.raw.kwA + m.raw.kwB + m.raw.kwC = m.raw.kw →
      0 ≤ x ∧ x ≤ 4 / 3 ∧ (x = 0 ↔ m.raw.kwA = m.raw.kwB ∧ m.raw.kwB = m.raw.kwC)) := by
  obtain ⟨r, -, rfl⟩ := computeAll_ok h
  refine ⟨(|(postProcess r).raw.kwA - (postProcess r).raw.kw / 3| + |(postProcess r).raw.kwB - (postProcess r).raw.kw / 3| +
    |(postProcess r).raw.kwC - (postProcess r).raw.kw / 3|) / (postProcess r).raw.kw, ?_, rfl, ?_⟩
  · show ratio _ _ = _
    unfold ratio
    exact if_neg h0
  · generalize (postProcess r).raw.kwA = a
    generalize (postProcess r).raw.kwB = b
    generalize (postProcess r).raw.kwC = c
    generalize (postProcess r).raw.kw = t at h0
    intro ha hb hc hs
    have ht : 0 < t := lt_of_le_of_ne (by linarith) (Ne.symm h0)
    refine ⟨by positivity, ?_, ?_⟩
    · rw [div_le_iff₀ ht]
      rcases abs_cases (a - t / 3) with ⟨e1, _⟩ | ⟨e1, _⟩ <;> rcases abs_cases (b - t / 3) with ⟨e2, _⟩ | ⟨e2, _⟩ <;>
        rcases abs_cases (c - t / 3) with ⟨e3, _⟩ | ⟨e3, _⟩ <;> rw [e1, e2, e3] <;> linarith
    · rw [div_eq_zero_iff]
      constructor
      · rintro (h | h)
        · have h1 := abs_nonneg (a - t / 3)
          have h2 := abs_nonneg (b - t / 3)
          have h3 := abs_nonneg (c - t / 3)
          have e1 : a - t / 3 = 0 := abs_eq_zero.1 (by linarith)
          have e2 : b - t / 3 = 0 := abs_eq_zero.1 (by linarith)
          have e3 : c - t / 3 = 0 := abs_eq_zero.1 (by linarith)
          exact ⟨by linarith, by linarith⟩
        · exact absurd h h0
      · rintro ⟨h1, h2⟩
        left
        have e1 : a - t / 3 = 0 := by linarith
        have e2 : b - t / 3 = 0 := by linarith
        have e3 : c - t / 3 = 0 := by linarith
        rw [e1, e2, e3]; simp

/-- C37: the demands of the loads, whose distribution is reported, add up to the total. -/
theorem C37_distribution (u : Bool) (ext : MObj → Option PyErr) (objs : List MObj) (m : Metrics) (h : computeAll u ext objs = .ok m) :
    m.raw.loadDistribution.sum / 1000 = m.raw.kw := by
  obtain ⟨r, hr, rfl⟩ := computeAll_ok h
  have h1 := fold_loads (u := u) (ext := ext) (fun r => r.loadDistribution.sum) demand (fun _ => rfl) (fun r l => by
    have h1 := (afterLoad_demand u r l).1
    have hv : (loadVoltage (loadCounts u r l) l (live l)).kw = r.kw ∧ (loadVoltage (loadCounts u r l) l (live l)).loadDistribution = r.loadDistribution := by
      unfold loadVoltage
      cases voltClass l.voltage <;> exact ⟨rfl, rfl⟩
    have h2 : (afterLoad u r l).loadDistribution.sum - (afterLoad u r l).kw = r.loadDistribution.sum - r.kw := by
      unfold afterLoad
      cases l.phaseLoads with
      | none => rfl
      | some all =>
        simp only [loadDemand]
        split
        · cases kvaOf l with
          | none => simp only [hv.1, hv.2]
          | some k => simp only [hv.1, hv.2, List.sum_append, List.sum_singleton]; ring
        · simp only [hv.1, hv.2, List.sum_append, List.sum_singleton]; ring
    show (afterLoad u r l).loadDistribution.sum = _
    linarith) objs {} r hr
  rw [(C37_demand u ext objs _ h).1]
  simp only [List.sum_nil, zero_add] at h1
  simp only [postProcess, convert, h1]

end Ditto.Metrics
