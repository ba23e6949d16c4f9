import Verif.Props.LoadMetrics
import Verif.Lemmas.CountMetrics

/-! C46 and C47: percentages of overhead lines and numbers of objects in `compute_all_metrics`. -/
namespace Ditto.Metrics
open Ditto

/-- C46: the percentages are between 0 and 100, and are those of the overhead lines among the lines of medium (low) voltage if there is no
length of low (medium) voltage. In general they are not (`C46_overhead_violated`): the denominator is the length for both. -/
theorem C46_overhead_partial (u : Bool) (ext : MObj → Option PyErr) (objs : List MObj) (m : Metrics) (h : computeAll u ext objs = .ok m)
    (hp : ∀ x ∈ linesOf objs, HasPhases 1 x ∨ HasPhases 2 x ∨ HasPhases 3 x) :
    (∀ x, m.mvOhPct = some x → 0 ≤ x ∧ x ≤ 100) ∧ (∀ x, m.lvOhPct = some x → 0 ≤ x ∧ x ≤ 100) ∧
    (m.mvOhPct = none ↔ m.raw.lv.total + m.raw.mv.total = 0) ∧ (m.lvOhPct = none ↔ m.raw.lv.total + m.raw.mv.total = 0) ∧
    (m.raw.lv.total = 0 → m.raw.mv.total ≠ 0 →
      m.mvOhPct = some (100 * miles (totalLength (fun l => Medium l.voltage ∧ Overhead l) objs) / m.raw.mv.total)) ∧
    (m.raw.mv.total = 0 → m.raw.lv.total ≠ 0 →
      m.lvOhPct = some (100 * miles (totalLength (fun l => Low l.voltage ∧ Overhead l) objs) / m.raw.lv.total)) := by
  obtain ⟨hl, hm⟩ := C36_lengths u ext objs m h
  have pl := C36_partition _ _ _ hl fun x hx _ => hp x hx
  have pm := C36_partition _ _ _ hm fun x hx _ => hp x hx
  obtain ⟨l1, l2, l3, l4, l5, l6⟩ := C36_overhead _ _ _ hl
  obtain ⟨m1, m2, m3, m4, m5, m6⟩ := C36_overhead _ _ _ hm
  have oh : ∀ C : MLine → Prop, miles (totalLength (fun x => C x ∧ HasPhases 1 x ∧ Overhead x) objs) +
      miles (totalLength (fun x => C x ∧ HasPhases 2 x ∧ Overhead x) objs) + miles (totalLength (fun x => C x ∧ HasPhases 3 x ∧ Overhead x) objs) =
      miles (totalLength (fun x => C x ∧ Overhead x) objs) := by
    intro C
    rw [totalLength_add (P := fun x => C x ∧ Overhead x) (Q := fun x => C x ∧ HasPhases 1 x ∧ Overhead x)
        (R := fun x => C x ∧ (HasPhases 2 x ∨ HasPhases 3 x) ∧ Overhead x) objs (fun x hx => by have := hp x hx; tauto)
        (fun x h1 h2 => by
          rcases h2.2.1 with h2 | h2
          · exact absurd (hasPhases_unique h1.2.1 h2) (by decide)
          · exact absurd (hasPhases_unique h1.2.1 h2) (by decide)),
      totalLength_add (P := fun x => C x ∧ (HasPhases 2 x ∨ HasPhases 3 x) ∧ Overhead x) (Q := fun x => C x ∧ HasPhases 2 x ∧ Overhead x)
        (R := fun x => C x ∧ HasPhases 3 x ∧ Overhead x) objs (fun x hx => by tauto)
        (fun x h1 h2 => absurd (hasPhases_unique h1.2.1 h2.2.1) (by decide))]
    unfold miles
    ring
  have em : m.mvOhPct = (ratio (m.raw.mv.oh1 + m.raw.mv.oh2 + m.raw.mv.oh3) (m.raw.lv.total + m.raw.mv.total)).map (· * 100) := by
    obtain ⟨r, -, rfl⟩ := computeAll_ok h; rfl
  have el : m.lvOhPct = (ratio (m.raw.lv.oh1 + m.raw.lv.oh2 + m.raw.lv.oh3) (m.raw.lv.total + m.raw.mv.total)).map (· * 100) := by
    obtain ⟨r, -, rfl⟩ := computeAll_ok h; rfl
  have bound : ∀ a b : ℚ, 0 ≤ a → a ≤ b → ∀ x, (ratio a b).map (· * 100) = some x → 0 ≤ x ∧ x ≤ 100 := by
    intro a b h0 h1 x hx
    unfold ratio at hx
    by_cases hb : b = 0
    · simp [hb] at hx
    · simp only [hb, if_false, Option.map_some, Option.some.injEq] at hx
      subst hx
      have hb0 : 0 < b := lt_of_le_of_ne (le_trans h0 h1) (Ne.symm hb)
      have h2 : 0 ≤ a / b := div_nonneg h0 hb0.le
      have h3 : a / b ≤ 1 := (div_le_one hb0).2 h1
      constructor <;> linarith
  have none_iff : ∀ a b : ℚ, (ratio a b).map (· * 100) = none ↔ b = 0 := by
    intro a b
    unfold ratio
    by_cases hb : b = 0 <;> simp [hb]
  refine ⟨fun x hx => ?_, fun x hx => ?_, ?_, ?_, fun h0 h1 => ?_, fun h0 h1 => ?_⟩
  · rw [em] at hx
    exact bound _ _ (by linarith) (by linarith) x hx
  · rw [el] at hx
    exact bound _ _ (by linarith) (by linarith) x hx
  · rw [em, none_iff]
  · rw [el, none_iff]
  · rw [em, h0, zero_add, ← oh, ← hm.oh1, ← hm.oh2, ← hm.oh3]
    simp only [ratio, h1, if_false, Option.map_some, Option.some.injEq]
    ring
  · rw [el, h0, add_zero, ← oh, ← hl.oh1, ← hl.oh2, ← hl.oh3]
    simp only [ratio, h1, if_false, Option.map_some, Option.some.injEq]
    ring

/-- one line of medium and one of low voltage, both overhead and of the same length -/
def exOverhead : List MObj :=
  [.line { voltage := some 7200, length := some 100, lineType := some "overhead", wires := some [⟨some "A", false, none⟩] },
   .line { voltage := some 240, length := some 100, lineType := some "overhead", wires := some [⟨some "A", false, none⟩] }]

/-- C46: all lines are overhead, and the percentages of overhead lines are 50. -/
theorem C46_overhead_violated : (∀ l ∈ linesOf exOverhead, Overhead l) ∧
    (computeAll false (fun _ => none) exOverhead).map (fun m => (m.mvOhPct, m.lvOhPct)) = .ok (some 50, some 50) := by
  refine ⟨?_, by decide +kernel⟩
  unfold Overhead
  decide +kernel

example : ∀ x ∈ linesOf exOverhead, HasPhases 1 x ∨ HasPhases 2 x ∨ HasPhases 3 x := by
  intro x hx
  simp only [exOverhead, linesOf, List.filterMap_cons, List.filterMap_nil, List.mem_cons, List.not_mem_nil, or_false] at hx
  left
  rcases hx with rfl | rfl <;> exact ⟨_, rfl, by decide⟩

/-- C47: the numbers of protective devices and of kinds of wires -/
theorem C47_lines (u : Bool) (ext : MObj → Option PyErr) (objs : List MObj) (m : Metrics) (h : computeAll u ext objs = .ok m) :
    m.raw.fuses = nLines (·.isFuse) objs ∧ m.raw.switches = nLines (·.isSwitch) objs ∧ m.raw.reclosers = nLines (·.isRecloser) objs ∧
    m.raw.breakers = nLines (·.isBreaker) objs ∧ m.raw.sectionalizers = nLines (·.isSectionalizer) objs ∧
    Counts m.raw.wireNames (fun k => ((allWires objs).filter fun w => w.nameclass = k).length) := by
  obtain ⟨r, hr, rfl⟩ := computeAll_ok h
  have h1 := fold_lines (u := u) (ext := ext) (·.fuses) (·.isFuse) (fun _ => rfl) (fun _ _ _ => rfl) objs {} r hr
  have h2 := fold_lines (u := u) (ext := ext) (·.switches) (·.isSwitch) (fun _ => rfl) (fun _ _ _ => rfl) objs {} r hr
  have h3 := fold_lines (u := u) (ext := ext) (·.reclosers) (·.isRecloser) (fun _ => rfl) (fun _ _ _ => rfl) objs {} r hr
  have h4 := fold_lines (u := u) (ext := ext) (·.breakers) (·.isBreaker) (fun _ => rfl) (fun _ _ _ => rfl) objs {} r hr
  have h5 := fold_lines (u := u) (ext := ext) (·.sectionalizers) (·.isSectionalizer) (fun _ => rfl) (fun _ _ _ => rfl) objs {} r hr
  simp only [zero_add] at h1 h2 h3 h4 h5
  refine ⟨h1, h2, h3, h4, h5, ?_⟩
  refine fold_inv (u := u) (ext := ext) (fun pre r => Counts r.wireNames fun k => ((allWires pre).filter fun w => w.nameclass = k).length)
    (fun pre r o r' hI h1 => ?_) objs [] {} r counts_nil hr
  by_cases ho : ∀ l, o ≠ .line l
  · have e1 : r'.wireNames = r.wireNames := congrArg (·.wireNames) (analyze_linePart h1 ho)
    rw [e1]
    unfold allWires at hI ⊢
    rw [linesOf_append, linesOf_other ho, List.append_nil]
    exact hI
  · push Not at ho
    obtain ⟨l, rfl⟩ := ho
    obtain ⟨ws, hw, lv, mv, rfl, -⟩ := analyzeLine_ok h1
    refine counts_foldl (ws.map (·.nameclass)) hI _ fun k => ?_
    have e1 : linesOf [.line l] = [l] := rfl
    unfold allWires
    rw [linesOf_append, e1, List.flatMap_append, List.filter_append, List.length_append]
    congr 1
    rw [List.flatMap_cons, List.flatMap_nil, List.append_nil, hw]
    exact count_names ws k

/-- C47: the numbers of regulators, capacitors and transformers; a transformer counts by its first winding. -/
theorem C47_devices (u : Bool) (ext : MObj → Option PyErr) (objs : List MObj) (m : Metrics) (h : computeAll u ext objs = .ok m) :
    m.raw.regulators = nRegulators objs ∧ m.raw.capacitors = nCapacitors objs ∧ m.raw.transformers = (primaries objs).length ∧
    m.raw.trafo1 = ((primaries objs).filter fun w => w.phases = some 1).length ∧
    m.raw.trafo3 = ((primaries objs).filter fun w => w.phases = some 3).length := by
  obtain ⟨r, hr, rfl⟩ := computeAll_ok h
  have h1 := fold_add (u := u) (ext := ext) (·.regulators) nRegulators rfl
    (fun o os => by unfold nRegulators; rw [← List.length_append, ← List.filter_append]; rfl) (fun r o r' h => (analyze_devices h).1) objs {} r hr
  have h2 := fold_add (u := u) (ext := ext) (·.capacitors) nCapacitors rfl
    (fun o os => by unfold nCapacitors; rw [← List.length_append, ← List.filter_append]; rfl) (fun r o r' h => (analyze_devices h).2.1) objs {} r hr
  have h3 := fold_add (u := u) (ext := ext) (·.transformers) (fun os => (primaries os).length) rfl
    (fun o os => by rw [primaries_cons, List.length_append]) (fun r o r' h => (analyze_devices h).2.2.1) objs {} r hr
  have h4 := fold_add (u := u) (ext := ext) (·.trafo1) (fun os => ((primaries os).filter fun w => w.phases = some 1).length) rfl
    (fun o os => by rw [primaries_cons, List.filter_append, List.length_append]) (fun r o r' h => (analyze_devices h).2.2.2.1) objs {} r hr
  have h5 := fold_add (u := u) (ext := ext) (·.trafo3) (fun os => ((primaries os).filter fun w => w.phases = some 3).length) rfl
    (fun o os => by rw [primaries_cons, List.filter_append, List.length_append]) (fun r o r' h => (analyze_devices h).2.2.2.2) objs {} r hr
  simp only [zero_add] at h1 h2 h3 h4 h5
  exact ⟨h1, h2, h3, h4, h5⟩

/-- C47: the numbers of loads by voltage and phases, and of customers -/
theorem C47_loads (u : Bool) (ext : MObj → Option PyErr) (objs : List MObj) (m : Metrics) (h : computeAll u ext objs = .ok m) :
    m.raw.lv1Loads = nLoads (fun l => Low l.voltage ∧ (live l).length = 1) objs ∧
    m.raw.lv3Loads = nLoads (fun l => Low l.voltage ∧ (live l).length = 3) objs ∧
    m.raw.mv3Loads = nLoads (fun l => Medium l.voltage ∧ (live l).length = 3) objs ∧
    m.raw.customers = ((loadsOf objs).filterMap (·.users)).sum := by
  classical
  obtain ⟨r, hr, rfl⟩ := computeAll_ok h
  have h1 := fold_loads (u := u) (ext := ext) (·.lv1Loads) (fun l => if Low l.voltage ∧ (live l).length = 1 then 1 else 0) (fun _ => rfl)
    (fun r l => (afterLoad_counts u r l).1.trans (by congr)) objs {} r hr
  have h2 := fold_loads (u := u) (ext := ext) (·.lv3Loads) (fun l => if Low l.voltage ∧ (live l).length = 3 then 1 else 0) (fun _ => rfl)
    (fun r l => (afterLoad_counts u r l).2.1.trans (by congr)) objs {} r hr
  have h3 := fold_loads (u := u) (ext := ext) (·.mv3Loads) (fun l => if Medium l.voltage ∧ (live l).length = 3 then 1 else 0) (fun _ => rfl)
    (fun r l => (afterLoad_counts u r l).2.2.trans (by congr)) objs {} r hr
  have h4 := fold_loads (u := u) (ext := ext) (·.customers) (fun l => l.users.elim 0 id) (fun _ => rfl)
    (fun r l => (afterLoad_trafo u r l).1) objs {} r hr
  simp only [zero_add] at h1 h2 h3 h4
  refine ⟨h1.trans (nLoads_eq _ _), h2.trans (nLoads_eq _ _), h3.trans (nLoads_eq _ _), h4.trans ?_⟩
  generalize loadsOf objs = ls
  induction ls with
  | nil => rfl
  | cons l ls ih =>
    rw [List.map_cons, List.sum_cons, ih]
    cases hu : l.users <;> simp [hu]

/-- C47: the numbers of loads of the transformers; that of customers is the same (`C47_customers_violated`). -/
theorem C47_transformers_partial (u : Bool) (ext : MObj → Option PyErr) (objs : List MObj) (m : Metrics) (h : computeAll u ext objs = .ok m) :
    Counts m.raw.loadsPer (fun k => if k = none then 0 else nLoads (fun l => l.upstream = k) objs) ∧ m.raw.custPer = m.raw.loadsPer := by
  classical
  obtain ⟨r, hr, rfl⟩ := computeAll_ok h
  refine fold_inv (u := u) (ext := ext) (fun pre r =>
    Counts r.loadsPer (fun k => if k = none then 0 else nLoads (fun l => l.upstream = k) pre) ∧ r.custPer = r.loadsPer)
    (fun pre r o r' hI h1 => ?_) objs [] {} r ⟨?_, rfl⟩ hr
  · have hap : loadsOf (pre ++ [o]) = loadsOf pre ++ loadsOf [o] := List.filterMap_append
    by_cases ho : ∀ l, o ≠ .load l
    · have e1 : r'.loadsPer = r.loadsPer := congrArg (·.loadsPer) (analyze_loadPart h1 ho)
      have e2 : r'.custPer = r.custPer := congrArg (·.custPer) (analyze_loadPart h1 ho)
      have e3 : loadsOf [o] = [] := by cases o <;> first | rfl | exact absurd rfl (ho _)
      rw [e1, e2]
      unfold nLoads at hI ⊢
      rw [hap, e3, List.append_nil]
      exact hI
    · push Not at ho
      obtain ⟨l, rfl⟩ := ho
      have e3 : loadsOf [.load l] = [l] := rfl
      rw [analyzeLoad_ok h1]
      obtain ⟨-, e1, e2⟩ := afterLoad_trafo u r l
      rw [e1, e2]
      obtain ⟨i1, i2⟩ := hI
      rw [i2]
      refine ⟨?_, rfl⟩
      unfold nLoads at i1 ⊢
      rw [hap, e3]
      cases hup : l.upstream with
      | none =>
        have : (fun k : Option String => if k = none then 0 else ((loadsOf pre ++ [l]).filter fun l => decide (l.upstream = k)).length) =
            fun k => if k = none then 0 else ((loadsOf pre).filter fun l => decide (l.upstream = k)).length := by
          funext k
          cases k with
          | none => rfl
          | some x => simp [hup]
        simp only [Option.isSome_none, Bool.false_eq_true, if_false]
        convert i1 using 1
        funext k
        cases k with
        | none => rfl
        | some x => simp [hup]
      | some t =>
        simp only [Option.isSome_some, if_true]
        convert counts_bump i1 (some t) using 1
        funext k
        cases k with
        | none => simp
        | some x =>
          by_cases hx : x = t
          · simp [hup, hx]
          · have : ¬ t = x := fun h => hx h.symm
            simp [hup, hx, this]
  · have : (fun k : Option String => if k = none then 0 else nLoads (fun l => l.upstream = k) []) = fun _ => 0 := by
      funext k
      simp [nLoads, loadsOf]
    rw [this]
    exact counts_nil

/-- C47: the capacity of the transformers between different voltages in MVA, from their first windings or from the loads -/
theorem C47_capacity (u : Bool) (ext : MObj → Option PyErr) (objs : List MObj) (m : Metrics) (h : computeAll u ext objs = .ok m) :
    (u = true → m.raw.mva = ((primaries objs).filterMap (·.power)).sum / 10 ^ 6) ∧
    (u = false → m.raw.mva = ((loadsOf objs).filterMap (·.kva)).sum / 10 ^ 6) := by
  obtain ⟨r, hr, rfl⟩ := computeAll_ok h
  have h1 := fold_add (u := u) (ext := ext) (·.mva)
    (fun os => if u then ((primaries os).filterMap (·.power)).sum / 10 ^ 6 else ((loadsOf os).filterMap (·.kva)).sum / 10 ^ 6)
    (by cases u <;> simp [primaries, loadsOf])
    (fun o os => by
      rw [primaries_cons, loadsOf_cons, List.filterMap_append, List.filterMap_append, List.sum_append, List.sum_append]
      cases u <;> simp [add_div])
    (fun r o r' h => analyze_mva h) objs {} r hr
  simp only [zero_add] at h1
  constructor
  · rintro rfl; exact h1
  · rintro rfl; exact h1

/-- C47: the average number of loads of a transformer, times the number of transformers with loads, is the number of loads with a
transformer. -/
theorem C47_average (u : Bool) (ext : MObj → Option PyErr) (objs : List MObj) (m : Metrics) (h : computeAll u ext objs = .ok m) :
    m.avgLoads * m.raw.loadsPer.length = nLoads (fun l => l.upstream ≠ none) objs := by
  classical
  obtain ⟨r, hr, rfl⟩ := computeAll_ok h
  obtain ⟨-, hs⟩ := fold_inv (u := u) (ext := ext) (fun pre r => (∃ f, Counts r.loadsPer f) ∧
      (r.loadsPer.map (·.2)).sum = nLoads (fun l => l.upstream ≠ none) pre)
    (fun pre r o r' hI h1 => by
      have hap : loadsOf (pre ++ [o]) = loadsOf pre ++ loadsOf [o] := List.filterMap_append
      by_cases ho : ∀ l, o ≠ .load l
      · have e1 : r'.loadsPer = r.loadsPer := congrArg (·.loadsPer) (analyze_loadPart h1 ho)
        have e3 : loadsOf [o] = [] := by cases o <;> first | rfl | exact absurd rfl (ho _)
        rw [e1]
        unfold nLoads at hI ⊢
        rw [hap, e3, List.append_nil]
        exact hI
      · push Not at ho
        obtain ⟨l, rfl⟩ := ho
        have e3 : loadsOf [.load l] = [l] := rfl
        rw [analyzeLoad_ok h1, (afterLoad_trafo u r l).2.1]
        obtain ⟨⟨f, hf⟩, i2⟩ := hI
        unfold nLoads at i2 ⊢
        rw [hap, e3, List.filter_append, List.length_append]
        cases hup : l.upstream with
        | none =>
          refine ⟨⟨f, by simpa using hf⟩, ?_⟩
          simp only [Option.isSome_none, Bool.false_eq_true, if_false]
          rw [i2]
          simp [hup]
        | some t =>
          refine ⟨⟨_, counts_bump hf (some t)⟩, ?_⟩
          simp only [Option.isSome_some, if_true]
          rw [bump_sum hf, i2]
          simp [hup]) objs [] {} r ⟨⟨_, counts_nil⟩, by simp [nLoads, loadsOf]⟩ hr
  rw [List.nil_append] at hs
  have hs' : (((r.loadsPer.map (·.2)).sum : Nat) : ℚ) = nLoads (fun l => l.upstream ≠ none) objs := by rw [hs]
  rw [← hs']
  show meanCount r.loadsPer * r.loadsPer.length = _
  unfold meanCount
  by_cases h0 : r.loadsPer.length = 0
  · have : r.loadsPer = [] := List.length_eq_zero_iff.1 h0
    simp [this]
  · have : (r.loadsPer.length : ℚ) ≠ 0 := by exact_mod_cast h0
    rw [if_neg h0, div_mul_cancel₀ _ this]

/-- two loads with three and with two customers behind the same transformer -/
def exCustomers : List MObj :=
  [.load { voltage := some 240, users := some 3, upstream := some "t", phaseLoads := none },
   .load { voltage := some 240, users := some 2, upstream := some "t", phaseLoads := none },
   .regulator, .transformer (some [⟨some 7200, some 25000, some 1⟩, ⟨some 240, some 25000, some 1⟩])]

/-- C47: there are five customers behind the transformer, and two are reported. -/
theorem C47_customers_violated : ((loadsOf exCustomers).filterMap (·.users)).sum = 5 ∧ (∀ l ∈ loadsOf exCustomers, l.upstream = some "t") ∧
    (computeAll false (fun _ => none) exCustomers).map (fun m => (m.raw.custPer, m.raw.customers, m.raw.regulators, m.raw.trafo1)) =
      .ok ([(some "t", 2)], 5, 1, 1) := by decide +kernel

end Ditto.Metrics
