import Verif.Spec.PhaseLengths
import Verif.Props.FeederMetrics

/-! C132: lengths of lines and numbers of loads by phases. -/
namespace Ditto.Metrics
open Ditto

theorem wiresOn_iff {k : Nat} {l : MLine} : hasPhases (k : Int) l = true ↔ WiresOn k l := by
  unfold hasPhases WiresOn
  cases l.wires with
  | none => simp
  | some ws =>
    simp only [decide_eq_true_iff, Int.natCast_inj, Option.some.injEq, exists_eq_left', List.countP_eq_length_filter]
    constructor <;> (intro h; rw [← h]; congr 2; funext w; simp)

theorem sumLines_keep {inClass : ℚ → Bool} {keep : MLine → Bool} {C : Option ℚ → Prop} {K : MLine → Prop} {objs : List MObj}
    (hc : ∀ v, inClass v = true ↔ C (some v)) (hk : ∀ l, keep l = true ↔ K l)
    (hv : ∀ l ∈ linesOf objs, l.voltage ≠ none) (hl : ∀ l ∈ linesOf objs, l.length ≠ none) :
    sumLines inClass keep objs = .ok (totalLength (fun l => C l.voltage ∧ K l) objs) := by
  classical
  induction objs with
  | nil => rw [totalLength_nil]; rfl
  | cons o os ih =>
    rw [totalLength_cons]
    rw [linesOf_cons] at hv hl
    have ih' := ih (fun l h => hv l (List.mem_append_right _ h)) (fun l h => hl l (List.mem_append_right _ h))
    by_cases ho : ∀ l, o ≠ .line l
    · rw [totalLength_other _ _ ho, zero_add, ← ih']
      cases o <;> first | rfl | exact absurd rfl (ho _)
    · push Not at ho
      obtain ⟨l, rfl⟩ := ho
      have hmem : l ∈ linesOf [.line l] ++ linesOf os := by simp [linesOf]
      obtain ⟨v, hlv⟩ := Option.ne_none_iff_exists'.1 (hv l hmem)
      obtain ⟨x, hlx⟩ := Option.ne_none_iff_exists'.1 (hl l hmem)
      rw [totalLength_line]
      simp only [sumLines, hlv, hlx, ih']
      by_cases hC : C (some v) ∧ K l
      · rw [if_pos hC, if_pos (by rw [Bool.and_eq_true]; exact ⟨(hc v).2 hC.1, (hk l).2 hC.2⟩)]
        by_cases h0 : 0 ≤ x <;> simp [h0]
      · rw [if_neg hC, if_neg (by rw [Bool.and_eq_true]; exact fun h => hC ⟨(hc v).1 h.1, (hk l).1 h.2⟩), zero_add]

theorem lv_class (v : ℚ) : decide (v ≤ lvThreshold) = true ↔ UpTo1kV (some v) := by
  rw [decide_eq_true_iff]
  simp [UpTo1kV, lvThreshold]

theorem mv_class (v : ℚ) : decide (mvThreshold ≥ v ∧ v > lvThreshold) = true ↔ Above1kV (some v) := by
  simp [Above1kV, lvThreshold, mvThreshold, and_comm]

/-- C132: with voltages and lengths for all lines, the functions give the length in miles of the lines of low or medium voltage with one, two or three wires on
the phases. -/
theorem C132_lengths_partial (objs : List MObj) (hv : ∀ l ∈ linesOf objs, l.voltage ≠ none) (hl : ∀ l ∈ linesOf objs, l.length ≠ none)
    (k : Nat) (h1 : 1 ≤ k) (h3 : k ≤ 3) :
    lengthLvPhases k objs = .ok (miles (totalLength (fun l => UpTo1kV l.voltage ∧ WiresOn k l) objs)) ∧
      lengthMvPhases k objs = .ok (miles (totalLength (fun l => Above1kV l.voltage ∧ WiresOn k l) objs)) := by
  have hr : (1 : Int) ≤ k ∧ (k : Int) ≤ 3 := by omega
  unfold lengthLvPhases lengthMvPhases
  rw [if_pos hr, if_pos hr, sumLines_keep (C := UpTo1kV) (K := WiresOn k) lv_class (fun l => wiresOn_iff) hv hl,
    sumLines_keep (C := Above1kV) (K := WiresOn k) mv_class (fun l => wiresOn_iff) hv hl]
  exact ⟨rfl, rfl⟩

theorem split3 (C : Option ℚ → Prop) (objs : List MObj) (h : ∀ l ∈ linesOf objs, WiresOn 1 l ∨ WiresOn 2 l ∨ WiresOn 3 l) :
    totalLength (fun l => C l.voltage ∧ True) objs = totalLength (fun l => C l.voltage ∧ WiresOn 1 l) objs +
      (totalLength (fun l => C l.voltage ∧ WiresOn 2 l) objs + totalLength (fun l => C l.voltage ∧ WiresOn 3 l) objs) := by
  have hd : ∀ {j k : Nat} {l : MLine}, WiresOn j l → WiresOn k l → j = k := by
    rintro j k l ⟨ws, h1, h2⟩ ⟨ws', h1', h2'⟩
    rw [h1] at h1'
    cases h1'
    rw [← h2, ← h2']
  rw [← totalLength_add (P := fun l => C l.voltage ∧ (WiresOn 2 l ∨ WiresOn 3 l)) objs (fun l _ => and_or_left)
    (fun l hq hr => by have := hd hq.2 hr.2; omega)]
  refine totalLength_add objs (fun l hm => ?_) (fun l hq hr => ?_)
  · rw [← and_or_left]
    exact and_congr_right fun _ => ⟨fun _ => h l hm, fun _ => trivial⟩
  · rcases hr.2 with h' | h'
    · have := hd hq.2 h'; omega
    · have := hd hq.2 h'; omega

/-- C132: if every line has one, two or three wires on the phases, the three lengths sum up to the length of all lines of the class. -/
theorem C132_sum_partial (objs : List MObj) (hv : ∀ l ∈ linesOf objs, l.voltage ≠ none) (hl : ∀ l ∈ linesOf objs, l.length ≠ none)
    (h : ∀ l ∈ linesOf objs, WiresOn 1 l ∨ WiresOn 2 l ∨ WiresOn 3 l) :
    (∃ a b c, lengthLvPhases 1 objs = .ok a ∧ lengthLvPhases 2 objs = .ok b ∧ lengthLvPhases 3 objs = .ok c ∧ lvLengthMiles objs = .ok (a + b + c)) ∧
      ∃ a b c, lengthMvPhases 1 objs = .ok a ∧ lengthMvPhases 2 objs = .ok b ∧ lengthMvPhases 3 objs = .ok c ∧ mvLengthMiles objs = .ok (a + b + c) := by
  have e1 := C132_lengths_partial objs hv hl 1 (by omega) (by omega)
  have e2 := C132_lengths_partial objs hv hl 2 (by omega) (by omega)
  have e3 := C132_lengths_partial objs hv hl 3 (by omega) (by omega)
  have t1 := sumLines_keep (keep := fun _ => true) (C := UpTo1kV) (K := fun _ => True) (objs := objs) lv_class (fun _ => by simp) hv hl
  have t2 := sumLines_keep (keep := fun _ => true) (C := Above1kV) (K := fun _ => True) (objs := objs) mv_class (fun _ => by simp) hv hl
  refine ⟨⟨_, _, _, e1.1, e2.1, e3.1, ?_⟩, ⟨_, _, _, e1.2, e2.2, e3.2, ?_⟩⟩
  · unfold lvLengthMiles
    rw [t1, split3 UpTo1kV objs h]
    simp only [inMiles, miles, toMiles, Except.ok.injEq]
    ring
  · unfold mvLengthMiles
    rw [t2, split3 Above1kV objs h]
    simp only [inMiles, miles, toMiles, Except.ok.injEq]
    ring

/-- C132: other numbers of phases are rejected. -/
theorem C132_rejects (x : Int) (objs : List MObj) (h : x < 1 ∨ 3 < x) :
    lengthLvPhases x objs = .error .valueError ∧ lengthMvPhases x objs = .error .valueError ∧ loadsLvPhases x objs = .error .valueError := by
  unfold lengthLvPhases lengthMvPhases loadsLvPhases
  rw [if_neg (by omega), if_neg (by omega), if_neg (by simp; omega)]
  exact ⟨rfl, rfl, rfl⟩

theorem loadWith_iff {inClass : ℚ → Bool} {C : Option ℚ → Prop} (hc : ∀ v, inClass v = true ↔ C (some v)) (hn : ¬ C none) {k : Nat} {o : MObj} :
    loadWith inClass k o = true ↔ LoadOn C k o := by
  unfold LoadOn
  cases o with
  | load l =>
    unfold loadWith
    dsimp only
    constructor
    · intro h
      split at h
      · rename_i v pls hv hp
        rw [Bool.and_eq_true, decide_eq_true_iff] at h
        exact ⟨l, rfl, hv ▸ (hc v).1 h.1, pls, hp, by exact_mod_cast h.2⟩
      · cases h
    · rintro ⟨l', hl', hC, pls, hp, hk⟩
      cases hl'
      cases hv : l.voltage with
      | none => exact absurd (hv ▸ hC) hn
      | some v =>
        rw [hp]
        dsimp only
        rw [Bool.and_eq_true, decide_eq_true_iff]
        exact ⟨(hc v).2 (hv ▸ hC), by exact_mod_cast hk⟩
  | _ => simp [loadWith]

open Classical in
/-- C132: the numbers of loads are those of the loads with so many phase loads in the class of voltages. -/
theorem C132_loads (objs : List MObj) :
    loadsLvPhases 1 objs = .ok (objs.countP fun o => LoadOn UpTo1kV 1 o) ∧ loadsLvPhases 3 objs = .ok (objs.countP fun o => LoadOn UpTo1kV 3 o) ∧
      loadsMvThree objs = objs.countP fun o => LoadOn Above1kV 3 o := by
  have key : ∀ (inClass : ℚ → Bool) (C : Option ℚ → Prop) (k : Nat), (∀ v, inClass v = true ↔ C (some v)) → ¬ C none →
      (objs.filter (loadWith inClass k)).length = objs.countP fun o => decide (LoadOn C k o) := by
    intro inClass C k hc hn
    rw [List.countP_eq_length_filter]
    congr 1
    refine List.filter_congr fun o _ => ?_
    rw [Bool.eq_iff_iff, loadWith_iff hc hn, decide_eq_true_iff]
  have hn1 : ¬ UpTo1kV none := fun ⟨_, h, _⟩ => by cases h
  have hn2 : ¬ Above1kV none := fun ⟨_, h, _⟩ => by cases h
  refine ⟨?_, ?_, key _ _ 3 mv_class hn2⟩
  · have := key _ _ 1 lv_class hn1
    unfold loadsLvPhases
    rw [if_pos (by simp)]
    exact congrArg Except.ok this
  · have := key _ _ 3 lv_class hn1
    unfold loadsLvPhases
    rw [if_pos (by simp)]
    exact congrArg Except.ok this

/-- C132 is violated: one line without voltage, wherever it is, and there is an exception instead of a length. -/
theorem C132_voltage_violated (objs : List MObj) (l : MLine) (hl : l ∈ linesOf objs) (h : l.voltage = none) (x : Int) (m : ℚ) :
    lengthLvPhases x objs ≠ .ok m ∧ lengthMvPhases x objs ≠ .ok m := by
  have key : ∀ (inClass : ℚ → Bool) (keep : MLine → Bool), ∃ e, sumLines inClass keep objs = .error e := by
    intro inClass keep
    induction objs with
    | nil => simp [linesOf] at hl
    | cons o os ih =>
      rw [linesOf_cons] at hl
      have ih' : l ∈ linesOf os → ∃ e, sumLines inClass keep os = .error e := ih
      cases o with
      | line l' =>
        unfold sumLines
        split
        · exact ⟨_, rfl⟩
        · rename_i v hv
          have hm : l ∈ linesOf os := by
            rcases List.mem_append.1 hl with h' | h'
            · simp only [linesOf, List.filterMap_cons, List.filterMap_nil, List.mem_singleton] at h'
              rw [h', hv] at h
              cases h
            · exact h'
          obtain ⟨e, he⟩ := ih' hm
          rw [he]
          split
          · split
            · exact ⟨_, rfl⟩
            · exact ⟨_, rfl⟩
          · exact ⟨_, rfl⟩
      | _ => exact ih' (by simpa [linesOf] using hl)
  constructor
  · unfold lengthLvPhases
    split
    · obtain ⟨e, he⟩ := key (fun v => v ≤ lvThreshold) (hasPhases x)
      rw [he]; exact fun h => by cases h
    · exact fun h => by cases h
  · unfold lengthMvPhases
    split
    · obtain ⟨e, he⟩ := key (fun v => mvThreshold ≥ v ∧ v > lvThreshold) (hasPhases x)
      rw [he]; exact fun h => by cases h
    · exact fun h => by cases h

/-- lines with one, two and three phases and a neutral, and loads -/
def exPhaseObjs : List MObj := [
  .line { voltage := some 240, length := some 1000, wires := some [⟨some "A", false, none⟩, ⟨some "N", false, none⟩] },
  .line { voltage := some 1000, length := some 2000, wires := some [⟨some "A", false, none⟩, ⟨some "B", false, none⟩] },
  .line { voltage := some 69000, length := some 3000, wires := some [⟨some "A", false, none⟩, ⟨some "B", false, none⟩, ⟨some "C", false, none⟩] },
  .load { voltage := some 240, phaseLoads := some [⟨some "A", some 1, some 1, false⟩] },
  .load { voltage := some 240, phaseLoads := some [⟨some "A", some 1, some 1, false⟩, ⟨some "B", some 1, some 1, false⟩] }, .capacitor]

/-- C132 is violated: loads with two phases are counted by none of the functions, and two wires on the same phase make a line with two phases. -/
theorem C132_two_violated : loadsLvPhases 2 exPhaseObjs = .error .valueError ∧ (loadsLvPhases 1 exPhaseObjs).toOption = some 1 ∧
    (loadsLvPhases 3 exPhaseObjs).toOption = some 0 ∧
    (lengthLvPhases 2 [.line { voltage := some 240, length := some 1000, wires := some [⟨some "A", false, none⟩, ⟨some "A", false, none⟩] }]).toOption =
      some (1000 * (621371 / 10 ^ 9)) := by decide +kernel

example : (lengthLvPhases 1 exPhaseObjs).toOption = some (1000 * (621371 / 10 ^ 9)) ∧ (lengthLvPhases 2 exPhaseObjs).toOption = some (2000 * (621371 / 10 ^ 9)) ∧
    (lengthLvPhases 3 exPhaseObjs).toOption = some 0 ∧ (lengthMvPhases 3 exPhaseObjs).toOption = some (3000 * (621371 / 10 ^ 9)) ∧
    (lvLengthMiles exPhaseObjs).toOption = some (3000 * (621371 / 10 ^ 9)) ∧ loadsMvThree exPhaseObjs = 0 := by decide +kernel

/-- the hypotheses of the theorems for these objects -/
example : (∀ l ∈ linesOf exPhaseObjs, l.voltage ≠ none) ∧ (∀ l ∈ linesOf exPhaseObjs, l.length ≠ none) ∧
    ∀ l ∈ linesOf exPhaseObjs, WiresOn 1 l ∨ WiresOn 2 l ∨ WiresOn 3 l := by
  refine ⟨by decide +kernel, by decide +kernel, ?_⟩
  intro l hl
  simp only [linesOf, exPhaseObjs, List.filterMap_cons, List.filterMap_nil, List.mem_cons, List.not_mem_nil, or_false] at hl
  rcases hl with rfl | rfl | rfl
  · exact .inl ⟨_, rfl, by decide +kernel⟩
  · exact .inr (.inl ⟨_, rfl, by decide +kernel⟩)
  · exact .inr (.inr ⟨_, rfl, by decide +kernel⟩)

end Ditto.Metrics
