import Verif.Spec.Metrics
import Mathlib.NumberTheory.Real.Irrational
import Mathlib.Tactic.Ring
import Mathlib.Tactic.Linarith
import Mathlib.Tactic.Positivity
import Mathlib.Tactic.FieldSimp

namespace Ditto.Metrics
open Ditto

theorem sqrt3Le_iff (v t : ℚ) (ht : 0 ≤ t) : sqrt3Le v t = true ↔ (v : ℝ) * √3 ≤ t := by
  have h3 : (√3 : ℝ) ^ 2 = 3 := Real.sq_sqrt (by norm_num)
  have h0 : (0 : ℝ) < √3 := Real.sqrt_pos.2 (by norm_num)
  have ht' : (0 : ℝ) ≤ t := by exact_mod_cast ht
  simp only [sqrt3Le, Bool.or_eq_true, decide_eq_true_eq]
  constructor
  · rintro (h | h)
    · have : (v : ℝ) ≤ 0 := by exact_mod_cast h
      nlinarith
    · have h' : 3 * (v : ℝ) ^ 2 ≤ (t : ℝ) ^ 2 := by exact_mod_cast h
      exact abs_le_of_sq_le_sq' (by rw [mul_pow, h3]; linarith) ht' |>.2
  · intro h
    by_cases hv : v ≤ 0
    · exact .inl hv
    · right
      have hv' : (0 : ℝ) < v := by exact_mod_cast not_le.1 hv
      have : ((v : ℝ) * √3) ^ 2 ≤ (t : ℝ) ^ 2 := pow_le_pow_left₀ (by positivity) h 2
      rw [mul_pow, h3] at this
      have h' : 3 * (v : ℝ) ^ 2 ≤ (t : ℝ) ^ 2 := by linarith
      exact_mod_cast h'

/-- `√3` times a rational number is no positive rational number -/
theorem sqrt3_ne (v t : ℚ) (ht : 0 < t) : (v : ℝ) * √3 ≠ t := by
  intro h
  have hirr : Irrational (√3 : ℝ) := by
    have := Nat.Prime.irrational_sqrt Nat.prime_three
    exact_mod_cast this
  have hv : (v : ℝ) ≠ 0 := by
    rintro h0
    rw [h0, zero_mul] at h
    have : t = 0 := by exact_mod_cast h.symm
    exact ht.ne' this
  apply hirr
  refine ⟨t / v, ?_⟩
  push_cast
  field_simp
  linarith

theorem voltClass_low (v : Option ℚ) : voltClass v = .low ↔ Low v := by
  cases v with
  | none => simp [voltClass, Low]
  | some x =>
    have := sqrt3Le_iff x lvThreshold (by norm_num [lvThreshold])
    rw [show ((lvThreshold : ℚ) : ℝ) = 1000 by norm_num [lvThreshold]] at this
    simp only [voltClass, Low, Option.some.injEq, exists_eq_left', ← this]
    cases sqrt3Le x lvThreshold <;> cases sqrt3Le x mvThreshold <;> simp

theorem voltClass_medium (v : Option ℚ) : voltClass v = .medium ↔ Medium v := by
  cases v with
  | none => simp [voltClass, Medium]
  | some x =>
    have h1 := sqrt3Le_iff x lvThreshold (by norm_num [lvThreshold])
    have h2 := sqrt3Le_iff x mvThreshold (by norm_num [mvThreshold])
    have h3 := sqrt3_ne x mvThreshold (by norm_num [mvThreshold])
    rw [show ((lvThreshold : ℚ) : ℝ) = 1000 by norm_num [lvThreshold]] at h1
    rw [show ((mvThreshold : ℚ) : ℝ) = 69000 by norm_num [mvThreshold]] at h2 h3
    simp only [voltClass, Medium, Option.some.injEq, exists_eq_left', ← not_le, ← h1]
    have h4 : ¬ (69000 : ℝ) ≤ x * √3 ↔ sqrt3Le x mvThreshold = true := by
      rw [h2, not_le]
      exact ⟨le_of_lt, fun h => lt_of_le_of_ne h h3⟩
    rw [h4]
    cases sqrt3Le x lvThreshold <;> cases sqrt3Le x mvThreshold <;> simp

theorem voltClass_none (v : Option ℚ) : voltClass v = .none ↔ ¬ Low v ∧ ¬ Medium v := by
  rw [← voltClass_low, ← voltClass_medium]
  cases voltClass v <;> simp

/-- a result to which each object contributes separately -/
theorem fold_add {α : Type} [AddCommMonoid α] {u : Bool} {ext : MObj → Option PyErr} (F : Results → α) (S : List MObj → α) (h0 : S [] = 0)
    (hs : ∀ o os, S (o :: os) = S [o] + S os) (h : ∀ r o r', analyze u ext r o = .ok r' → F r' = F r + S [o]) :
    ∀ (objs : List MObj) (r r' : Results), analyzeAll u ext r objs = .ok r' → F r' = F r + S objs := by
  intro objs
  induction objs with
  | nil => intro r r' hr; cases hr; rw [h0, add_zero]
  | cons o os ih =>
    intro r r' hr
    unfold analyzeAll at hr
    rw [List.foldlM_cons] at hr
    cases h1 : analyze u ext r o with
    | error e => rw [h1] at hr; cases hr
    | ok r1 =>
      rw [h1] at hr
      rw [ih r1 r' hr, h r o r1 h1, hs o os, add_assoc]

/-! ### Lines -/

theorem totalLength_nil (P : MLine → Prop) : totalLength P [] = 0 := by simp [totalLength, linesOf]

theorem totalLength_cons (P : MLine → Prop) (o : MObj) (os : List MObj) :
    totalLength P (o :: os) = totalLength P [o] + totalLength P os := by
  unfold totalLength
  have : linesOf (o :: os) = linesOf [o] ++ linesOf os := by simp only [linesOf, ← List.filterMap_append, List.cons_append, List.nil_append]
  rw [this, List.filter_append, List.filterMap_append, List.filter_append, List.sum_append]

open Classical in
theorem totalLength_line (P : MLine → Prop) (l : MLine) :
    totalLength P [.line l] = if P l then (match l.length with
      | none => 0
      | some x => if 0 ≤ x then x else 0) else 0 := by
  unfold totalLength linesOf
  by_cases hP : P l
  · cases hl : l.length with
    | none => simp [hP, hl]
    | some x => by_cases hx : 0 ≤ x <;> simp [hP, hl, hx]
  · simp [hP]

theorem totalLength_other (P : MLine → Prop) (o : MObj) (h : ∀ l, o ≠ .line l) : totalLength P [o] = 0 := by
  unfold totalLength linesOf
  cases o with
  | line l => exact absurd rfl (h l)
  | _ => simp

theorem wirePhases_length (ws : List MWire) :
    (wirePhases ws).length = (ws.filter fun w => w.dropped = false ∧ w.phase ∈ [some "A", some "B", some "C"]).length := by
  unfold wirePhases
  induction ws with
  | nil => rfl
  | cons w ws ih =>
    obtain ⟨ph, d, nc⟩ := w
    cases d with
    | true => simpa using ih
    | false =>
      cases ph with
      | none => simpa using ih
      | some x =>
        by_cases hx : x = "A" ∨ x = "B" ∨ x = "C"
        · simp [hx]
          simpa using ih
        · simp [hx]
          simpa using ih

theorem hasPhases_iff {l : MLine} {ws : List MWire} (h : l.wires = some ws) (k : Nat) : HasPhases k l ↔ (wirePhases ws).length = k := by
  rw [wirePhases_length]
  simp [HasPhases, h]

/-- the lengths are only changed by lines -/
theorem analyze_lens {u : Bool} {ext : MObj → Option PyErr} {r : Results} {o : MObj} {r' : Results} (h : analyze u ext r o = .ok r')
    (ho : ∀ l, o ≠ .line l) : r'.lv = r.lv ∧ r'.mv = r.mv := by
  cases o with
  | line l => exact absurd rfl (ho l)
  | load l =>
    simp only [analyze, analyzeLoad] at h
    have key : ∀ pls, (loadDemand (loadVoltage (loadCounts u r l) l pls) l pls).lv = r.lv ∧
        (loadDemand (loadVoltage (loadCounts u r l) l pls) l pls).mv = r.mv := by
      intro pls
      unfold loadDemand loadVoltage
      constructor
      all_goals
        cases voltClass l.voltage <;> cases kvaOf l <;> simp only [] <;> split_ifs <;> rfl
    cases he : ext (.load l) with
    | some e => rw [he] at h; cases h
    | none =>
      rw [he] at h
      cases hp : l.phaseLoads with
      | none => rw [hp] at h; cases h; exact ⟨rfl, rfl⟩
      | some all =>
        rw [hp] at h
        simp only [] at h
        cases hf : powerFactor all with
        | error e => rw [hf] at h; cases h
        | ok x => rw [hf] at h; cases h; exact key _
  | regulator => cases h; exact ⟨rfl, rfl⟩
  | capacitor => cases h; exact ⟨rfl, rfl⟩
  | other => cases h; exact ⟨rfl, rfl⟩
  | transformer ws =>
    simp only [analyze] at h
    cases he : ext (.transformer ws) with
    | some e => rw [he] at h; cases h
    | none =>
      rw [he] at h
      cases ws with
      | none => cases h; exact ⟨rfl, rfl⟩
      | some ws =>
        simp only [] at h
        unfold analyzeWindings at h
        split at h
        · cases h; exact ⟨rfl, rfl⟩
        · split at h
          · cases h; exact ⟨rfl, rfl⟩
          · split at h
            · cases h
            · split at h
              · cases h; exact ⟨rfl, rfl⟩
              · split at h <;> (cases h; exact ⟨rfl, rfl⟩)

theorem analyzeLine_ok {r r' : Results} {l : MLine} (h : analyzeLine r l = .ok r') :
    ∃ ws, l.wires = some ws ∧ ∃ lv mv, r' = { countLine r l ws with lv := lv, mv := mv } ∧
      (Low l.voltage → addLength r.lv l ws = .ok lv ∧ mv = r.mv) ∧ (Medium l.voltage → lv = r.lv ∧ addLength r.mv l ws = .ok mv) ∧
      (¬ Low l.voltage → ¬ Medium l.voltage → lv = r.lv ∧ mv = r.mv) := by
  unfold analyzeLine at h
  cases hw : l.wires with
  | none => rw [hw] at h; cases h
  | some ws =>
    rw [hw] at h
    refine ⟨ws, rfl, ?_⟩
    rw [← voltClass_low, ← voltClass_medium]
    simp only [] at h
    cases hv : voltClass l.voltage with
    | low =>
      rw [hv] at h
      simp only [] at h
      cases ha : addLength (countLine r l ws).lv l ws with
      | error e => rw [ha] at h; cases h
      | ok lens =>
        rw [ha] at h
        cases h
        exact ⟨lens, r.mv, rfl, by simp; exact ha, by simp, by simp⟩
    | medium =>
      rw [hv] at h
      simp only [] at h
      cases ha : addLength (countLine r l ws).mv l ws with
      | error e => rw [ha] at h; cases h
      | ok lens =>
        rw [ha] at h
        cases h
        exact ⟨r.lv, lens, rfl, by simp, by simp; exact ha, by simp⟩
    | none =>
      rw [hv] at h
      cases h
      exact ⟨r.lv, r.mv, rfl, by simp, by simp, by simp⟩

theorem low_not_medium {v : Option ℚ} (h : Low v) : ¬ Medium v := by
  rintro ⟨y, rfl, h1, -⟩
  obtain ⟨x, hx, h⟩ := h
  cases hx
  linarith

/-- the lines of a class for which `q` holds of the number of phases and of being overhead -/
def Sel (C : Option ℚ → Prop) (q : Nat → Prop → Prop) (l : MLine) : Prop :=
  C l.voltage ∧ ∃ ws, l.wires = some ws ∧ q (wirePhases ws).length (Overhead l)

open Classical in
theorem lens_step {u : Bool} {ext : MObj → Option PyErr} {r r' : Results} {o : MObj} (h : analyze u ext r o = .ok r')
    (sel : Lens → ℚ) (q : Nat → Prop → Prop) (hq : ∀ (L : Lens) k (oh : Bool) len, sel (L.add k oh len) = sel L + if q k (oh = true) then len else 0) :
    sel r'.lv = sel r.lv + totalLength (Sel Low q) [o] ∧ sel r'.mv = sel r.mv + totalLength (Sel Medium q) [o] := by
  by_cases ho : ∀ l, o ≠ .line l
  · obtain ⟨h1, h2⟩ := analyze_lens h ho
    rw [totalLength_other _ _ ho, totalLength_other _ _ ho, h1, h2, add_zero, add_zero]
    exact ⟨rfl, rfl⟩
  push Not at ho
  obtain ⟨l, rfl⟩ := ho
  obtain ⟨ws, hw, lv, mv, rfl, h1, h2, h3⟩ := analyzeLine_ok h
  rw [totalLength_line, totalLength_line]
  have hS : ∀ C : Option ℚ → Prop, Sel C q l ↔ C l.voltage ∧ q (wirePhases ws).length (Overhead l) := fun C => by simp [Sel, hw]
  have hadd : ∀ L L' : Lens, addLength L l ws = .ok L' → sel L' = sel L + if q (wirePhases ws).length (Overhead l) then (match l.length with
      | none => 0
      | some x => if 0 ≤ x then x else 0) else 0 := by
    intro L L' hL
    unfold addLength at hL
    cases hlen : l.length with
    | none => rw [hlen] at hL; cases hL
    | some x =>
      rw [hlen] at hL
      simp only [] at hL ⊢
      by_cases hx : 0 ≤ x
      · rw [if_pos hx] at hL
        cases hL
        rw [hq, if_pos hx]
        simp only [Overhead, decide_eq_true_eq, add_right_inj]
        congr
      · rw [if_neg hx] at hL
        cases hL
        simp [hx]
  simp only [hS]
  by_cases hl : Low l.voltage
  · obtain ⟨ha, rfl⟩ := h1 hl
    have hm := low_not_medium hl
    simp only [hl, hm, true_and, false_and, if_false, add_zero]
    exact ⟨hadd _ _ ha, trivial⟩
  · by_cases hm : Medium l.voltage
    · obtain ⟨rfl, ha⟩ := h2 hm
      simp only [hl, hm, true_and, false_and, if_false, add_zero]
      exact hadd _ _ ha
    · obtain ⟨rfl, rfl⟩ := h3 hl hm
      simp [hl, hm]

theorem totalLength_congr {P Q : MLine → Prop} {objs : List MObj} (h : ∀ l ∈ linesOf objs, P l ↔ Q l) : totalLength P objs = totalLength Q objs := by
  unfold totalLength
  congr 3
  apply List.filter_congr
  intro l hl
  simp [h l hl]

open Classical in
theorem totalLength_le {P Q : MLine → Prop} (objs : List MObj) (h : ∀ l ∈ linesOf objs, P l → Q l) : totalLength P objs ≤ totalLength Q objs := by
  induction objs with
  | nil => rw [totalLength_nil, totalLength_nil]
  | cons o os ih =>
    rw [totalLength_cons P, totalLength_cons Q]
    have h2 := ih fun l hl => h l (by
      simp only [linesOf, List.mem_filterMap] at hl ⊢
      obtain ⟨a, ha, hb⟩ := hl
      exact ⟨a, List.mem_cons_of_mem _ ha, hb⟩)
    have h1 : totalLength P [o] ≤ totalLength Q [o] := by
      by_cases ho : ∀ l, o ≠ .line l
      · rw [totalLength_other _ _ ho, totalLength_other _ _ ho]
      push Not at ho
      obtain ⟨l, rfl⟩ := ho
      have hl := h l (by simp [linesOf])
      rw [totalLength_line, totalLength_line]
      have h0 : (0 : ℚ) ≤ (match l.length with
        | none => 0
        | some x => if 0 ≤ x then x else 0) := by
        cases l.length with
        | none => exact le_rfl
        | some x => by_cases hx : 0 ≤ x <;> simp [hx]
      by_cases hP : P l
      · simp [hP, hl hP]
      · by_cases hQ : Q l
        · simpa [hP, hQ] using h0
        · simp [hP, hQ]
    exact add_le_add h1 h2

open Classical in
/-- a property that holds for exactly one of two others -/
theorem totalLength_add {P Q R : MLine → Prop} (objs : List MObj) (h : ∀ l ∈ linesOf objs, P l ↔ Q l ∨ R l) (hd : ∀ l, Q l → ¬ R l) :
    totalLength P objs = totalLength Q objs + totalLength R objs := by
  induction objs with
  | nil => simp [totalLength_nil]
  | cons o os ih =>
    rw [totalLength_cons P, totalLength_cons Q, totalLength_cons R]
    have h2 := ih fun l hl => h l (by
      simp only [linesOf, List.mem_filterMap] at hl ⊢
      obtain ⟨a, ha, hb⟩ := hl
      exact ⟨a, List.mem_cons_of_mem _ ha, hb⟩)
    have h1 : totalLength P [o] = totalLength Q [o] + totalLength R [o] := by
      by_cases ho : ∀ l, o ≠ .line l
      · rw [totalLength_other _ _ ho, totalLength_other _ _ ho, totalLength_other _ _ ho, add_zero]
      push Not at ho
      obtain ⟨l, rfl⟩ := ho
      have hl := h l (by simp [linesOf])
      rw [totalLength_line, totalLength_line, totalLength_line]
      by_cases hQ : Q l
      · have := hd l hQ
        simp [hl, hQ, this]
      · simp [hl, hQ]
    rw [h1, h2]
    ring

open Classical in
theorem add_total (L : Lens) (k : Nat) (oh : Bool) (len : ℚ) :
    (L.add k oh len).total = L.total + if (fun _ _ => True : Nat → Prop → Prop) k (oh = true) then len else 0 := by
  unfold Lens.add
  by_cases h1 : k = 1
  · subst h1; cases oh <;> simp
  by_cases h2 : k = 2
  · subst h2; cases oh <;> simp
  by_cases h3 : k = 3
  · subst h3; cases oh <;> simp
  simp [h1, h2, h3]

open Classical in
theorem add_ph1 (L : Lens) (k : Nat) (oh : Bool) (len : ℚ) :
    (L.add k oh len).ph1 = L.ph1 + if (fun n _ => n = 1 : Nat → Prop → Prop) k (oh = true) then len else 0 := by
  unfold Lens.add
  by_cases h1 : k = 1
  · subst h1; cases oh <;> simp
  by_cases h2 : k = 2
  · subst h2; cases oh <;> simp
  by_cases h3 : k = 3
  · subst h3; cases oh <;> simp
  simp [h1, h2, h3]

open Classical in
theorem add_ph2 (L : Lens) (k : Nat) (oh : Bool) (len : ℚ) :
    (L.add k oh len).ph2 = L.ph2 + if (fun n _ => n = 2 : Nat → Prop → Prop) k (oh = true) then len else 0 := by
  unfold Lens.add
  by_cases h1 : k = 1
  · subst h1; cases oh <;> simp
  by_cases h2 : k = 2
  · subst h2; cases oh <;> simp
  by_cases h3 : k = 3
  · subst h3; cases oh <;> simp
  simp [h1, h2, h3]

open Classical in
theorem add_ph3 (L : Lens) (k : Nat) (oh : Bool) (len : ℚ) :
    (L.add k oh len).ph3 = L.ph3 + if (fun n _ => n = 3 : Nat → Prop → Prop) k (oh = true) then len else 0 := by
  unfold Lens.add
  by_cases h1 : k = 1
  · subst h1; cases oh <;> simp
  by_cases h2 : k = 2
  · subst h2; cases oh <;> simp
  by_cases h3 : k = 3
  · subst h3; cases oh <;> simp
  simp [h1, h2, h3]

open Classical in
theorem add_oh1 (L : Lens) (k : Nat) (oh : Bool) (len : ℚ) :
    (L.add k oh len).oh1 = L.oh1 + if (fun n o => n = 1 ∧ o : Nat → Prop → Prop) k (oh = true) then len else 0 := by
  unfold Lens.add
  by_cases h1 : k = 1
  · subst h1; cases oh <;> simp
  by_cases h2 : k = 2
  · subst h2; cases oh <;> simp
  by_cases h3 : k = 3
  · subst h3; cases oh <;> simp
  simp [h1, h2, h3]

open Classical in
theorem add_oh2 (L : Lens) (k : Nat) (oh : Bool) (len : ℚ) :
    (L.add k oh len).oh2 = L.oh2 + if (fun n o => n = 2 ∧ o : Nat → Prop → Prop) k (oh = true) then len else 0 := by
  unfold Lens.add
  by_cases h1 : k = 1
  · subst h1; cases oh <;> simp
  by_cases h2 : k = 2
  · subst h2; cases oh <;> simp
  by_cases h3 : k = 3
  · subst h3; cases oh <;> simp
  simp [h1, h2, h3]

open Classical in
theorem add_oh3 (L : Lens) (k : Nat) (oh : Bool) (len : ℚ) :
    (L.add k oh len).oh3 = L.oh3 + if (fun n o => n = 3 ∧ o : Nat → Prop → Prop) k (oh = true) then len else 0 := by
  unfold Lens.add
  by_cases h1 : k = 1
  · subst h1; cases oh <;> simp
  by_cases h2 : k = 2
  · subst h2; cases oh <;> simp
  by_cases h3 : k = 3
  · subst h3; cases oh <;> simp
  simp [h1, h2, h3]

theorem lines_wires {u : Bool} {ext : MObj → Option PyErr} {objs : List MObj} {r0 r : Results} (hr : analyzeAll u ext r0 objs = .ok r) :
    ∀ l ∈ linesOf objs, ∃ ws, l.wires = some ws := by
  intro l hl
  have hm : MObj.line l ∈ objs := by
    simp only [linesOf, List.mem_filterMap] at hl
    obtain ⟨a, ha, hb⟩ := hl
    cases a <;> cases hb
    exact ha
  clear hl
  induction objs generalizing r0 with
  | nil => cases hm
  | cons o os ih =>
    unfold analyzeAll at hr
    rw [List.foldlM_cons] at hr
    cases h1 : analyze u ext r0 o with
    | error e => rw [h1] at hr; cases hr
    | ok r1 =>
      rw [h1] at hr
      rcases List.mem_cons.1 hm with rfl | hm
      · obtain ⟨ws, hw, -⟩ := analyzeLine_ok h1
        exact ⟨ws, hw⟩
      · exact ih hr hm

open Classical in
theorem lens_all {u : Bool} {ext : MObj → Option PyErr} {objs : List MObj} {r : Results} (hr : analyzeAll u ext {} objs = .ok r)
    (sel : Lens → ℚ) (q : Nat → Prop → Prop) (h0 : sel {} = 0)
    (hq : ∀ (L : Lens) k (oh : Bool) len, sel (L.add k oh len) = sel L + if q k (oh = true) then len else 0) :
    sel r.lv = totalLength (Sel Low q) objs ∧ sel r.mv = totalLength (Sel Medium q) objs := by
  have h1 := fold_add (u := u) (ext := ext) (fun r => sel r.lv) (totalLength (Sel Low q)) (totalLength_nil _) (totalLength_cons _)
    (fun r o r' h => (lens_step h sel q hq).1) objs {} r hr
  have h2 := fold_add (u := u) (ext := ext) (fun r => sel r.mv) (totalLength (Sel Medium q)) (totalLength_nil _) (totalLength_cons _)
    (fun r o r' h => (lens_step h sel q hq).2) objs {} r hr
  simp only [h0, zero_add] at h1 h2
  exact ⟨h1, h2⟩

theorem sel_all {objs : List MObj} (hw : ∀ l ∈ linesOf objs, ∃ ws, l.wires = some ws) {C : Option ℚ → Prop} :
    totalLength (Sel C fun _ _ => True) objs = totalLength (fun l => C l.voltage) objs :=
  totalLength_congr fun l hl => by obtain ⟨ws, h⟩ := hw l hl; simp [Sel, h]

theorem sel_phases {objs : List MObj} (hw : ∀ l ∈ linesOf objs, ∃ ws, l.wires = some ws) {C : Option ℚ → Prop} {k : Nat} :
    totalLength (Sel C fun n _ => n = k) objs = totalLength (fun l => C l.voltage ∧ HasPhases k l) objs :=
  totalLength_congr fun l hl => by obtain ⟨ws, h⟩ := hw l hl; simp [Sel, h, hasPhases_iff h]

theorem sel_overhead {objs : List MObj} (hw : ∀ l ∈ linesOf objs, ∃ ws, l.wires = some ws) {C : Option ℚ → Prop} {k : Nat} :
    totalLength (Sel C fun n o => n = k ∧ o) objs = totalLength (fun l => C l.voltage ∧ HasPhases k l ∧ Overhead l) objs :=
  totalLength_congr fun l hl => by obtain ⟨ws, h⟩ := hw l hl; simp [Sel, h, hasPhases_iff h]

/-! ### Exceptions -/

theorem analyze_ok_iff (u : Bool) (ext : MObj → Option PyErr) (r : Results) (o : MObj) (hext : ext o = none) :
    (∃ r', analyze u ext r o = .ok r') ↔ Analyzable o := by
  cases o with
  | line l =>
    simp only [analyze, analyzeLine, Analyzable]
    cases hw : l.wires with
    | none => simp
    | some ws =>
      rw [← voltClass_low, ← voltClass_medium]
      cases hv : voltClass l.voltage with
      | none => simp
      | low =>
        cases hl : l.length with
        | none => simp [addLength, hl]
        | some x => by_cases hx : 0 ≤ x <;> simp [addLength, hl, hx]
      | medium =>
        cases hl : l.length with
        | none => simp [addLength, hl]
        | some x => by_cases hx : 0 ≤ x <;> simp [addLength, hl, hx]
  | load l =>
    simp only [analyze, analyzeLoad, Analyzable, hext]
    cases hp : l.phaseLoads with
    | none => simp
    | some pls =>
      cases pls with
      | nil => simp [powerFactor]
      | cons pl rest =>
        obtain ⟨ph, p, q, d⟩ := pl
        cases p <;> cases q <;> simp [powerFactor]
  | regulator => simp [analyze, Analyzable]
  | capacitor => simp [analyze, Analyzable]
  | other => simp [analyze, Analyzable]
  | transformer ws =>
    simp only [analyze, hext]
    cases ws with
    | none => simp [Analyzable]
    | some ws =>
      cases ws with
      | nil => simp [Analyzable, analyzeWindings]
      | cons w rest =>
        cases rest with
        | nil => cases hv : w.voltage <;> simp [Analyzable, analyzeWindings, hv]
        | cons w' rest =>
          simp only [Analyzable, iff_true, analyzeWindings]
          cases w.voltage with
          | none => exact ⟨_, rfl⟩
          | some v =>
            cases w'.voltage with
            | none => exact ⟨_, rfl⟩
            | some v' =>
              simp only []
              split_ifs <;> exact ⟨_, rfl⟩

theorem analyzeAll_ok_iff (u : Bool) (ext : MObj → Option PyErr) (objs : List MObj) (hext : ∀ o ∈ objs, ext o = none) :
    ∀ r, (∃ r', analyzeAll u ext r objs = .ok r') ↔ ∀ o ∈ objs, Analyzable o := by
  induction objs with
  | nil => intro r; simp [analyzeAll, pure, Except.pure]
  | cons o os ih =>
    intro r
    rw [List.forall_mem_cons, ← analyze_ok_iff u ext r o (hext o List.mem_cons_self)]
    unfold analyzeAll
    rw [List.foldlM_cons]
    cases h1 : analyze u ext r o with
    | error e => simp [bind, Except.bind]
    | ok r1 =>
      rw [← ih (fun o ho => hext o (List.mem_cons_of_mem _ ho)) r1]
      simp [bind, Except.bind, analyzeAll]

end Ditto.Metrics
