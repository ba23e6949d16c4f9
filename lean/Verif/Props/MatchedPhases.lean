import Verif.Model.PhasePath

/-! C26: `check_matched_phases`. -/
namespace Ditto.Net
open Ditto

/-- What the check accepts of a transformer: two windings with the same set of phases, or three windings where both secondaries
have the same two phases and the primary has at most two. -/
def Matched (d : Dev) : Prop :=
  (∃ h l, d.windings = [h, l] ∧ ∀ x, x ∈ h.phases ↔ x ∈ l.phases) ∨
  (∃ h l l2, d.windings = [h, l, l2] ∧ l2.phases = l.phases ∧ l.phases.length = 2 ∧ h.phases.length ≤ 2)

theorem sameSet_true {α : Type} [DecidableEq α] (a b : List α) : sameSet a b = true ↔ ∀ x, x ∈ a ↔ x ∈ b := by
  unfold sameSet
  simp only [Bool.and_eq_true, List.all_eq_true, decide_eq_true_eq]
  exact ⟨fun h x => ⟨h.1 x, h.2 x⟩, fun h => ⟨fun x => (h x).1, fun x => (h x).2⟩⟩

theorem matchedPhases_iff (d : Dev) : matchedPhases d = true ↔ Matched d := by
  unfold matchedPhases Matched
  split
  · rename_i high low h
    rw [sameSet_true]
    constructor
    · intro hs; exact .inl ⟨high, low, h, hs⟩
    · rintro (⟨a, b, hab, hs⟩ | ⟨a, b, c, hab, _⟩)
      · rw [h] at hab; simp only [List.cons.injEq, and_true] at hab
        obtain ⟨rfl, rfl⟩ := hab
        exact hs
      · rw [h] at hab; simp at hab
  · rename_i high low low2 h
    simp only [Bool.and_eq_true, decide_eq_true_eq]
    constructor
    · rintro ⟨⟨h1, h2⟩, h3⟩; exact .inr ⟨high, low, low2, h, h1, by rw [← h1]; exact h2, h3⟩
    · rintro (⟨a, b, hab, hs⟩ | ⟨a, b, c, hab, h1, h2, h3⟩)
      · rw [h] at hab; simp at hab
      · rw [h] at hab; simp only [List.cons.injEq, and_true] at hab
        obtain ⟨rfl, rfl, rfl⟩ := hab
        exact ⟨⟨h1, by rw [h1]; exact h2⟩, h3⟩
  · rename_i h1 h2
    simp only [Bool.false_eq_true, false_iff]
    rintro (⟨a, b, hab, _⟩ | ⟨a, b, c, hab, _⟩)
    · exact h1 _ _ hab
    · exact h2 _ _ _ hab

theorem matched_false (verbose : Bool) (ts : List Dev) : ts.foldlM (matchedStep verbose) false ≠ .ok true := by
  induction ts with
  | nil => simp [pure, Except.pure]
  | cons d ts ih =>
    rw [List.foldlM_cons]
    unfold matchedStep
    split
    · exact ih
    · split
      · simp [bind, Except.bind]
      · exact ih

/-- The check says `True` exactly if it accepts every transformer. -/
theorem C26_true_iff (verbose : Bool) (ts : List Dev) : checkMatchedPhases verbose ts = .ok true ↔ ∀ d ∈ ts, Matched d := by
  unfold checkMatchedPhases
  induction ts with
  | nil => simp [pure, Except.pure]
  | cons d ts ih =>
    rw [List.foldlM_cons]
    by_cases h : matchedPhases d
    · have : matchedStep verbose true d = .ok true := by simp [matchedStep, h]
      rw [this]
      simp only [List.mem_cons, forall_eq_or_imp, ← matchedPhases_iff d, h, true_and]
      exact ih
    · have hno : ¬ ∀ x ∈ d :: ts, Matched x := fun hx => h ((matchedPhases_iff d).2 (hx d (by simp)))
      simp only [hno, iff_false]
      unfold matchedStep
      rw [if_neg h]
      split
      · simp [bind, Except.bind]
      · exact matched_false verbose ts

open Classical in
/-- The check raises only for the message about a rejected transformer without a name, and otherwise says `False` if it rejects
one of them. -/
theorem C26_false_iff (verbose : Bool) (ts : List Dev) :
    (checkMatchedPhases verbose ts = .ok false ↔ (∃ d ∈ ts, ¬ Matched d) ∧
      ¬ (verbose = true ∧ ∃ d ∈ ts, ¬ Matched d ∧ d.net.name = none)) ∧
    (checkMatchedPhases verbose ts = .error .typeError ↔ verbose = true ∧ ∃ d ∈ ts, ¬ Matched d ∧ d.net.name = none) ∧
    (∀ e, checkMatchedPhases verbose ts = .error e → e = .typeError) := by
  have key : ∀ res, if verbose = true ∧ ∃ d ∈ ts, ¬ Matched d ∧ d.net.name = none
      then ts.foldlM (matchedStep verbose) res = .error .typeError
      else ∃ b, ts.foldlM (matchedStep verbose) res = .ok b := by
    induction ts with
    | nil => intro res; simp [pure, Except.pure]
    | cons d ts ih =>
      intro res
      rw [List.foldlM_cons]
      by_cases h : matchedPhases d
      · have hs : matchedStep verbose res d = .ok res := by simp [matchedStep, h]
        have hm := (matchedPhases_iff d).1 h
        rw [hs]
        have := ih res
        simp only [List.mem_cons, exists_eq_or_imp, hm, not_true_eq_false, false_and, false_or]
        exact this
      · have hm : ¬ Matched d := fun hx => h ((matchedPhases_iff d).2 hx)
        by_cases hv : verbose = true ∧ d.net.name = none
        · have hs : matchedStep verbose res d = .error .typeError := by simp [matchedStep, h, hv.1, hv.2]
          rw [hs, if_pos ⟨hv.1, d, by simp, hm, hv.2⟩]
          rfl
        · have hs : matchedStep verbose res d = .ok false := by
            unfold matchedStep
            rw [if_neg h, if_neg]
            simpa using hv
          rw [hs]
          have hi := ih false
          have : (verbose = true ∧ ∃ x ∈ d :: ts, ¬ Matched x ∧ x.net.name = none) ↔
              (verbose = true ∧ ∃ x ∈ ts, ¬ Matched x ∧ x.net.name = none) := by
            constructor
            · rintro ⟨h1, x, hx, h2, h3⟩
              rcases List.mem_cons.1 hx with rfl | hx
              · exact absurd ⟨h1, h3⟩ hv
              · exact ⟨h1, x, hx, h2, h3⟩
            · rintro ⟨h1, x, hx, h2, h3⟩; exact ⟨h1, x, by simp [hx], h2, h3⟩
          by_cases hc : verbose = true ∧ ∃ x ∈ ts, ¬ Matched x ∧ x.net.name = none
          · rw [if_pos hc] at hi
            rw [if_pos (this.2 hc)]
            exact hi
          · rw [if_neg hc] at hi
            rw [if_neg fun hx => hc (this.1 hx)]
            exact hi
  have hk := key true
  have ht := C26_true_iff verbose ts
  unfold checkMatchedPhases at ht ⊢
  split at hk
  · rename_i hc
    rw [hk]
    simp [hc]
  · rename_i hc
    obtain ⟨b, hb⟩ := hk
    rw [hb] at ht ⊢
    refine ⟨?_, by simp [hc], by simp⟩
    simp only [hc, not_false_eq_true, and_true, Except.ok.injEq] at ht ⊢
    cases b
    · simp only [Bool.false_eq_true, false_iff] at ht
      push Not at ht
      simpa using ht
    · simp only [true_iff] at ht
      simp only [Bool.true_eq_false, false_iff]
      rintro ⟨d, hd, hm⟩
      exact hm (ht d hd)

/-- Part of the property: after `True` the phases of each secondary of a two winding transformer are among those of its primary.
The converse fails: see `C26_subset_violated`. -/
theorem C26_sound_partial (verbose : Bool) (ts : List Dev) (h : checkMatchedPhases verbose ts = .ok true) :
    ∀ d ∈ ts, ∀ hi lo, d.windings = [hi, lo] → ∀ x ∈ lo.phases, x ∈ hi.phases := by
  intro d hd hi lo hw x hx
  rcases (C26_true_iff verbose ts).1 h d hd with ⟨a, b, hab, hs⟩ | ⟨a, b, c, hab, _⟩
  · rw [hw] at hab
    simp only [List.cons.injEq, and_true] at hab
    obtain ⟨rfl, rfl⟩ := hab
    exact (hs x).2 hx
  · rw [hw] at hab; simp at hab

/-- a transformer of the given windings -/
def exTransformer (ws : List (List String)) : Dev where
  net := { cls := "PowerTransformer", name := some "t" }
  windings := ws.map fun ps => ⟨none, ps.map some⟩

example : checkMatchedPhases true [exTransformer [["A", "B"], ["B", "A"]], exTransformer [["A"], ["A", "B"], ["A", "B"]]] =
    .ok true := by decide +kernel

example : checkMatchedPhases true [exTransformer [["A"], ["A"]], exTransformer [["A"], ["B"]]] = .ok false := by decide +kernel

/-- The documented rule is violated: a secondary on phase A of a primary with A, B and C is rejected, since line 48 asks whether
the set of its phases is an element of the other set. -/
theorem C26_subset_violated : ∃ d hi lo, d.windings = [hi, lo] ∧ (∀ x ∈ lo.phases, x ∈ hi.phases) ∧ lo.phases ≠ [] ∧
    checkMatchedPhases true [d] = .ok false :=
  ⟨exTransformer [["A", "B", "C"], ["A"]], _, _, rfl, by decide, by decide, by decide +kernel⟩

/-- A limit of the check: a center tap transformer is accepted although its primary and its secondaries share no phase. -/
theorem C26_center_tap : ∃ d hi lo lo2, d.windings = [hi, lo, lo2] ∧ (∀ x ∈ lo.phases, x ∉ hi.phases) ∧
    checkMatchedPhases true [d] = .ok true :=
  ⟨exTransformer [["C"], ["A", "B"], ["A", "B"]], _, _, _, rfl, by decide, by decide +kernel⟩

end Ditto.Net
