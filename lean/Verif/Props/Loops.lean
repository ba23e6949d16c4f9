import Verif.Lemmas.Cycle
import Verif.Props.LoadsConnected

/-! C25: `check_loops`. -/
namespace Ditto.Net
open Ditto Ditto.Search Ditto.Spec

theorem loopsLoop_eq {objs : List NetObj} (hu : Usable objs) (srcs : List NetObj) (hs : ∀ x ∈ srcs, x ∈ sources objs) :
    loopsLoop objs srcs = .ok true ∧ srcs ≠ [] ∧ ¬ HasLoop (ClosedLink objs) ∨
      loopsLoop objs srcs = .ok false ∧ (srcs = [] ∨ HasLoop (ClosedLink objs)) := by
  induction srcs with
  | nil => right; exact ⟨rfl, .inl rfl⟩
  | cons src srcs ih =>
    have hm := hs src (by simp)
    obtain ⟨s, hs', n, hn⟩ := source_connects hu hm
    have hb := basisSize_zero (closedNetwork_spec hn)
    obtain ⟨nm, hnm⟩ := Option.ne_none_iff_exists'.1 (hu.1 src (List.mem_filter.1 hm).1)
    unfold loopsLoop
    rw [hnm, hs']
    simp only [hn]
    by_cases h0 : basisSize n.graph = 0
    · rw [if_pos h0]
      exact .inl ⟨rfl, by simp, hb.1 h0⟩
    · rw [if_neg h0]
      have hl : HasLoop (ClosedLink objs) := by by_contra h; exact h0 (hb.2 h)
      rcases ih (fun x hx => hs x (by simp [hx])) with ⟨_, _, h⟩ | ⟨h, _⟩
      · exact absurd hl h
      · exact .inr ⟨h, .inr hl⟩

/-- C25: with a source, `check_loops` answers `True` exactly if the network of the closed connections has no loop. -/
theorem C25_true_iff (objs : List NetObj) (hu : Usable objs) (hs : sources objs ≠ []) :
    checkLoops objs = .ok true ↔ ¬ HasLoop (ClosedLink objs) := by
  unfold checkLoops
  rw [if_neg hs]
  rcases loopsLoop_eq hu (sources objs) (fun _ h => h) with ⟨h, _, hl⟩ | ⟨h, hl⟩
  · simp [h, hl]
  · simp [h, hl.resolve_left hs]

/-- C25: otherwise it answers `False`. -/
theorem C25_false_iff (objs : List NetObj) (hu : Usable objs) (hs : sources objs ≠ []) :
    checkLoops objs = .ok false ↔ HasLoop (ClosedLink objs) := by
  unfold checkLoops
  rw [if_neg hs]
  rcases loopsLoop_eq hu (sources objs) (fun _ h => h) with ⟨h, _, hl⟩ | ⟨h, hl⟩
  · simp [h, hl]
  · simp [h, hl.resolve_left hs]

/-- C25 is violated: without a power source there is no answer, but `TypeError` (a string is raised), even though the network
may have no loop. -/
theorem C25_source_violated (objs : List NetObj) (hs : sources objs = []) : checkLoops objs = .error .typeError := by
  unfold checkLoops; rw [if_pos hs]

def exTriangle : List NetObj := [
  { cls := "PowerSource", name := some "s1", connecting := some "a" },
  { cls := "Line", name := some "l1", fromEl := some "a", toEl := some "b", isLine := true },
  { cls := "Line", name := some "l2", fromEl := some "b", toEl := some "c", isLine := true },
  { cls := "Line", name := some "l3", fromEl := some "c", toEl := some "a", isLine := true }]

/-- two lines between the same nodes -/
def exParallel : List NetObj := [
  { cls := "PowerSource", name := some "s1", connecting := some "a" },
  { cls := "Line", name := some "l1", fromEl := some "a", toEl := some "b", isLine := true },
  { cls := "Line", name := some "l2", fromEl := some "a", toEl := some "b", isLine := true }]

/-- C25 is violated: the loop made by two different lines between the same nodes is not seen. -/
theorem C25_parallel_violated : checkLoops exParallel = .ok true ∧
    ∃ o o' : NetObj, o ∈ exParallel ∧ o' ∈ exParallel ∧ o ≠ o' ∧ ¬ Cut o ∧ ¬ Cut o' ∧ TwoTerminal o "a" "b" ∧
      TwoTerminal o' "a" "b" :=
  ⟨by decide +kernel, { cls := "Line", name := some "l1", fromEl := some "a", toEl := some "b", isLine := true },
    { cls := "Line", name := some "l2", fromEl := some "a", toEl := some "b", isLine := true }, by decide +kernel,
    by decide +kernel, by decide, by decide, by decide, by decide, by decide⟩

example : Usable exTriangle ∧ sources exTriangle ≠ [] ∧ checkLoops exTriangle = .ok false :=
  ⟨usable_of_cut (by decide +kernel) (by decide +kernel), by decide +kernel, by decide +kernel⟩

example : Usable exFeeders ∧ sources exFeeders ≠ [] ∧ checkLoops exFeeders = .ok true :=
  ⟨usable_of_cut (by decide +kernel) (by decide +kernel), by decide +kernel, by decide +kernel⟩

end Ditto.Net
