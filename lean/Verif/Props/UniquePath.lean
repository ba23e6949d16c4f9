import Verif.Lemmas.SimplePaths
import Verif.Props.Loops

/-! C27: `check_unique_path`. -/
namespace Ditto.Net
open Ditto Ditto.Search Ditto.Spec

open Classical in
theorem uniqueLoads_eq (sa : Bool) (g : Graph) (s : String) (names : List (Option String))
    (hn : ∀ nm ∈ names, ∃ t, nm = some t ∧ t ∈ g.nodes) : ∀ brk res : Bool,
    uniqueLoads sa g s names brk res = .ok (if brk then res else
      res && decide (∀ t, some t ∈ names → (simplePaths g s t).length = 1)) := by
  induction names with
  | nil => intro brk res; simp [uniqueLoads]
  | cons nm names ih =>
    intro brk res
    obtain ⟨t, rfl, ht⟩ := hn nm (by simp)
    have hn' := ih fun nm h => hn nm (by simp [h])
    have hsplit : (∀ t', some t' ∈ some t :: names → (simplePaths g s t').length = 1) ↔
        (simplePaths g s t).length = 1 ∧ ∀ t', some t' ∈ names → (simplePaths g s t').length = 1 := by
      constructor
      · intro h; exact ⟨h t (by simp), fun t' h' => h t' (by simp [h'])⟩
      · rintro ⟨h1, h2⟩ t' h'
        rcases List.mem_cons.1 h' with h' | h'
        · simp only [Option.some.injEq] at h'; subst h'; exact h1
        · exact h2 t' h'
    rw [uniqueLoads]
    simp only [targetPaths, ht, if_true]
    cases brk with
    | true => simp
    | false =>
      simp only [Bool.false_eq_true, if_false]
      simp only [hsplit]
      by_cases h1 : (simplePaths g s t).length > 1
      · rw [if_pos h1, hn']
        have : (simplePaths g s t).length ≠ 1 := by omega
        simp [this]
      · rw [if_neg h1]
        by_cases h0 : (simplePaths g s t).length = 0
        · rw [if_pos h0]; simp [h0]
        · rw [if_neg h0, hn']
          have : (simplePaths g s t).length = 1 := by omega
          simp [this]

/-- `t` has exactly one simple path from the node of the source, a different node -/
def UniquePath (objs : List NetObj) (src load : NetObj) : Prop :=
  ∀ s t, src.connecting = some s → load.name = some t → s ≠ t ∧ ∃! p, IsSimplePath (ClosedLink objs) s t p

open Classical in
theorem uniqueSource_eq (sa : Bool) {objs ls : List NetObj} (hu : Usable objs) (hperm : ls.Perm (loads objs))
    (hl : ∀ l ∈ loads objs, l.connecting ≠ none) {src : NetObj} (hsrc : src ∈ sources objs) (res : Bool) :
    uniqueSource sa objs ls res src = .ok (res && decide (∀ l ∈ loads objs, UniquePath objs src l)) := by
  obtain ⟨s, hs, n, hn⟩ := source_connects hu hsrc
  have hc := closedNetwork_spec hn
  unfold uniqueSource
  rw [hs]
  simp only [hn]
  rw [uniqueLoads_eq]
  · simp only [Bool.false_eq_true, if_false]
    congr 2
    rw [decide_eq_decide]
    constructor
    · intro h l hl s' t hs' ht
      rw [hs] at hs'
      simp only [Option.some.injEq] at hs'
      subst hs'
      exact (simplePaths_one hc t).1 (h t (List.mem_map.2 ⟨l, hperm.mem_iff.2 hl, ht⟩))
    · intro h t ht
      obtain ⟨l, hl, hlt⟩ := List.mem_map.1 ht
      exact (simplePaths_one hc t).2 (h l (hperm.mem_iff.1 hl) s t hs hlt)
  · intro nm hnm
    obtain ⟨l, hl', rfl⟩ := List.mem_map.1 hnm
    have hl1 := hperm.mem_iff.1 hl'
    have hl2 : l ∈ objs := (List.mem_filter.1 hl1).1
    obtain ⟨t, ht⟩ := Option.ne_none_iff_exists'.1 (hu.1 l hl2)
    obtain ⟨c, hcn⟩ := Option.ne_none_iff_exists'.1 (hl l hl1)
    exact ⟨t, ht, (hc.nodes t).2 ⟨c, l, hl2, .inr (.inr ⟨hcn, ht⟩)⟩⟩

open Classical in
theorem checkUniquePath_eq (sa : Bool) {objs ls : List NetObj} (hu : Usable objs) (hperm : ls.Perm (loads objs))
    (hl : ∀ l ∈ loads objs, l.connecting ≠ none) :
    checkUniquePath sa objs ls = .ok (decide (sources objs ≠ [] ∧ ∀ src ∈ sources objs, ∀ l ∈ loads objs,
      UniquePath objs src l)) := by
  unfold checkUniquePath
  by_cases h0 : sources objs = []
  · rw [if_pos h0]; simp [h0]
  · rw [if_neg h0]
    have gen : ∀ (srcs : List NetObj), (∀ x ∈ srcs, x ∈ sources objs) → ∀ res : Bool,
        srcs.foldlM (uniqueSource sa objs ls) res =
          .ok (res && decide (∀ src ∈ srcs, ∀ l ∈ loads objs, UniquePath objs src l)) := by
      intro srcs
      induction srcs with
      | nil => intro _ res; simp [pure, Except.pure]
      | cons src srcs ih =>
        intro hs res
        refine foldlM_cons_intro (uniqueSource_eq sa hu hperm hl (hs src (by simp)) res) ?_
        rw [ih fun x hx => hs x (by simp [hx])]
        simp only [List.mem_cons, forall_eq_or_imp]
        rw [Bool.and_assoc]
        congr 2
        rw [Bool.eq_iff_iff]
        simp
    rw [gen _ fun _ h => h]
    simp [h0]

/-- C27: if every load has a connection, `check_unique_path` answers, in any order of the loads and whatever `show_all` is,
`True` if there is a source and there is exactly one simple path between every load and every source, and `False` otherwise. -/
theorem C27_iff (sa : Bool) (objs ls : List NetObj) (hu : Usable objs) (hperm : ls.Perm (loads objs))
    (hl : ∀ l ∈ loads objs, l.connecting ≠ none) :
    (checkUniquePath sa objs ls = .ok true ↔
      sources objs ≠ [] ∧ ∀ src ∈ sources objs, ∀ l ∈ loads objs, UniquePath objs src l) ∧
    (checkUniquePath sa objs ls = .ok false ↔
      sources objs = [] ∨ ∃ src ∈ sources objs, ∃ l ∈ loads objs, ¬ UniquePath objs src l) := by
  rw [checkUniquePath_eq sa hu hperm hl]
  constructor
  · simp
  · simp only [Except.ok.injEq, decide_eq_false_iff_not, not_and_or, not_not, not_forall, exists_prop]

/-- C27, the property itself, for a model with one source -/
theorem C27_one_source_partial (sa : Bool) (objs ls : List NetObj) (hu : Usable objs) (hperm : ls.Perm (loads objs))
    (hl : ∀ l ∈ loads objs, l.connecting ≠ none) (src : NetObj) (s : String) (hsrc : sources objs = [src])
    (hs : src.connecting = some s) (hne : ∀ l ∈ loads objs, l.name ≠ some s) :
    checkUniquePath sa objs ls = .ok true ↔
      ∀ l ∈ loads objs, ∀ t, l.name = some t → ∃! p, IsSimplePath (ClosedLink objs) s t p := by
  rw [(C27_iff sa objs ls hu hperm hl).1, hsrc]
  simp only [ne_eq, List.cons_ne_self, not_false_eq_true, List.mem_singleton, forall_eq, true_and]
  unfold UniquePath
  constructor
  · intro h l hl t ht; exact (h l hl s t hs ht).2
  · intro h l hl s' t hs' ht
    rw [hs] at hs'
    simp only [Option.some.injEq] at hs'
    subst hs'
    exact ⟨fun hst => hne l hl (by rw [ht, hst]), h l hl t ht⟩

/-- C24, C25 and C27 agree: in a model with one source, without loops and with all loads connected, every load has a unique
path. -/
theorem C27_radial (sa : Bool) (objs ls : List NetObj) (hu : Usable objs) (hperm : ls.Perm (loads objs))
    (hnd : ((loads objs).map (·.name)).Nodup) (src : NetObj) (s : String) (hsrc : sources objs = [src])
    (hs : src.connecting = some s) (hne : ∀ l ∈ loads objs, l.name ≠ some s)
    (hown : ∀ l ∈ loads objs, ∀ t c, l.name = some t → l.connecting = some c → ∀ o ∈ objs, ¬ TwoTerminal o c t)
    (h1 : checkLoadsConnected objs = .ok true) (h2 : checkLoops objs = .ok true) :
    checkUniquePath sa objs ls = .ok true := by
  have hsn : sources objs ≠ [] := by rw [hsrc]; simp
  rw [C25_true_iff objs hu hsn] at h2
  rw [C24_true_iff objs hu hnd] at h1
  have hf : ∀ l ∈ loads objs, Feeds objs src l := by
    intro l hl
    obtain ⟨pre, x, post, heq, hx, _⟩ := h1.2 l hl
    have : x ∈ sources objs := by rw [heq]; simp
    rw [hsrc] at this
    simp only [List.mem_singleton] at this
    rwa [this] at hx
  have hl : ∀ l ∈ loads objs, l.connecting ≠ none := by
    intro l hl
    obtain ⟨_, c, _, hc, _⟩ := hf l hl
    simp [hc]
  rw [C27_one_source_partial sa objs ls hu hperm hl src s hsrc hs hne]
  intro l hll t ht
  obtain ⟨s', c, hs', hc, hr⟩ := hf l hll
  rw [hs] at hs'
  simp only [Option.some.injEq] at hs'
  subst hs'
  have hlink : ClosedLink objs c t := by
    refine ⟨⟨l, (List.mem_filter.1 hll).1, .inl (.inr ⟨hc, ht⟩)⟩, ?_⟩
    rintro ⟨o, ho, _, htt⟩
    exact hown l hll t c ht hc o ho htt
  obtain ⟨p, hp⟩ := exists_simplePath (hr.tail hlink)
  exact ⟨p, hp, fun q hq => simplePath_unique (fun a b => ClosedLink.symm) h2 hq hp⟩

/-- C27 is violated with two sources: in two separate feeders every load has one path, to one source, and the answer is `False`. -/
theorem C27_sources_violated : Usable exFeeders ∧ checkLoadsConnected exFeeders = .ok true ∧
    (∀ ls, ls.Perm (loads exFeeders) → checkUniquePath false exFeeders ls = .ok false) := by
  have hu : Usable exFeeders := usable_of_cut (by decide +kernel) (by decide +kernel)
  refine ⟨hu, by decide +kernel, fun ls hp => ?_⟩
  have hl : ∀ l ∈ loads exFeeders, l.connecting ≠ none := by decide +kernel
  have h1 := checkUniquePath_eq false hu hp hl
  rw [h1, ← checkUniquePath_eq false hu (List.Perm.refl _) hl]
  decide +kernel

/-- a load without connection whose name contains the name of a node -/
def exChars : List NetObj := [
  { cls := "PowerSource", name := some "s1", connecting := some "a" },
  { cls := "Line", name := some "l1", fromEl := some "a", toEl := some "b", isLine := true },
  { cls := "Load", name := some "bx", connecting := none }]

/-- C27 is violated for a load without connection: its name is taken as a collection of characters, so that a path to the node
`b` counts as the path to the load `bx`. -/
theorem C27_characters_violated : Usable exChars ∧ checkUniquePath false exChars (loads exChars) = .ok true ∧
    ¬ ∃ b, Connects exChars "bx" b := by
  refine ⟨usable_of_cut (by decide +kernel) (by decide +kernel), by decide +kernel, ?_⟩
  rintro ⟨b, o, ho, h⟩
  unfold exChars at ho
  simp only [List.mem_cons, List.not_mem_nil, or_false] at ho
  rcases ho with rfl | rfl | rfl <;> simp [Declares] at h

def exUnique : List NetObj := [
  { cls := "PowerSource", name := some "s1", connecting := some "a" },
  { cls := "Line", name := some "l1", fromEl := some "a", toEl := some "b", isLine := true },
  { cls := "Line", name := some "l2", fromEl := some "b", toEl := some "c", isLine := true },
  { cls := "Load", name := some "x", connecting := some "b" },
  { cls := "Load", name := some "y", connecting := some "c" }]

example : Usable exUnique ∧ (loads exUnique).Perm (loads exUnique) ∧ (∀ l ∈ loads exUnique, l.connecting ≠ none) ∧
    (∀ l ∈ loads exUnique, l.name ≠ some "a") ∧ (∃ src, sources exUnique = [src] ∧ src.connecting = some "a") ∧
    checkUniquePath false exUnique (loads exUnique) = .ok true :=
  ⟨usable_of_cut (by decide +kernel) (by decide +kernel), .refl _, by decide +kernel, by decide +kernel,
    ⟨_, by rfl, by decide +kernel⟩, by decide +kernel⟩

def exMesh : List NetObj := [
  { cls := "PowerSource", name := some "s1", connecting := some "a" },
  { cls := "Line", name := some "l1", fromEl := some "a", toEl := some "b", isLine := true },
  { cls := "Line", name := some "l2", fromEl := some "b", toEl := some "c", isLine := true },
  { cls := "Line", name := some "l3", fromEl := some "c", toEl := some "a", isLine := true },
  { cls := "Load", name := some "x", connecting := some "b" }]

example : checkUniquePath false exMesh (loads exMesh) = .ok false := by decide +kernel

end Ditto.Net
