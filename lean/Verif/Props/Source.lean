import Verif.Spec.Source
import Verif.Props.Network
import Mathlib.Data.List.Dedup

/-! C35: the choice of the source. -/
namespace Ditto.Net
open Ditto

theorem mem_sourceNames {devs : List VoltDev} {nm : Option String} :
    nm ∈ sourceNames devs ↔ ∃ d ∈ devs, Sourcebus d ∧ d.net.name = nm := by
  unfold sourceNames Sourcebus
  simp only [List.mem_map, List.mem_filter, Bool.and_eq_true, decide_eq_true_eq, beq_iff_eq]
  constructor
  · rintro ⟨d, ⟨h1, h2⟩, h3⟩; exact ⟨d, h1, h2, h3⟩
  · rintro ⟨d, h1, h2, h3⟩; exact ⟨d, ⟨h1, h2⟩, h3⟩

theorem dedup_singleton_iff {l : List (Option String)} {nm : Option String} :
    l.dedup = [nm] ↔ nm ∈ l ∧ ∀ a ∈ l, a = nm := by
  constructor
  · intro h
    have hm : ∀ a, a ∈ l ↔ a = nm := by
      intro a; rw [← List.mem_dedup, h]; simp
    exact ⟨(hm nm).2 rfl, fun a ha => (hm a).1 ha⟩
  · rintro ⟨h1, h2⟩
    have hp : l.dedup.Perm [nm] := by
      rw [List.perm_ext_iff_of_nodup (List.nodup_dedup l) (by simp)]
      intro a
      rw [List.mem_dedup, List.mem_singleton]
      exact ⟨h2 a, fun h => h ▸ h1⟩
    exact List.perm_singleton.1 hp

/-- C35: without an argument the source `x` is chosen iff there is a sourcebus and all sourcebuses are called `x`. -/
theorem C35_choice (devs : List VoltDev) (x : String) : chooseSource devs = .ok (some x) ↔ OnlySource devs x := by
  unfold chooseSource OnlySource
  simp only
  split
  · rename_i h
    refine ⟨fun h' => by simp at h', fun ⟨_, h'⟩ => ?_⟩
    obtain ⟨d, hd, hs, hn⟩ := mem_sourceNames.1 h.1
    rw [h' d hd hs] at hn
    simp at hn
  · have key : (sourceNames devs).dedup = [some x] ↔ (∃ d ∈ devs, Sourcebus d) ∧ ∀ d ∈ devs, Sourcebus d → d.net.name = some x := by
      rw [dedup_singleton_iff]
      constructor
      · rintro ⟨h1, h2⟩
        obtain ⟨d, hd, hs, _⟩ := mem_sourceNames.1 h1
        exact ⟨⟨d, hd, hs⟩, fun d hd hs => h2 _ (mem_sourceNames.2 ⟨d, hd, hs, rfl⟩)⟩
      · rintro ⟨⟨d, hd, hs⟩, h2⟩
        refine ⟨mem_sourceNames.2 ⟨d, hd, hs, h2 d hd hs⟩, fun a ha => ?_⟩
        obtain ⟨d, hd, hs, rfl⟩ := mem_sourceNames.1 ha
        exact h2 d hd hs
    rw [← key]
    split
    · rename_i nm hnm
      rw [hnm]
      simp
    · rename_i hnm
      refine ⟨fun h => by simp at h, fun h => absurd h (hnm _)⟩

/-- C35: if the sourcebuses have names, `ValueError` is raised iff there is none or two of them have different names. -/
theorem C35_valueError (devs : List VoltDev) (hn : ∀ d ∈ devs, Sourcebus d → d.net.name ≠ none) :
    chooseSource devs = .error .valueError ↔
      (¬ ∃ d ∈ devs, Sourcebus d) ∨ ∃ d ∈ devs, ∃ d' ∈ devs, Sourcebus d ∧ Sourcebus d' ∧ d.net.name ≠ d'.net.name := by
  have hno : none ∉ sourceNames devs := by
    intro h
    obtain ⟨d, hd, hs, h⟩ := mem_sourceNames.1 h
    exact hn d hd hs h
  constructor
  · intro h
    by_contra hcon
    rw [not_or, not_not] at hcon
    obtain ⟨⟨d, hd, hs⟩, h2⟩ := hcon
    obtain ⟨x, hx⟩ := Option.ne_none_iff_exists'.1 (hn d hd hs)
    have : chooseSource devs = .ok (some x) := (C35_choice devs x).2 ⟨⟨d, hd, hs⟩, fun d' hd' hs' => by
      by_contra hne
      exact h2 ⟨d, hd, d', hd', hs, hs', fun h => hne (by rw [← h, hx])⟩⟩
    rw [this] at h
    simp at h
  · intro h
    unfold chooseSource
    simp only
    rw [if_neg fun h => hno h.1]
    split
    · rename_i nm hnm
      rw [dedup_singleton_iff] at hnm
      exfalso
      rcases h with h | ⟨d, hd, d', hd', hs, hs', hne⟩
      · obtain ⟨d, hd, hs, _⟩ := mem_sourceNames.1 hnm.1
        exact h ⟨d, hd, hs⟩
      · exact hne ((hnm.2 _ (mem_sourceNames.2 ⟨d, hd, hs, rfl⟩)).trans (hnm.2 _ (mem_sourceNames.2 ⟨d', hd', hs', rfl⟩)).symm)
    · rfl

theorem build_ok_iff {objs : List NetObj} {g : Graph} (hg : buildGraph objs = .ok g) (s : String) :
    (∃ n, build objs s = .ok n) ↔ ∃ b, Connects objs s b := by
  constructor
  · rintro ⟨n, hn⟩
    by_contra hno
    rw [C16_keyError objs g hg s fun b hb => hno ⟨b, hb⟩] at hn
    simp at hn
  · rintro hb
    obtain ⟨ot, hbuilt⟩ := buildGraph_built hg
    have hs : s ∈ g.nodes := (hbuilt.nodes s).2 hb
    simp only [build, hg, rebuildDigraph, bfsOrder, hs]
    exact ⟨_, rfl⟩

/-- C35: The constructor without a source uses `s` iff all sourcebuses are called `s` and `s` is connected with something. (It fails
anyway if an object comes before every named object and connects two elements, see C15.) -/
theorem C35_succeeds_iff (devs : List VoltDev) (g : Graph) (hg : buildGraph (devs.map (·.net)) = .ok g) (s : String) :
    (∃ n, construct devs none = .ok (s, n)) ↔ OnlySource devs s ∧ ∃ b, Connects (devs.map (·.net)) s b := by
  rw [← C35_choice, ← build_ok_iff hg s]
  unfold construct
  simp only
  constructor
  · rintro ⟨n, h⟩
    split at h
    · simp at h
    · simp at h
    · rename_i s' hs'
      split at h
      · simp at h
      · rename_i n' hn'
        simp only [Except.ok.injEq, Prod.mk.injEq] at h
        obtain ⟨rfl, rfl⟩ := h
        exact ⟨hs', n', hn'⟩
  · rintro ⟨h1, n, hn⟩
    rw [h1]
    simp only [hn]
    exact ⟨n, rfl⟩

/-- C35: With an explicit source the sourcebuses do not matter: the constructor succeeds iff the source is connected, and uses it. -/
theorem C35_explicit (devs : List VoltDev) (g : Graph) (hg : buildGraph (devs.map (·.net)) = .ok g) (s s' : String) :
    (∃ n, construct devs (some s) = .ok (s', n)) ↔ s' = s ∧ ∃ b, Connects (devs.map (·.net)) s b := by
  rw [← build_ok_iff hg s]
  unfold construct
  simp only
  constructor
  · rintro ⟨n, h⟩
    split at h
    · simp at h
    · rename_i n' hn'
      simp only [Except.ok.injEq, Prod.mk.injEq] at h
      exact ⟨h.1.symm, n', hn'⟩
  · rintro ⟨rfl, n, hn⟩
    rw [hn]
    exact ⟨n, rfl⟩

/-! ### Examples -/

/-- a sourcebus -/
def exBus (x : Option String) : VoltDev where
  net := { cls := "PowerSource", name := x }
  isSourcebus := some true

/-- a line from `a` to `b` -/
def exBusLine : VoltDev where
  net := { cls := "Line", name := some "l", fromEl := some "a", toEl := some "b", isLine := true }

/-- two sourcebuses of the same name are one source -/
example : OnlySource [exBus (some "a"), exBusLine, exBus (some "a")] "a" := by
  refine ⟨⟨exBus (some "a"), by simp, rfl, rfl⟩, fun d hd hs => ?_⟩
  simp only [List.mem_cons, List.not_mem_nil, or_false] at hd
  rcases hd with rfl | rfl | rfl
  · rfl
  · exact absurd hs.1 (by decide)
  · rfl

example : (∃ g, buildGraph ([exBus (some "a"), exBusLine, exBus (some "a")].map (·.net)) = .ok g) ∧
    (construct [exBus (some "a"), exBusLine, exBus (some "a")] none).map (·.1) = .ok "a" := ⟨⟨_, rfl⟩, by decide +kernel⟩

example : chooseSource [exBus (some "a"), exBusLine, exBus (some "b")] = .error .valueError := by decide +kernel

/-- A single sourcebus is not enough: it also has to be an end of an object of the network, otherwise building fails with
`KeyError`. -/
theorem C35_isolated_violated : OnlySource [exBusLine, exBus (some "c")] "c" ∧
    construct [exBusLine, exBus (some "c")] none = .error .keyError := by
  refine ⟨⟨⟨exBus (some "c"), by simp, rfl, rfl⟩, fun d hd hs => ?_⟩, by decide +kernel⟩
  simp only [List.mem_cons, List.not_mem_nil, or_false] at hd
  rcases hd with rfl | rfl
  · exact absurd hs.1 (by decide)
  · rfl

/-- C35: a single sourcebus without a name is not rejected by the choice, but no network is built from it. -/
theorem C35_unnamed (devs : List VoltDev) (d : VoltDev) (hd : devs.filter (fun d => decide (d.net.cls = "PowerSource") && d.isSourcebus == some true) = [d])
    (hn : d.net.name = none) : construct devs none = .error .keyError := by
  have : chooseSource devs = .ok none := by
    unfold chooseSource sourceNames
    rw [hd]
    simp [hn]
  unfold construct
  simp [this]

example : construct [exBusLine, exBus none] none = .error .keyError :=
  C35_unnamed _ (exBus none) (by decide +kernel) rfl

/-- A second sourcebus without a name makes the choice fail with `TypeError` instead of `ValueError`. -/
theorem C35_unnamed_violated : chooseSource [exBusLine, exBus (some "a"), exBus none] = .error .typeError := by decide +kernel

end Ditto.Net
