import Verif.Spec.NodeVoltages
import Verif.Props.Upstream

/-! C128: voltages of nodes from the transformer above them. -/
namespace Ditto.NodeVolt
open Ditto Ditto.Net Ditto.NodeVolt.Spec

theorem mem_diNodes {d : List Edge} {x : String} : x ∈ diNodes d ↔ ∃ e ∈ d, e.u = x ∨ e.v = x := by
  unfold diNodes
  rw [List.mem_flatMap]
  constructor
  · rintro ⟨e, he, hm⟩
    refine ⟨e, he, ?_⟩
    simp only [List.mem_cons, List.not_mem_nil, or_false] at hm
    rcases hm with rfl | rfl
    · exact .inl rfl
    · exact .inr rfl
  · rintro ⟨e, he, hm⟩
    refine ⟨e, he, ?_⟩
    rcases hm with rfl | rfl <;> simp

theorem route_mem {d : List Edge} {s x t : String} (h : Feeds d s t x) : x ∈ diNodes d := by
  obtain ⟨pre, e, post, hr, _, _⟩ := h
  generalize hl : pre ++ e :: post = l at hr
  cases hr with
  | nil => simp at hl
  | snoc _ he _ => exact mem_diNodes.2 ⟨_, he, .inr rfl⟩

theorem feeds_eq {objs : List NetObj} {s : String} {n : Network} (h : build objs s = .ok n) {x t : String}
    (hf : Feeds n.digraph s t x) : upstreamTransformer n.digraph x = some (.ok (some t)) := by
  have hx := route_mem hf
  obtain ⟨pre, e, post, hr, he, hp⟩ := hf
  exact C18_nearest_partial objs s n h x hx pre post e _ hr he hp

theorem nodeVoltage_fine {objs : List NetObj} {s : String} {n : Network} (h : build objs s = .ok n) {names : Named}
    (hno : names none = none) {a : VoltNode} (ha : Fine n.digraph s names a) :
    ∃ b, nodeVoltage n.digraph names a = .ok b ∧ Settled n.digraph s names a b := by
  cases hn : a.name with
  | none =>
    refine ⟨a, by simp [nodeVoltage, hn], rfl, ?_, fun _ _ _ => rfl, fun _ => rfl⟩
    intro x t v hx; rw [hn] at hx; cases hx
  | some x =>
    obtain ⟨hm, hc⟩ := ha x hn
    have hx := mem_diNodes.2 hm
    rcases hc with ⟨t, v, hf, ws, hw⟩ | ⟨es, hr, hp⟩
    · have hu := feeds_eq h hf
      refine ⟨{ a with nominal := v }, by simp [nodeVoltage, hn, hu, hw], rfl, ?_, ?_, ?_⟩
      · intro x' t' v' hx' hf' ⟨ws', hw'⟩
        rw [hn] at hx'; cases hx'
        have := feeds_eq h hf'
        rw [hu] at this
        simp only [Option.some.injEq, Except.ok.injEq] at this
        subst this
        rw [hw] at hw'
        simp only [Option.some.injEq] at hw'
        exact (by simpa using (List.append_inj' hw' rfl).2)
      · intro x' hx' ⟨es, hr, hp⟩
        rw [hn] at hx'; cases hx'
        have := C18_none_partial objs s n h x hx es hr hp
        rw [hu] at this; simp at this
      · intro hx'; rw [hn] at hx'; cases hx'
    · have hu := C18_none_partial objs s n h x hx es hr hp
      refine ⟨a, by simp [nodeVoltage, hn, hu, hno], rfl, ?_, fun _ _ _ => rfl, fun _ => rfl⟩
      intro x' t' v' hx' hf' _
      rw [hn] at hx'; cases hx'
      have := feeds_eq h hf'
      rw [hu] at this; simp at this

/-- C128: if all nodes are connected with the source, either below a transformer with windings or with lines only above them, then the function ends, every node
below a transformer has the voltage of the last winding of the nearest one, and the others keep theirs. No object is without name. Missing: networks with a power
source as their source, see below. -/
theorem C128_secondary_partial (objs : List NetObj) (s : String) (n : Network) (h : build objs s = .ok n) (names : Named)
    (hno : names none = none) (nodes : List VoltNode) (hn : ∀ a ∈ nodes, Fine n.digraph s names a) :
    ∃ out, setNodeVoltages n.digraph names nodes = (out, none) ∧ List.Forall₂ (Settled n.digraph s names) nodes out := by
  induction nodes with
  | nil => exact ⟨[], rfl, .nil⟩
  | cons a as ih =>
    obtain ⟨b, hb, hs⟩ := nodeVoltage_fine h hno (hn a (by simp))
    obtain ⟨out, ho, hf⟩ := ih fun a' ha' => hn a' (by simp [ha'])
    exact ⟨b :: out, by simp [setNodeVoltages, hb, ho], .cons hs hf⟩

theorem nodeVoltage_from {d : List Edge} {names : Named} {a b : VoltNode} (h : nodeVoltage d names a = .ok b) :
    b.name = a.name ∧ (b = a ∨ ∃ t ws, names t = some (some (ws ++ [b.nominal]))) := by
  unfold nodeVoltage at h
  split at h
  · cases h; exact ⟨rfl, .inl rfl⟩
  · split at h
    · cases h; exact ⟨rfl, .inl rfl⟩
    · cases h
    · rename_i t _
      split at h
      · cases h; exact ⟨rfl, .inl rfl⟩
      · cases h
      · rename_i ws hw
        split at h
        · cases h
        · rename_i v hv
          cases h
          obtain ⟨l, rfl⟩ := List.getLast?_eq_some_iff.1 hv
          exact ⟨rfl, .inr ⟨t, l, hw⟩⟩

/-- C128: whatever happens, also if an exception ends the function, no node is added, lost or renamed, and a node that is changed has the voltage of the last
winding of some transformer. -/
theorem C128_only (d : List Edge) (names : Named) (nodes : List VoltNode) :
    List.Forall₂ (fun a b => b.name = a.name ∧ (b = a ∨ ∃ t ws, names t = some (some (ws ++ [b.nominal])))) nodes
      (setNodeVoltages d names nodes).1 := by
  induction nodes with
  | nil => exact .nil
  | cons a as ih =>
    unfold setNodeVoltages
    split
    · exact List.forall₂_same.2 fun x _ => ⟨rfl, .inl rfl⟩
    · rename_i b hb
      exact .cons (nodeVoltage_from hb) ih

theorem stops {d : List Edge} {names : Named} {a : VoltNode} {e : PyErr} (h : nodeVoltage d names a = .error e) (pre post : List VoltNode) :
    (setNodeVoltages d names (pre ++ a :: post)).2 ≠ none ∧
      ((setNodeVoltages d names (pre ++ a :: post)).1).drop pre.length = a :: post := by
  induction pre with
  | nil => simp [setNodeVoltages, h]
  | cons p pre ih =>
    simp only [List.cons_append, setNodeVoltages]
    split
    · simp
    · simpa using ih

/-- C128 is violated: a node that is not connected with the source ends the function with an exception, and neither it nor the nodes after it get a voltage. -/
theorem C128_island_violated (d : List Edge) (names : Named) (x : String) (v : Option ℚ) (hx : ∀ e ∈ d, e.u ≠ x ∧ e.v ≠ x)
    (pre post : List VoltNode) :
    (setNodeVoltages d names (pre ++ ⟨some x, v⟩ :: post)).2 ≠ none ∧
      ((setNodeVoltages d names (pre ++ ⟨some x, v⟩ :: post)).1).drop pre.length = ⟨some x, v⟩ :: post := by
  have : x ∉ diNodes d := by
    rw [mem_diNodes]
    rintro ⟨e, he, hm⟩
    exact hm.elim (hx e he).1 (hx e he).2
  exact stops (e := .networkXError) (by simp [nodeVoltage, C18_unknown d x this]) pre post

/-- C128 is violated: so does a node between the power source and the first transformer, as there is no equipment on the edge of the power source; the `KeyError` is
not raised where it is caught. -/
theorem C128_head_violated (objs : List NetObj) (s : String) (n : Network) (h : build objs s = .ok n) (names : Named) (x : String) (v : Option ℚ)
    (e : Edge) (es : List Edge) (hr : Route n.digraph s (e :: es) x) (he : e.equip = none) (hp : ∀ e' ∈ es, e'.Plain) (pre post : List VoltNode) :
    (setNodeVoltages n.digraph names (pre ++ ⟨some x, v⟩ :: post)).2 ≠ none ∧
      ((setNodeVoltages n.digraph names (pre ++ ⟨some x, v⟩ :: post)).1).drop pre.length = ⟨some x, v⟩ :: post := by
  have hx : x ∈ diNodes n.digraph := by
    generalize hl : e :: es = l at hr
    cases hr with
    | nil => simp at hl
    | snoc _ he _ => exact mem_diNodes.2 ⟨_, he, .inr rfl⟩
  exact stops (e := .keyError) (by simp [nodeVoltage, C18_keyError objs s n h x hx [] es e hr he hp]) pre post

/-- the transformer t1 with 7200 and 240 V -/
def exNames : Named := fun k => if k = some "t1" then some (some [some 7200, some 240]) else none

/-- C128 is violated: if the last winding has no voltage, the node loses the one it had. -/
theorem C128_erased_violated : ∃ n, build exObjs "src" = .ok n ∧
    setNodeVoltages n.digraph (fun k => if k = some "t1" then some (some [some 7200, none]) else none) [⟨some "c", some 240⟩] =
      ([⟨some "c", none⟩], none) := ⟨_, by rfl, by decide +kernel⟩

/-- C128 is violated: a transformer without name gives its voltage to nodes that have no transformer above them, since the name `None` is looked up. -/
theorem C128_unnamed_violated : ∃ n, build exObjs "a" = .ok n ∧
    setNodeVoltages n.digraph (fun k => if k = none then some (some [some 7200, some 240]) else none) [⟨some "d", some 7200⟩] =
      ([⟨some "d", some 240⟩], none) := ⟨_, by rfl, by decide +kernel⟩

/-- seen from bus a, node c is below the transformer and d is not -/
example : ∃ n, build exObjs "a" = .ok n ∧ exNames none = none ∧
    (∀ x ∈ [(⟨some "c", none⟩ : VoltNode), ⟨some "d", some 7200⟩, ⟨none, some 1⟩], Fine n.digraph "a" exNames x) ∧
    setNodeVoltages n.digraph exNames [⟨some "c", none⟩, ⟨some "d", some 7200⟩, ⟨none, some 1⟩] =
      ([⟨some "c", some 240⟩, ⟨some "d", some 7200⟩, ⟨none, some 1⟩], none) := by
  refine ⟨_, by rfl, rfl, ?_, by decide +kernel⟩
  intro x hx
  simp only [List.mem_cons, List.not_mem_nil, or_false] at hx
  rcases hx with rfl | rfl | rfl
  · intro y hy
    cases hy
    refine ⟨by decide +kernel, .inl ⟨"t1", some 240, ⟨[⟨"a", "b", some ("Line", some "l1"), none⟩],
      ⟨"b", "c", some ("PowerTransformer", some "t1"), none⟩, [], ?_, rfl, by simp⟩, [some 7200], rfl⟩⟩
    exact Route.snoc (es := [_]) (u := "b") (e := ⟨"b", "c", some ("PowerTransformer", some "t1"), none⟩)
      (Route.snoc (es := []) (e := ⟨"a", "b", some ("Line", some "l1"), none⟩) .nil (by decide +kernel) rfl) (by decide +kernel) rfl
  · intro y hy
    cases hy
    refine ⟨by decide +kernel, .inr ⟨[⟨"a", "d", some ("Line", some "l3"), none⟩], ?_, ?_⟩⟩
    · exact Route.snoc (es := []) (e := ⟨"a", "d", some ("Line", some "l3"), none⟩) .nil (by decide +kernel) rfl
    · intro e he
      simp only [List.mem_singleton] at he
      subst he
      exact ⟨_, _, rfl, by decide⟩
  · intro y hy
    cases hy

/-- an island and a node at the power source end the function; node c, which comes later, has no voltage -/
example : ∃ n, build exObjs "src" = .ok n ∧
    setNodeVoltages n.digraph exNames [⟨some "c", none⟩, ⟨some "e", none⟩, ⟨some "c", none⟩] =
      ([⟨some "c", some 240⟩, ⟨some "e", none⟩, ⟨some "c", none⟩], some .networkXError) ∧
    setNodeVoltages n.digraph exNames [⟨some "d", none⟩, ⟨some "c", none⟩] = ([⟨some "d", none⟩, ⟨some "c", none⟩], some .keyError) :=
  ⟨_, by rfl, by decide +kernel, by decide +kernel⟩

/-- node d has the power source and a line above it, as in `C128_head_violated`; node e is on no edge, as in `C128_island_violated` -/
example : ∃ n, build exObjs "src" = .ok n ∧ (∀ e ∈ n.digraph, e.u ≠ "e" ∧ e.v ≠ "e") ∧
    ∃ e es, Route n.digraph "src" (e :: es) "d" ∧ e.equip = none ∧ ∀ e' ∈ es, e'.Plain := by
  refine ⟨_, by rfl, by decide +kernel, ⟨"src", "a", none, none⟩, [⟨"a", "d", some ("Line", some "l3"), none⟩], ?_, rfl, ?_⟩
  · exact Route.snoc (es := [_]) (u := "a") (e := ⟨"a", "d", some ("Line", some "l3"), none⟩)
      (Route.snoc (es := []) (e := ⟨"src", "a", none, none⟩) .nil (by decide +kernel) rfl) (by decide +kernel) rfl
  · intro e he
    simp only [List.mem_singleton] at he
    subst he
    exact ⟨_, _, rfl, by decide⟩

end Ditto.NodeVolt
