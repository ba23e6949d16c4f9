import Verif.Lemmas.Split
import Mathlib.Data.List.Chain

/-! C39: splitting a network into feeders. -/
namespace Ditto.Net
open Ditto Ditto.Spec Ditto.Search

theorem closed_of_build {objs : List NetObj} {s : String} {n : Network} (hb : build objs s = .ok n) :
    n.graph.Closed ∧ n.graph.nodes.Nodup := by
  obtain ⟨t, d, ot, hbt, _⟩ := build_tree hb
  exact ⟨fun a b h => (hbt.nodes a).2 ⟨b, (hbt.adj a b).1 h⟩, hbt.nodup⟩

theorem idxOf_nodup {names : List String} (hn : names.Nodup) {i : Nat} {nm : String} (h : names[i]? = some nm) : names.idxOf nm = i := by
  obtain ⟨hlt, rfl⟩ := List.getElem?_eq_some_iff.1 h
  exact hn.idxOf_getElem i hlt

/-- C39: if the names of the feeders are different, and each feeder has nodes in the network, all connected through it, then the splitting
ends. Nodes of the network are only ever added to a feeder, after the given ones, and each at most once. The network of every feeder is
connected, and consists of all nodes that are now in the feeder and all connections between them. A node is mapped to the last
feeder that has it, whatever the order and the paths that networkx chooses. Not proved, since it is false: the first and the last part
without the first condition (`C39_duplicate_violated`), and that a feeder network has all the given nodes (`C39_unknown_violated`). -/
theorem C39_split_partial (objs : List NetObj) (s : String) (n : Network) (hb : build objs s = .ok n) (ops : SplitOps)
    (ho : ops.Correct n.graph) (names : List String) (lists : List (List String)) (hn : names.Nodup) (hlen : names.length = lists.length)
    (hj : ∀ l ∈ lists, n.graph.Joinable l) :
    ∃ f, splitNetwork n.graph ops names lists = some (.ok f) ∧
      List.Forall₂ (fun l l' => n.graph.Grown l l' ∧ n.graph.ConnectedIn l') lists f.lists ∧
      List.Forall₂ (fun (p : String × List String) (q : String × Graph) => q.1 = p.1 ∧ n.graph.IsPart p.2 q.2) (names.zip f.lists) f.networks ∧
      ∀ x nm, f.feederOf x = some nm ↔ ∃ i l, names[i]? = some nm ∧ f.lists[i]? = some l ∧ x ∈ n.graph.nodes ∧ x ∈ l ∧
        ∀ (j : Nat) (l' : List String), i < j → f.lists[j]? = some l' → x ∉ l' := by
  obtain ⟨hc, _⟩ := closed_of_build hb
  obtain ⟨ls, h1, h2⟩ := splitFeeders_ok (g := n.graph) (ops := ops) (names := names) (P := n.graph.Joinable)
    (Q := fun l l' => n.graph.Grown l l' ∧ n.graph.ConnectedIn l')
    (fun cpt nm lists l hnm hl hP => by
      rw [idxOf_nodup hn hnm]
      obtain ⟨l', h1, h2⟩ := (splitLoop_spec hc ho _ lists l hl hP.1 (missing_le _ _)).1 hP
      exact ⟨l', h1, h2⟩)
    names [] [] lists [] [] rfl rfl hlen.symm hj
  refine ⟨⟨ls, (names.zip ls).map fun p => (p.1, n.graph.induced p.2), assignments n.graph names ls⟩, ?_, h2, ?_, fun x nm => ?_⟩
  · unfold splitNetwork
    rw [if_neg (by simpa using hlen)]
    exact h1
  · simp only [List.nil_append]
    rw [List.forall₂_map_right_iff]
    exact List.forall₂_same.2 fun p _ => ⟨rfl, induced_part _ _⟩
  · unfold Feeders.feederOf
    exact find_assignments x names ls (by rw [hlen, h2.length_eq]) nm

/-- C39: otherwise a feeder has no node in the network, or some of its nodes are not connected, and this is reported. -/
theorem C39_rejects (objs : List NetObj) (s : String) (n : Network) (hb : build objs s = .ok n) (ops : SplitOps)
    (ho : ops.Correct n.graph) (names : List String) (lists : List (List String)) (hn : names.Nodup) (hlen : names.length = lists.length)
    (hj : ¬ ∀ l ∈ lists, n.graph.Joinable l) :
    splitNetwork n.graph ops names lists = some (.error .networkXPointlessConcept) ∨
    splitNetwork n.graph ops names lists = some (.error .networkXNoPath) := by
  obtain ⟨hc, _⟩ := closed_of_build hb
  obtain ⟨e, h1, h2⟩ := splitFeeders_error (g := n.graph) (ops := ops) (names := names) (P := n.graph.Joinable)
    (E := fun e => e = .networkXPointlessConcept ∨ e = .networkXNoPath)
    (fun cpt nm lists l hnm hl hP => by
      rw [idxOf_nodup hn hnm]
      obtain ⟨l', h1, h2⟩ := (splitLoop_spec hc ho _ lists l hl hP.1 (missing_le _ _)).1 hP
      exact ⟨l', h1⟩)
    (fun cpt nm lists l hnm hl hP => by
      rw [idxOf_nodup hn hnm]
      by_cases hx : ∃ x ∈ n.graph.nodes, x ∈ l
      · exact ⟨_, (splitLoop_spec hc ho _ lists l hl hx (missing_le _ _)).2 hP, .inr rfl⟩
      · exact ⟨_, splitLoop_none hl hx, .inl rfl⟩)
    names [] [] lists [] [] rfl rfl hlen.symm hj
  unfold splitNetwork
  rw [if_neg (by simpa using hlen)]
  rcases h2 with rfl | rfl
  · exact .inl h1
  · exact .inr h1

/-- C39: if all feeders are already connected then none is changed, even with repeated names. -/
theorem C39_unchanged (objs : List NetObj) (s : String) (n : Network) (hb : build objs s = .ok n) (ops : SplitOps)
    (names : List String) (lists : List (List String)) (hlen : names.length = lists.length)
    (hl : ∀ l ∈ lists, (∃ x ∈ n.graph.nodes, x ∈ l) ∧ n.graph.ConnectedIn l) :
    ∃ f, splitNetwork n.graph ops names lists = some (.ok f) ∧ f.lists = lists := by
  obtain ⟨hc, _⟩ := closed_of_build hb
  obtain ⟨ls, h1, h2⟩ := splitFeeders_ok (g := n.graph) (ops := ops) (names := names)
    (P := fun l => (∃ x ∈ n.graph.nodes, x ∈ l) ∧ n.graph.ConnectedIn l) (Q := fun l l' => l = l')
    (fun cpt nm lists l hnm hl hP => by
      refine ⟨l, ?_, rfl⟩
      rw [splitLoop_connected hc hl hP.1 hP.2]
      simp only [Option.some.injEq, Except.ok.injEq]
      apply List.ext_getElem?
      intro j
      by_cases hj : cpt = j
      · subst hj
        rw [List.getElem?_set_self (List.getElem?_eq_some_iff.1 hl).1, hl]
      · rw [List.getElem?_set_ne hj])
    names [] [] lists [] [] rfl rfl hlen.symm hl
  refine ⟨⟨ls, (names.zip ls).map fun p => (p.1, n.graph.induced p.2), assignments n.graph names ls⟩, ?_, ?_⟩
  · unfold splitNetwork
    rw [if_neg (by simpa using hlen)]
    exact h1
  · exact (List.forall₂_eq_eq_eq ▸ h2 : lists = ls).symm

/-- C39: as many names as lists are needed. -/
theorem C39_lengths (g : Graph) (ops : SplitOps) (names : List String) (lists : List (List String)) (h : names.length ≠ lists.length) :
    splitNetwork g ops names lists = some (.error .valueError) := by
  unfold splitNetwork
  rw [if_pos h]

/-! ### networkx can be like this -/

section
open Classical

/-- classes of an equivalence relation on a list -/
noncomputable def classes (R : String → String → Prop) : Nat → List String → List (List String)
  | 0, _ => []
  | _, [] => []
  | k + 1, x :: xs => (x :: xs.filter fun y => R x y) :: classes R k (xs.filter fun y => ¬ R x y)

theorem classes_spec {R : String → String → Prop} (hr : ∀ a, R a a) (hs : ∀ a b, R a b → R b a) (ht : ∀ a b c, R a b → R b c → R a c) :
    ∀ (k : Nat) (l : List String), l.length ≤ k → l.Nodup → (∀ x y, R x y → x ∈ l → y ∈ l) →
      (∀ c ∈ classes R k l, c ≠ []) ∧ (classes R k l).flatten.Nodup ∧ (∀ x, x ∈ (classes R k l).flatten ↔ x ∈ l) ∧
      ∀ c ∈ classes R k l, ∀ x ∈ c, ∀ y, y ∈ c ↔ R x y := by
  intro k
  induction k with
  | zero =>
    intro l hl _ _
    have : l = [] := by simpa using hl
    subst this
    simp [classes]
  | succ k ih =>
    intro l hl hn hc
    cases l with
    | nil => simp [classes]
    | cons x xs =>
      obtain ⟨hx, hn⟩ := List.nodup_cons.1 hn
      have hlen : (xs.filter fun y => decide (¬ R x y)).length ≤ k := by
        have := List.length_filter_le (fun y => decide (¬ R x y)) xs
        simp only [List.length_cons] at hl
        omega
      obtain ⟨h1, h2, h3, h4⟩ := ih (xs.filter fun y => decide (¬ R x y)) hlen (hn.filter _) (by
        intro a b hab ha
        simp only [List.mem_filter, decide_eq_true_eq] at ha ⊢
        have hb := hc a b hab (by simp [ha.1])
        have hnb : ¬ R x b := fun h => ha.2 (ht _ _ _ h (hs _ _ hab))
        rcases List.mem_cons.1 hb with rfl | hb
        · exact absurd (hr b) hnb
        · exact ⟨hb, hnb⟩)
      have hcls : classes R (k + 1) (x :: xs) = (x :: xs.filter fun y => decide (R x y)) :: classes R k (xs.filter fun y => decide (¬ R x y)) := rfl
      have hin : ∀ y, y ∈ x :: xs.filter (fun y => decide (R x y)) ↔ R x y := by
        intro y
        simp only [List.mem_cons, List.mem_filter, decide_eq_true_eq]
        constructor
        · rintro (rfl | h)
          · exact hr y
          · exact h.2
        · intro h
          rcases List.mem_cons.1 (hc x y h (by simp)) with rfl | hy
          · exact .inl rfl
          · exact .inr ⟨hy, h⟩
      rw [hcls]
      refine ⟨?_, ?_, ?_, ?_⟩
      · intro c hcm
        rcases List.mem_cons.1 hcm with rfl | hcm
        · simp
        · exact h1 c hcm
      · rw [List.flatten_cons, List.nodup_append]
        refine ⟨List.nodup_cons.2 ⟨fun h => hx (List.mem_filter.1 h).1, hn.filter _⟩, h2, fun a ha b hb => ?_⟩
        rintro rfl
        have := (h3 a).1 hb
        simp only [List.mem_filter, decide_eq_true_eq] at this
        exact this.2 ((hin a).1 ha)
      · intro y
        rw [List.flatten_cons, List.mem_append, hin, h3]
        simp only [List.mem_cons, List.mem_filter, decide_eq_true_eq]
        constructor
        · rintro (h | h)
          · simpa using hc x y h (by simp)
          · exact .inr h.1
        · rintro (rfl | h)
          · exact .inl (hr y)
          · by_cases hxy : R x y
            · exact .inl hxy
            · exact .inr ⟨h, hxy⟩
      · intro c hcm
        rcases List.mem_cons.1 hcm with rfl | hcm
        · intro a ha y
          have hxa := (hin a).1 ha
          rw [hin]
          exact ⟨fun h => ht _ _ _ (hs _ _ hxa) h, fun h => ht _ _ _ hxa h⟩
        · exact h4 c hcm

/-- For every network there are choices as assumed in the theorems. -/
theorem C39_choices (objs : List NetObj) (s : String) (n : Network) (hb : build objs s = .ok n) : ∃ ops : SplitOps, ops.Correct n.graph := by
  obtain ⟨hc, hnd⟩ := closed_of_build hb
  have hp : ∀ a b, ∃ p, Reach n.graph.Adj a b → n.graph.IsPath a b p := by
    intro a b
    by_cases h : Reach n.graph.Adj a b
    · obtain ⟨l, h1, h2⟩ := List.exists_isChain_cons_of_relationReflTransGen h
      exact ⟨a :: l, fun _ => ⟨rfl, by rw [List.getLast?_eq_some_getLast (by simp), h2], h1⟩⟩
    · exact ⟨[], fun h' => absurd h' h⟩
  choose path hpath using hp
  have key := fun l => classes_spec (R := Reach (n.graph.AdjIn l)) (fun _ => .refl) (fun _ _ => reach_back (adjIn_symm _ _))
    (fun _ _ _ h h' => h.trans h') (n.graph.induced l).nodes.length (n.graph.induced l).nodes (Nat.le_refl _)
    (hnd.filter _) (fun x y h hx => by
      cases h with
      | refl => exact hx
      | tail _ h => exact (induced_nodes _ _ _).2 ⟨hc _ _ (n.graph.adj_symm h.1), h.2.2⟩)
  refine ⟨⟨fun l => classes (Reach (n.graph.AdjIn l)) (n.graph.induced l).nodes.length (n.graph.induced l).nodes, path⟩,
    fun l => (key l).1, fun l => (key l).2.1, fun l x => ?_, fun l => (key l).2.2.2, hpath⟩
  rw [(key l).2.2.1, induced_nodes]

end

/-! ### Examples and violations -/

/-- lines `src - a - b - c` and `a - d` -/
def exSplit : List NetObj :=
  [{ cls := "Line", name := some "l1", fromEl := some "src", toEl := some "a", isLine := true },
   { cls := "Line", name := some "l2", fromEl := some "a", toEl := some "b", isLine := true },
   { cls := "Line", name := some "l3", fromEl := some "b", toEl := some "c", isLine := true },
   { cls := "Line", name := some "l4", fromEl := some "a", toEl := some "d", isLine := true }]

def exSplitGraph : Graph := ⟨["a", "src", "b", "c", "d"],
  [⟨"src", "a", some ("Line", some "l1"), some 0⟩, ⟨"a", "b", some ("Line", some "l2"), some 0⟩,
   ⟨"b", "c", some ("Line", some "l3"), some 0⟩, ⟨"a", "d", some ("Line", some "l4"), some 0⟩]⟩

theorem exSplit_build : (build exSplit "src").map (·.graph) = .ok exSplitGraph := by decide +kernel

/-- choices of networkx for the lists below -/
def exSplitOps : SplitOps where
  comps l :=
    if l = ["src", "c"] then [["c"], ["src"]]
    else if l = ["d", "x", "b"] then [["d"], ["b"]]
    else [l]
  path a b :=
    if a = "c" ∧ b = "src" then ["c", "b", "a", "src"]
    else if a = "d" ∧ b = "b" then ["d", "a", "b"]
    else []

/-- two feeders, both completed; `a` and `b` end in the second one. `x` is not in the network. -/
def exSplitResult : Feeders where
  lists := [["src", "c", "b", "a"], ["d", "x", "b", "a"]]
  networks :=
    [("f1", ⟨["a", "src", "b", "c"], [⟨"src", "a", some ("Line", some "l1"), some 0⟩, ⟨"a", "b", some ("Line", some "l2"), some 0⟩,
        ⟨"b", "c", some ("Line", some "l3"), some 0⟩]⟩),
     ("f2", ⟨["a", "b", "d"], [⟨"a", "b", some ("Line", some "l2"), some 0⟩, ⟨"a", "d", some ("Line", some "l4"), some 0⟩]⟩)]
  mapping := [("a", "f1"), ("src", "f1"), ("b", "f1"), ("c", "f1"), ("a", "f2"), ("b", "f2"), ("d", "f2")]

example : splitNetwork exSplitGraph exSplitOps ["f1", "f2"] [["src", "c"], ["d", "x", "b"]] = some (.ok exSplitResult) := by
  decide +kernel

example : exSplitResult.feederOf "a" = some "f2" ∧ exSplitResult.feederOf "src" = some "f1" ∧ exSplitResult.feederOf "x" = none := by
  decide +kernel

/-- the lists of the example can be connected -/
example : exSplitGraph.Joinable ["d", "x", "b"] := by
  refine ⟨⟨"d", by decide, by decide⟩, ?_⟩
  have hda : exSplitGraph.Adj "d" "a" := ⟨⟨"a", "d", some ("Line", some "l4"), some 0⟩, by decide, by decide⟩
  have hab : exSplitGraph.Adj "a" "b" := ⟨⟨"a", "b", some ("Line", some "l2"), some 0⟩, by decide, by decide⟩
  have hdb : Reach exSplitGraph.Adj "d" "b" := (Relation.ReflTransGen.single hda).tail hab
  have hx : "x" ∉ exSplitGraph.nodes := by decide
  intro a ha hal b hb hbl
  simp only [List.mem_cons, List.not_mem_nil, or_false] at hal hbl
  rcases hal with rfl | rfl | rfl <;> rcases hbl with rfl | rfl | rfl
  all_goals first | exact .refl | exact hdb | exact reach_back (fun _ _ => exSplitGraph.adj_symm) hdb | exact absurd ha hx | exact absurd hb hx

/-- connected nodes are a single component -/
theorem comps_one {g : Graph} {ops : SplitOps} (ho : ops.Correct g) {l : List String} (hl : ∃ x ∈ g.nodes, x ∈ l)
    (hn : g.ConnectedIn l) : ∃ c, ops.comps l = [c] := by
  have hne := ho.nonempty l
  have hnd := ho.nodup l
  have hns := ho.nodes l
  have hsame := ho.same l
  generalize ops.comps l = cs at *
  match cs with
  | [] =>
    obtain ⟨x, hx⟩ := hl
    have := (hns x).2 hx
    simp at this
  | [c] => exact ⟨c, rfl⟩
  | [] :: c :: rest => exact absurd rfl (hne [] (by simp))
  | (a :: c) :: [] :: rest => exact absurd rfl (hne [] (by simp))
  | (a :: c) :: (b :: d) :: rest =>
    exfalso
    have ha := (hns a).1 (by simp)
    have hb := (hns b).1 (by simp)
    have hm := (hsame (a :: c) (by simp) a (by simp) b).2 (hn a ha.1 ha.2 b hb.1 hb.2)
    rw [List.flatten_cons, List.nodup_append] at hnd
    exact hnd.2.2 b hm b (by simp) rfl

theorem exSplit_joinable : exSplitGraph.Joinable ["src", "c"] := by
  refine ⟨⟨"c", by decide, by decide⟩, ?_⟩
  have h1 : exSplitGraph.Adj "src" "a" := ⟨⟨"src", "a", some ("Line", some "l1"), some 0⟩, by decide, by decide⟩
  have h2 : exSplitGraph.Adj "a" "b" := ⟨⟨"a", "b", some ("Line", some "l2"), some 0⟩, by decide, by decide⟩
  have h3 : exSplitGraph.Adj "b" "c" := ⟨⟨"b", "c", some ("Line", some "l3"), some 0⟩, by decide, by decide⟩
  have hr : Reach exSplitGraph.Adj "src" "c" := ((Relation.ReflTransGen.single h1).tail h2).tail h3
  intro a ha hal b hb hbl
  simp only [List.mem_cons, List.not_mem_nil, or_false] at hal hbl
  rcases hal with rfl | rfl <;> rcases hbl with rfl | rfl
  all_goals first | exact .refl | exact hr | exact reach_back (fun _ _ => exSplitGraph.adj_symm) hr

theorem exSplit_connected : exSplitGraph.ConnectedIn ["a", "src"] := by
  have h1 : exSplitGraph.AdjIn ["a", "src"] "src" "a" :=
    ⟨⟨⟨"src", "a", some ("Line", some "l1"), some 0⟩, by decide, by decide⟩, by decide, by decide⟩
  intro a ha hal b hb hbl
  simp only [List.mem_cons, List.not_mem_nil, or_false] at hal hbl
  rcases hal with rfl | rfl <;> rcases hbl with rfl | rfl
  all_goals first | exact .refl | exact .single h1 | exact .single (adjIn_symm _ _ _ _ h1)

theorem joinable_of_connected {g : Graph} {l : List String} (hl : ∃ x ∈ g.nodes, x ∈ l) (h : g.ConnectedIn l) : g.Joinable l :=
  ⟨hl, fun a ha hal b hb hbl => reach_mono (fun _ _ h => h.1) (h a ha hal b hb hbl)⟩

/-- C39 is violated: of two feeders with the same name only the first one is ever completed. If the second one is not connected then
the components of the first one are looked at, of which there is only one (StopIteration). -/
theorem C39_duplicate_violated : ∃ objs s n lists, build objs s = .ok n ∧ (∀ l ∈ lists, n.graph.Joinable l) ∧ ∀ ops, ops.Correct n.graph →
    splitNetwork n.graph ops ["f", "f"] lists = some (.error .stopIteration) := by
  obtain ⟨n, hb, hg⟩ : ∃ n, build exSplit "src" = .ok n ∧ n.graph = exSplitGraph := by
    have h := exSplit_build
    cases hb : build exSplit "src" with
    | error e => rw [hb] at h; simp [Except.map] at h
    | ok n => rw [hb] at h; simp only [Except.map, Except.ok.injEq] at h; exact ⟨n, rfl, h⟩
  refine ⟨exSplit, "src", n, [["a", "src"], ["src", "c"]], hb, ?_, fun ops ho => ?_⟩
  · rw [hg]
    intro l hl
    simp only [List.mem_cons, List.not_mem_nil, or_false] at hl
    rcases hl with rfl | rfl
    · exact joinable_of_connected ⟨"a", by decide, by decide⟩ exSplit_connected
    · exact exSplit_joinable
  · obtain ⟨hc, _⟩ := closed_of_build hb
    rw [hg] at hc ho ⊢
    obtain ⟨c, hc1⟩ := comps_one ho (l := ["a", "src"]) ⟨"a", by decide, by decide⟩ exSplit_connected
    have h0 : splitLoop exSplitGraph ops 0 (["f", "f"].idxOf "f") (exSplitGraph.nodes.length + 1) [["a", "src"], ["src", "c"]] =
        some (.ok [["a", "src"], ["src", "c"]]) :=
      splitLoop_connected hc (l := ["a", "src"]) rfl ⟨"a", by decide, by decide⟩ exSplit_connected
    have h1 : splitLoop exSplitGraph ops 1 (["f", "f"].idxOf "f") (exSplitGraph.nodes.length + 1) [["a", "src"], ["src", "c"]] =
        some (.error .stopIteration) := by
      have hcon : connectedGraph (exSplitGraph.induced ["src", "c"]) = .ok false := by decide +kernel
      have hix : (["f", "f"] : List String).idxOf "f" = 0 := by decide
      have hlen : exSplitGraph.nodes.length + 1 = 5 + 1 := rfl
      rw [hix, hlen, splitLoop]
      simp only [List.getElem?_cons_succ, List.getElem?_cons_zero, hcon, connectComponents, hc1]
    unfold splitNetwork
    rw [if_neg (by decide)]
    unfold splitFeeders splitFeeder
    simp only [h0, List.getElem?_cons_zero]
    unfold splitFeeders splitFeeder
    simp only [Nat.zero_add, h1]

/-- C39 is violated: a given node that is not in the network is in no feeder network. -/
theorem C39_unknown_violated : ∃ objs s n lists, build objs s = .ok n ∧ (∀ l ∈ lists, "x" ∈ l) ∧ ∀ ops, ops.Correct n.graph →
    ∃ f, splitNetwork n.graph ops ["f1"] lists = some (.ok f) ∧ f.networks ≠ [] ∧ ∀ q ∈ f.networks, "x" ∉ q.2.nodes := by
  obtain ⟨n, hb, hg⟩ : ∃ n, build exSplit "src" = .ok n ∧ n.graph = exSplitGraph := by
    have h := exSplit_build
    cases hb : build exSplit "src" with
    | error e => rw [hb] at h; simp [Except.map] at h
    | ok n => rw [hb] at h; simp only [Except.map, Except.ok.injEq] at h; exact ⟨n, rfl, h⟩
  refine ⟨exSplit, "src", n, [["src", "x", "c"]], hb, by simp, fun ops ho => ?_⟩
  have hx : "x" ∉ n.graph.nodes := by rw [hg]; decide
  obtain ⟨f, h1, h2, h3, _⟩ := C39_split_partial exSplit "src" n hb ops ho ["f1"] [["src", "x", "c"]] (by simp) rfl (by
    intro l hl
    simp only [List.mem_cons, List.not_mem_nil, or_false] at hl
    subst hl
    rw [hg] at hx ⊢
    refine ⟨⟨"c", by decide, by decide⟩, fun a ha hal b hb hbl => ?_⟩
    refine exSplit_joinable.2 a ha ?_ b hb ?_
    · simp only [List.mem_cons, List.not_mem_nil, or_false] at hal ⊢
      rcases hal with rfl | rfl | rfl
      · simp
      · exact absurd ha hx
      · simp
    · simp only [List.mem_cons, List.not_mem_nil, or_false] at hbl ⊢
      rcases hbl with rfl | rfl | rfl
      · simp
      · exact absurd hb hx
      · simp)
  have hlen := h2.length_eq
  refine ⟨f, h1, fun hn => ?_, fun q hq => ?_⟩
  · have := h3.length_eq
    rw [hn, List.length_zip, ← hlen] at this
    simp at this
  · obtain ⟨i, hi, rfl⟩ := List.getElem_of_mem hq
    have := (List.forall₂_iff_get.1 h3).2 i (by rw [h3.length_eq]; exact hi) hi
    exact fun hm => hx ((this.2.1 "x").1 hm).1

end Ditto.Net
