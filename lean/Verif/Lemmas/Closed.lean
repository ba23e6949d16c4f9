import Verif.Model.Consistency
import Verif.Spec.ClosedLink
import Verif.Props.Switches

/-! The graph without open devices, and what is reachable in it. -/
namespace Ditto.Net
open Ditto Ditto.Search Ditto.Spec

/-- the nodes reached by the search -/
theorem mem_reachable {g : Graph} (hcl : ∀ a b, g.Adj a b → b ∈ g.nodes) {s x : String} (hs : s ∈ g.nodes) :
    x ∈ reachable g s ↔ Reach g.Adj s x := by
  obtain ⟨d, ht⟩ := bfs_tree g.neighbors g.nodes (fun u _ v hv => hcl u v (mem_neighbors.1 hv)) s hs
  unfold reachable
  rw [ht.reach]
  have : (fun u v => v ∈ g.neighbors u) = g.Adj := by
    funext u v; exact propext mem_neighbors
  rw [this]

theorem removeStep_sublist {n n' : Network} {o : NetObj} (h : removeStep n o = .ok n') :
    n'.graph.edges.Sublist n.graph.edges := by
  unfold removeStep at h
  split at h
  · split at h
    · split at h
      · simp only [Except.ok.injEq] at h
        subst h
        exact List.filter_sublist
      · simp at h
    · simp only [Except.ok.injEq] at h; subst h; exact List.Sublist.refl _
  · simp only [Except.ok.injEq] at h; subst h; exact List.Sublist.refl _

/-- the network without open devices -/
structure ClosedNet (objs : List NetObj) (s : String) (g : Graph) : Prop where
  nodes : ∀ x, x ∈ g.nodes ↔ ∃ b, Connects objs x b
  source : s ∈ g.nodes
  nodup : g.nodes.Nodup
  simple : Simple g.edges
  adj : ∀ a b, g.Adj a b ↔ ClosedLink objs a b

theorem twoTerminal_joins {o : NetObj} {e : Edge} {a b : String} (h : e.joins a b) :
    TwoTerminal o e.u e.v ↔ TwoTerminal o a b := by
  unfold Edge.joins at h
  rcases h with ⟨rfl, rfl⟩ | ⟨rfl, rfl⟩
  · rfl
  · unfold TwoTerminal; tauto

theorem closedNetwork_spec {objs : List NetObj} {s : String} {n : Network} (h : closedNetwork objs s = .ok n) :
    ClosedNet objs s n.graph := by
  unfold closedNetwork at h
  split at h
  · simp at h
  · rename_i n0 hn0
    obtain ⟨t, d, ot, hb, ht, heq, hs, hd⟩ := build_tree hn0
    obtain ⟨h1, h2, _⟩ := C19_effect n0 n objs h
    have hsub : n.graph.edges.Sublist n0.graph.edges :=
      foldlM_rel (fun a b : Network => b.graph.edges.Sublist a.graph.edges) (fun _ => List.Sublist.refl _)
        (fun a b c h1 h2 => h2.trans h1) objs (fun b a b' _ hstep => removeStep_sublist hstep) h
    refine ⟨fun x => by rw [h1]; exact hb.nodes x, by rw [h1]; exact hs, by rw [h1]; exact hb.nodup,
      hb.simple.sublist hsub, fun a b => ?_⟩
    unfold ClosedLink
    rw [← hb.adj]
    constructor
    · rintro ⟨e, he, hj⟩
      obtain ⟨he1, he2⟩ := (h2 e).1 he
      refine ⟨⟨e, he1, hj⟩, ?_⟩
      rintro ⟨o, ho, ⟨c1, c2, c3, c4⟩, ht⟩
      exact he2 ⟨o, ho, c1, c2, c3, c4, (twoTerminal_joins hj).2 ht⟩
    · rintro ⟨⟨e, he, hj⟩, hno⟩
      refine ⟨e, (h2 e).2 ⟨he, ?_⟩, hj⟩
      rintro ⟨o, ho, c1, c2, c3, c4, ht⟩
      exact hno ⟨o, ho, ⟨c1, c2, c3, c4⟩, (twoTerminal_joins hj).1 ht⟩

theorem ClosedNet.closed {objs : List NetObj} {s : String} {g : Graph} (h : ClosedNet objs s g) (a b : String)
    (hab : g.Adj a b) : b ∈ g.nodes :=
  (h.nodes b).2 ⟨a, ((h.adj b a).1 hab.symm).1⟩

theorem ClosedNet.reach {objs : List NetObj} {s : String} {g : Graph} (h : ClosedNet objs s g) (x : String) :
    x ∈ reachable g s ↔ Reach (ClosedLink objs) s x := by
  rw [mem_reachable h.closed h.source]
  have : g.Adj = ClosedLink objs := by funext a b; exact propext (h.adj a b)
  rw [this]

theorem removable_iff (o : NetObj) : removable o = true ↔ Cut o ∧ ∃ a b, TwoTerminal o a b := by
  unfold removable Cut TwoTerminal
  simp only [Bool.and_eq_true, Bool.or_eq_true, beq_iff_eq, Option.isSome_iff_ne_none, List.all_eq_true, bne_iff_ne,
    Bool.not_eq_true', List.isEmpty_eq_false_iff]
  constructor
  · rintro ⟨⟨⟨⟨⟨h1, h2⟩, h3⟩, h4⟩, h5⟩, h6⟩
    refine ⟨⟨h1, by simpa using h2, h5, fun h => h6 _ h rfl⟩, ?_⟩
    obtain ⟨a, ha⟩ := Option.ne_none_iff_exists'.1 h3
    obtain ⟨b, hb⟩ := Option.ne_none_iff_exists'.1 h4
    exact ⟨a, b, .inl ⟨ha, hb⟩⟩
  · rintro ⟨⟨h1, h2, h3, h4⟩, a, b, h⟩
    refine ⟨⟨⟨⟨⟨h1, by simpa using h2⟩, ?_⟩, ?_⟩, h3⟩, fun x hx hf => h4 (hf ▸ hx)⟩ <;>
      rcases h with ⟨ha, hb⟩ | ⟨ha, hb⟩ <;> simp [ha, hb]

theorem closedNetwork_ok {objs : List NetObj} (hu : Usable objs) {s b : String} (hs : Connects objs s b) :
    ∃ n, closedNetwork objs s = .ok n := by
  have hg : ∃ g, buildGraph objs = .ok g := by
    by_contra hno
    push Not at hno
    rcases (C15_error_iff objs).1 hno with ⟨o, ho, _, hn⟩ | ⟨pre, o, post, heq, hn, _⟩
    · exact hu.1 o ho hn
    · exact hu.1 o (by simp [heq]) (hn o (by simp))
  obtain ⟨g, hg⟩ := hg
  obtain ⟨ot, hb⟩ := buildGraph_built hg
  have hsn : s ∈ g.nodes := (hb.nodes s).2 ⟨b, hs⟩
  obtain ⟨n0, hn0⟩ : ∃ n0, build objs s = .ok n0 := ⟨_, by simp [build, hg, rebuildDigraph, bfsOrder, hsn]; rfl⟩
  obtain ⟨n, hn⟩ := (C19_ok_iff objs s n0 hn0).2 (hu.2.imp fun {o o'} h h1 h2 a b h3 =>
    h ((removable_iff o).1 h1).1 ((removable_iff o').1 h2).1 a b h3)
  exact ⟨n, by unfold closedNetwork; rw [hn0]; exact hn⟩

theorem source_connects {objs : List NetObj} (hu : Usable objs) {src : NetObj} (hm : src ∈ sources objs) :
    ∃ s, src.connecting = some s ∧ ∃ n, closedNetwork objs s = .ok n := by
  unfold sources at hm
  simp only [List.mem_filter, Bool.and_eq_true, decide_eq_true_eq, Option.isSome_iff_ne_none] at hm
  obtain ⟨hm, _, hc⟩ := hm
  obtain ⟨s, hs⟩ := Option.ne_none_iff_exists'.1 hc
  obtain ⟨nm, hnm⟩ := Option.ne_none_iff_exists'.1 (hu.1 src hm)
  exact ⟨s, hs, closedNetwork_ok hu (b := nm) ⟨src, hm, .inl (.inr ⟨hs, hnm⟩)⟩⟩

end Ditto.Net
