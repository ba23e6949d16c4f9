import Verif.Lemmas.Graph
import Verif.Lemmas.Bfs

/-! C15, C16, C17, C21: the network graphs. -/
namespace Ditto.Net
open Ditto Ditto.Search Ditto.Spec

/-! ### C15 -/

/-- C15: the graph made by `build` has an edge between `a` and `b` exactly if some object of the model connects them, its
nodes are exactly the ends of connections, and neither nodes nor edges occur twice. -/
theorem C15_exact (objs : List NetObj) (g : Graph) (h : buildGraph objs = .ok g) :
    (∀ a b, g.Adj a b ↔ Connects objs a b) ∧ (∀ x, x ∈ g.nodes ↔ ∃ b, Connects objs x b) ∧ g.nodes.Nodup ∧
      g.edges.Pairwise (fun e f => ¬ f.joins e.u e.v) := by
  obtain ⟨ot, hb⟩ := buildGraph_built h
  exact ⟨hb.adj, hb.nodes, hb.nodup, hb.simple⟩

/-- C15: the equipment on an edge is the last two-terminal object between its ends: its name, and its class if it is named.
(An unnamed object gets the class of the last named object before it.) An edge without such an object has no equipment. -/
theorem C15_equipment (objs : List NetObj) (g : Graph) (h : buildGraph objs = .ok g) (a b : String) :
    (∀ pre o post, objs = pre ++ o :: post → TwoTerminal o a b → (∀ o' ∈ post, ¬ TwoTerminal o' a b) →
      ∃ ty, g.equipOf a b = some (ty, o.name) ∧ (o.name ≠ none → ty = o.cls)) ∧
    ((∀ o ∈ objs, ¬ TwoTerminal o a b) → g.equipOf a b = none) := by
  obtain ⟨ot, hb⟩ := buildGraph_built h
  refine ⟨fun pre o post heq ht hpost => ?_, fun hno => ?_⟩
  · obtain ⟨ty, h1, h2⟩ := hb.equipLast a b pre o post heq ht hpost
    refine ⟨ty, h1, fun hn => ?_⟩
    rw [List.filter_append] at h2
    have : o.name.isSome = true := by rw [Option.isSome_iff_ne_none]; exact hn
    simp [this] at h2
    exact h2.symm
  · by_contra hne
    obtain ⟨o, ho, ht⟩ := hb.equip a b hne
    exact hno o ho ht

/-- C15: the graph cannot be built exactly if there is a one-terminal object without name, or a two-terminal object without
name before the first named object. -/
theorem C15_error_iff (objs : List NetObj) :
    (∀ g, buildGraph objs ≠ .ok g) ↔
      (∃ o ∈ objs, o.connecting ≠ none ∧ o.name = none) ∨
      ∃ pre o post, objs = pre ++ o :: post ∧ (∀ o' ∈ pre ++ [o], o'.name = none) ∧ o.fromEl ≠ none ∧ o.toEl ≠ none := by
  have step : ∀ (st : Option String × Graph) (o : NetObj), (∃ st', buildStep st o = .ok st') ↔
      ¬ ((o.connecting ≠ none ∧ o.name = none) ∨ (st.1 = none ∧ o.name = none ∧ o.fromEl ≠ none ∧ o.toEl ≠ none)) := by
    intro st o
    obtain ⟨cls, name, f, t, c, _⟩ := o
    unfold buildStep addTwoTerminal addOneTerminal
    rcases st with ⟨_ | ot, g⟩ <;> cases name <;> cases f <;> cases t <;> cases c <;> simp
  have gen : ∀ (l : List NetObj) (st : Option String × Graph), (∀ st', l.foldlM buildStep st ≠ .ok st') ↔
      (∃ o ∈ l, o.connecting ≠ none ∧ o.name = none) ∨ (st.1 = none ∧
      ∃ pre o post, l = pre ++ o :: post ∧ (∀ o' ∈ pre ++ [o], o'.name = none) ∧ o.fromEl ≠ none ∧ o.toEl ≠ none) := by
    intro l
    induction l with
    | nil =>
      intro st
      constructor
      · intro h; exact absurd rfl (h st)
      · rintro (⟨o, ho, _⟩ | ⟨_, pre, o, post, h, _⟩)
        · simp at ho
        · simp at h
    | cons o l ih =>
      intro st
      by_cases hs : ∃ st', buildStep st o = .ok st'
      · obtain ⟨st', hs'⟩ := hs
        have hno := (step st o).1 ⟨st', hs'⟩
        have hf : (o :: l).foldlM buildStep st = l.foldlM buildStep st' := by
          rw [List.foldlM_cons, hs']; rfl
        rw [hf, ih st']
        have hot : st'.1 = if o.name.isSome then some o.cls else st.1 := (buildStep_spec (g := st.2) (ot := st.1)
          (ot' := st'.1) (g' := st'.2) hs').1
        push Not at hno
        constructor
        · rintro (⟨o', ho', h1, h2⟩ | ⟨hn, pre, o', post, rfl, h2, h3, h4⟩)
          · exact .inl ⟨o', by simp [ho'], h1, h2⟩
          · rw [hot] at hn
            have hon : o.name = none := by
              by_contra hne
              rw [if_pos (by rw [Option.isSome_iff_ne_none]; exact hne)] at hn
              simp at hn
            refine .inr ⟨?_, o :: pre, o', post, rfl, ?_, h3, h4⟩
            · rw [hon] at hn; simpa using hn
            · intro x hx
              rcases List.mem_cons.1 hx with rfl | hx
              · exact hon
              · exact h2 x hx
        · rintro (⟨o', ho', h1, h2⟩ | ⟨hn, pre, o', post, heq, h2, h3, h4⟩)
          · rcases List.mem_cons.1 ho' with rfl | ho'
            · exact absurd h2 (hno.1 h1)
            · exact .inl ⟨o', ho', h1, h2⟩
          · cases pre with
            | nil =>
              simp only [List.nil_append, List.cons.injEq] at heq
              obtain ⟨rfl, rfl⟩ := heq
              exact absurd (hno.2 hn (h2 o (by simp)) h3) h4
            | cons x pre =>
              simp only [List.cons_append, List.cons.injEq] at heq
              obtain ⟨rfl, rfl⟩ := heq
              refine .inr ⟨?_, pre, o', post, rfl, fun y hy => h2 y (by simp at hy ⊢; tauto), h3, h4⟩
              rw [hot, h2 o (by simp)]; simpa using hn
      · have herr : ∃ e, buildStep st o = .error e := by
          cases hb : buildStep st o with
          | error e => exact ⟨e, rfl⟩
          | ok s => exact absurd ⟨s, hb⟩ hs
        obtain ⟨e, he⟩ := herr
        have hf : (o :: l).foldlM buildStep st = .error e := by rw [List.foldlM_cons, he]; rfl
        have hyes := not_not.1 (fun h => hs ((step st o).2 h))
        constructor
        · intro _
          rcases hyes with h | ⟨h1, h2, h3, h4⟩
          · exact .inl ⟨o, by simp, h⟩
          · exact .inr ⟨h1, [], o, l, rfl, by simpa using h2, h3, h4⟩
        · intro _ st'; rw [hf]; simp
  have := gen objs (none, ⟨[], []⟩)
  simp only [true_and] at this
  rw [← this]
  unfold buildGraph
  constructor
  · intro h st' hst
    rw [hst] at h
    exact h st'.2 rfl
  · intro h g hg
    split at hg
    · simp at hg
    · rename_i ot g' hf
      exact h _ hf

/-- source - line - transformer - load, a line between b and d and one between d and a -/
def exObjs : List NetObj := [
  { cls := "PowerSource", name := some "src", connecting := some "a" },
  { cls := "Line", name := some "l1", fromEl := some "b", toEl := some "a", length := some 5, isLine := true },
  { cls := "PowerTransformer", name := some "t1", fromEl := some "b", toEl := some "c" },
  { cls := "Load", name := some "load", connecting := some "c" },
  { cls := "Line", name := some "l2", fromEl := some "b", toEl := some "d", isLine := true },
  { cls := "Line", name := some "l3", fromEl := some "a", toEl := some "d", isLine := true },
  { cls := "Node", name := some "e" }]

example : ∃ n, build exObjs "src" = .ok n ∧ n.graph.equipOf "c" "b" = some ("PowerTransformer", some "t1") ∧
    n.digraph.map (fun e => (e.u, e.v)) = [("src", "a"), ("a", "b"), ("a", "d"), ("b", "c"), ("c", "load")] :=
  ⟨_, by rfl, by decide +kernel, by decide +kernel⟩

/-! ### C16 -/

theorem neighbors_closed {objs : List NetObj} {ot : Option String} {g : Graph} (hb : Built objs ot g) :
    ∀ u ∈ g.nodes, ∀ v ∈ g.neighbors u, v ∈ g.nodes := by
  intro u _ v hv
  have := (mem_neighbors.1 hv).symm
  rw [hb.nodes]
  exact ⟨u, (hb.adj v u).1 this⟩

theorem tree_of_built {objs : List NetObj} {ot : Option String} {g : Graph} (hb : Built objs ot g) {s : String}
    {t : List (String × String)} (h : bfsOrder g s = .ok t) : s ∈ g.nodes ∧ ∃ d, BfsTree g.neighbors s t d := by
  unfold bfsOrder at h
  split at h
  · rename_i hs
    simp only [Except.ok.injEq] at h
    subst h
    exact ⟨hs, bfs_tree g.neighbors g.nodes (neighbors_closed hb) s hs⟩
  · simp at h

theorem reach_nb_iff (g : Graph) (s v : String) : Reach (fun u v => v ∈ g.neighbors u) s v ↔ Reach g.Adj s v := by
  constructor
  · intro h; exact reach_mono (fun _ _ h => mem_neighbors.1 h) h
  · intro h; exact reach_mono (fun _ _ h => mem_neighbors.2 h) h

/-- the directed network has an edge from `u` to `v` -/
def Directed (n : Network) (u v : String) : Prop := ∃ e ∈ n.digraph, e.u = u ∧ e.v = v

theorem directed_mk (g : Graph) (t : List (String × String)) (u v : String) :
    Directed ⟨g, mkDigraph g t⟩ u v ↔ (u, v) ∈ t := by
  unfold Directed mkDigraph
  simp only [List.mem_map]
  constructor
  · rintro ⟨e, ⟨p, hp, rfl⟩, rfl, rfl⟩; exact hp
  · intro h; exact ⟨_, ⟨_, h, rfl⟩, rfl, rfl⟩

theorem build_tree {objs : List NetObj} {s : String} {n : Network} (h : build objs s = .ok n) :
    ∃ t d ot, Built objs ot n.graph ∧ bfsOrder n.graph s = .ok t ∧ n = ⟨n.graph, mkDigraph n.graph t⟩ ∧
      s ∈ n.graph.nodes ∧ BfsTree n.graph.neighbors s t d := by
  unfold build at h
  split at h
  · simp at h
  · rename_i g hg
    obtain ⟨ot, hb⟩ := buildGraph_built hg
    unfold rebuildDigraph at h
    split at h
    · simp at h
    · rename_i t ht
      simp only [Except.ok.injEq] at h
      subst h
      obtain ⟨hs, d, hd⟩ := tree_of_built hb ht
      exact ⟨t, d, ot, hb, ht, rfl, hs, hd⟩

/-- C16: the directed network is a tree that spans the part of the network connected with the source. -/
theorem C16_arborescence (objs : List NetObj) (s : String) (n : Network) (h : build objs s = .ok n) :
    -- every directed edge is an edge of the graph, between nodes connected with the source
    (∀ u v, Directed n u v → Connects objs u v ∧ Reach (Connects objs) s u ∧ Reach (Connects objs) s v) ∧
    -- the source has no predecessor
    (∀ u, ¬ Directed n u s) ∧
    -- every other node connected with the source has exactly one
    (∀ v, Reach (Connects objs) s v → v ≠ s → ∃! u, Directed n u v) ∧
    -- following the directed edges every connected node is reached from the source
    (∀ v, Reach (Connects objs) s v ↔ Reach (Directed n) s v) ∧
    -- there are no directed cycles
    ∀ v, ¬ Relation.TransGen (Directed n) v v := by
  obtain ⟨t, d, ot, hb, ht, heq, hs, hd⟩ := build_tree h
  have hdir : ∀ u v, Directed n u v ↔ (u, v) ∈ t := by intro u v; rw [heq, directed_mk]
  have hreach : ∀ v, v ∈ s :: t.map (·.2) ↔ Reach (Connects objs) s v := by
    intro v
    rw [hd.reach, reach_nb_iff]
    have : n.graph.Adj = Connects objs := by funext a b; exact propext (hb.adj a b)
    rw [this]
  refine ⟨fun u v huv => ?_, fun u hu => hd.no_parent u ((hdir u s).1 hu), fun v hv hne => ?_, fun v => ⟨fun hv => ?_, fun hv => ?_⟩,
    fun v hv => ?_⟩
  · have ht := (hdir u v).1 huv
    refine ⟨(hb.adj u v).1 (mem_neighbors.1 (hd.edge u v ht)), (hreach u).1 (hd.parent u v ht), (hreach v).1 ?_⟩
    exact List.mem_cons_of_mem _ (List.mem_map.2 ⟨_, ht, rfl⟩)
  · have := (hreach v).2 hv
    rcases List.mem_cons.1 this with rfl | hm
    · exact absurd rfl hne
    · obtain ⟨⟨u, w⟩, he, rfl⟩ := List.mem_map.1 hm
      exact ⟨u, (hdir _ _).2 he, fun u' hu' => hd.unique ((hdir _ _).1 hu') he⟩
  · have := (hd.walk ((hreach v).2 hv)).reach
    exact reach_mono (fun a b hab => (hdir a b).2 hab) this
  · exact reach_mono (fun a b hab => (hb.adj a b).1 (mem_neighbors.1 (hd.edge a b ((hdir a b).1 hab)))) hv
  · have gen : ∀ a b, Relation.TransGen (Directed n) a b → d a < d b := by
      intro a b hab
      induction hab with
      | single h => have := hd.step _ _ ((hdir _ _).1 h); omega
      | tail _ h ih => have := hd.step _ _ ((hdir _ _).1 h); omega
    exact Nat.lt_irrefl _ (gen v v hv)

/-- C16: the way along directed edges from the source to a node is as short as any. -/
theorem C16_shortest (objs : List NetObj) (s : String) (n : Network) (h : build objs s = .ok n) (v : String) (k : Nat)
    (hk : Walk (Directed n) s k v) : IsDist (Connects objs) s v k := by
  obtain ⟨t, d, ot, hb, ht, heq, hs, hd⟩ := build_tree h
  have hdir : ∀ u v, Directed n u v ↔ (u, v) ∈ t := by intro u v; rw [heq, directed_mk]
  have hadj : n.graph.Adj = Connects objs := by funext a b; exact propext (hb.adj a b)
  have hdv : d v = k := by
    clear ht
    induction hk with
    | nil => exact hd.d0
    | snoc _ hr ih => rw [hd.step _ _ ((hdir _ _).1 hr), ih]
  refine ⟨Walk.mono (fun a b hab => ?_) hk, fun m hm => ?_⟩
  · exact (hb.adj a b).1 (mem_neighbors.1 (hd.edge a b ((hdir a b).1 hab)))
  · rw [← hdv]
    exact hd.dist_le (Walk.mono (fun a b hab => mem_neighbors.2 (hadj ▸ hab)) hm)

/-- C16: an unknown source raises `KeyError`. -/
theorem C16_keyError (objs : List NetObj) (g : Graph) (hg : buildGraph objs = .ok g) (s : String)
    (hs : ∀ b, ¬ Connects objs s b) : build objs s = .error .keyError := by
  obtain ⟨ot, hb⟩ := buildGraph_built hg
  have : s ∉ g.nodes := by rw [hb.nodes]; rintro ⟨b, h⟩; exact hs b h
  simp [build, hg, rebuildDigraph, bfsOrder, this]

/-- C16: the edges of the directed network carry the equipment of the edges of the graph. -/
theorem C16_equipment (objs : List NetObj) (s : String) (n : Network) (h : build objs s = .ok n) (e : Edge)
    (he : e ∈ n.digraph) : e.equip = n.graph.equipOf e.u e.v := by
  obtain ⟨t, d, ot, hb, ht, heq, hs, hd⟩ := build_tree h
  rw [heq] at he
  unfold mkDigraph at he
  obtain ⟨p, _, rfl⟩ := List.mem_map.1 he
  rfl

/-! ### C17 -/

theorem orient_twoTerminal (t : List (String × String)) (o : NetObj) (a b : String) :
    TwoTerminal (orient t o) a b ↔ TwoTerminal o a b := by
  unfold orient
  split
  · rename_i f g hf hg
    split
    · unfold TwoTerminal; rw [hf, hg]; simp only [Option.some.injEq]; tauto
    · rfl
  · rfl

/-- C17: `direct_from_source` only ever swaps `from_element` and `to_element`. -/
theorem C17_only_swaps (g : Graph) (objs objs' : List NetObj) (s : String) (h : directFromSource g objs s = .ok objs') :
    List.Forall₂ (fun o o' => o' = o ∨ o' = { o with fromEl := o.toEl, toEl := o.fromEl }) objs objs' := by
  unfold directFromSource at h
  split at h
  · simp at h
  · rename_i t _
    simp only [Except.ok.injEq] at h
    subst h
    rw [List.forall₂_map_right_iff]
    refine List.forall₂_same.2 fun o _ => ?_
    unfold orient
    split
    · rename_i f g hf hg
      split
      · right; rw [hf, hg]
      · exact .inl rfl
    · exact .inl rfl

/-- C17: the declared connections, and so the network, stay the same. -/
theorem C17_connections (g : Graph) (objs objs' : List NetObj) (s : String) (h : directFromSource g objs s = .ok objs')
    (a b : String) : Connects objs' a b ↔ Connects objs a b := by
  have h2 := C17_only_swaps g objs objs' s h
  have key : ∀ o o' : NetObj, (o' = o ∨ o' = { o with fromEl := o.toEl, toEl := o.fromEl }) →
      ((Declares o' a b ∨ Declares o' b a) ↔ (Declares o a b ∨ Declares o b a)) := by
    rintro o o' (rfl | rfl)
    · rfl
    · unfold Declares; simp only; tauto
  unfold Connects
  clear h
  induction h2 with
  | nil => simp
  | cons h _ ih =>
    simp only [List.mem_cons, exists_eq_or_imp, key _ _ h]
    rw [or_congr_right]
    exact ih

theorem orient_cases (t : List (String × String)) (o : NetObj) :
    (orient t o = o ∧ ∀ f g, o.fromEl = some f → o.toEl = some g → ¬ ((g, f) ∈ t ∧ (f, g) ∉ t)) ∨
    (∃ f g, o.fromEl = some f ∧ o.toEl = some g ∧ (g, f) ∈ t ∧ (f, g) ∉ t ∧
      orient t o = { o with fromEl := some g, toEl := some f }) := by
  unfold orient
  split
  · rename_i f g hf hg
    split
    · rename_i hc; exact .inr ⟨f, g, hf, hg, hc.1, hc.2, rfl⟩
    · rename_i hc
      refine .inl ⟨rfl, fun f' g' hf' hg' => ?_⟩
      rw [hf] at hf'; rw [hg] at hg'
      simp only [Option.some.injEq] at hf' hg'
      subst hf'; subst hg'; exact hc
  · rename_i hc
    exact .inl ⟨rfl, fun f' g' hf' hg' => absurd hg' (hc f' g' hf')⟩

/-- C17: afterwards no object is directed against the directed network: if one of its ends feeds the other, then it is the
`from_element`. -/
theorem C17_oriented (objs objs' : List NetObj) (s : String) (n : Network) (hn : build objs s = .ok n)
    (h : directFromSource n.graph objs s = .ok objs') :
    ∀ o ∈ objs', ∀ f t, o.fromEl = some f → o.toEl = some t → ¬ Directed n t f := by
  obtain ⟨t, d, ot, hb, ht, heq, hs, hd⟩ := build_tree hn
  have hdir : ∀ u v, Directed n u v ↔ (u, v) ∈ t := by intro u v; rw [heq, directed_mk]
  unfold directFromSource at h
  rw [ht] at h
  simp only [Except.ok.injEq] at h
  subst h
  intro o ho f g hf hg hdg
  rw [hdir] at hdg
  obtain ⟨o0, _, rfl⟩ := List.mem_map.1 ho
  have anti : ∀ a b, (a, b) ∈ t → (b, a) ∉ t := by
    intro a b h1 h2
    have e1 := hd.step a b h1
    have e2 := hd.step b a h2
    omega
  rcases orient_cases t o0 with ⟨h1, h2⟩ | ⟨f', g', hf', hg', hin, hout, he⟩
  · rw [h1] at hf hg
    exact h2 f g hf hg ⟨hdg, anti _ _ hdg⟩
  · rw [he] at hf hg
    simp only [Option.some.injEq] at hf hg
    subst hf; subst hg
    exact hout hdg

/-- C17: a second call changes nothing. -/
theorem C17_idempotent (g : Graph) (objs objs' : List NetObj) (s : String) (h : directFromSource g objs s = .ok objs') :
    directFromSource g objs' s = .ok objs' := by
  unfold directFromSource at h ⊢
  split at h
  · simp at h
  · rename_i t ht
    simp only [Except.ok.injEq] at h
    subst h
    simp only [List.map_map, Except.ok.injEq]
    apply List.map_congr_left
    intro o _
    simp only [Function.comp]
    rcases orient_cases t (orient t o) with ⟨h1, _⟩ | ⟨f, g, hf, hg, hin, hout, he⟩
    · exact h1
    · exfalso
      rcases orient_cases t o with ⟨h1, h2⟩ | ⟨f', g', hf', hg', hin', hout', he'⟩
      · rw [h1] at hf hg
        exact h2 f g hf hg ⟨hin, hout⟩
      · rw [he'] at hf hg
        simp only [Option.some.injEq] at hf hg
        subst hf; subst hg
        exact hout' hin

/-- the same edge, possibly with the ends exchanged -/
def EdgeSim (e e' : Edge) : Prop :=
  ((e'.u = e.u ∧ e'.v = e.v) ∨ (e'.u = e.v ∧ e'.v = e.u)) ∧ e'.equip = e.equip ∧ e'.length = e.length

theorem EdgeSim.joins {e e' : Edge} (h : EdgeSim e e') (a b : String) : e'.joins a b ↔ e.joins a b := by
  obtain ⟨h1, _⟩ := h
  unfold Edge.joins
  rcases h1 with ⟨h1, h2⟩ | ⟨h1, h2⟩ <;> rw [h1, h2] <;> tauto

theorem edgeSim_any {es es' : List Edge} (h : List.Forall₂ EdgeSim es es') (a b : String) :
    es'.any (fun e => e.joins a b) = es.any (fun e => e.joins a b) := by
  induction h with
  | nil => rfl
  | cons h _ ih =>
    simp only [List.any_cons, ih]
    congr 1
    exact decide_eq_decide.2 (h.joins a b)

theorem addEdge_sim {g g' : Graph} (h : List.Forall₂ EdgeSim g.edges g'.edges) (u v u' v' : String)
    (hs : (u' = u ∧ v' = v) ∨ (u' = v ∧ v' = u)) (q : Option (String × Option String)) (l : Option ℚ) :
    List.Forall₂ EdgeSim (g.addEdge u v q l).edges (g'.addEdge u' v' q l).edges := by
  have hj : ∀ e : Edge, e.joins u' v' ↔ e.joins u v := Edge.joins_congr hs
  have hany : g'.edges.any (fun e => e.joins u' v') = g.edges.any (fun e => e.joins u v) := by
    rw [← edgeSim_any h u v]
    congr 1; funext e; exact decide_eq_decide.2 (hj e)
  unfold Graph.addEdge
  rw [hany]
  split
  · simp only
    rw [List.forall₂_map_left_iff, List.forall₂_map_right_iff]
    refine h.imp fun e e' hee => ?_
    by_cases hc : e.joins u v
    · rw [if_pos hc, if_pos ((hj e').2 ((hee.joins u v).2 hc))]
      obtain ⟨h1, h2, h3⟩ := hee
      exact ⟨h1, by simp only [h2], by simp only [h3]⟩
    · rw [if_neg hc, if_neg (fun hh => hc ((hee.joins u v).1 ((hj e').1 hh)))]
      exact hee
  · exact List.rel_append h (.cons ⟨hs, rfl, rfl⟩ .nil)

theorem buildStep_sim {ot : Option String} {g g' : Graph} (h : List.Forall₂ EdgeSim g.edges g'.edges) {o o' : NetObj}
    (ho : o' = o ∨ o' = { o with fromEl := o.toEl, toEl := o.fromEl }) {st : Option String × Graph}
    (hs : buildStep (ot, g) o = .ok st) :
    ∃ st', buildStep (ot, g') o' = .ok st' ∧ st'.1 = st.1 ∧ List.Forall₂ EdgeSim st.2.edges st'.2.edges := by
  have hone : ∀ {g1 g1' g2 : Graph}, List.Forall₂ EdgeSim g1.edges g1'.edges → addOneTerminal g1 o = .ok g2 →
      ∃ g2', addOneTerminal g1' o' = .ok g2' ∧ List.Forall₂ EdgeSim g2.edges g2'.edges := by
    intro g1 g1' g2 hsim h
    have hc : o'.connecting = o.connecting := by rcases ho with rfl | rfl <;> rfl
    have hn : o'.name = o.name := by rcases ho with rfl | rfl <;> rfl
    unfold addOneTerminal at h ⊢
    rw [hc, hn]
    split at h
    · simp only [Except.ok.injEq] at h; subst h; exact ⟨_, rfl, hsim⟩
    · split at h
      · simp at h
      · simp only [Except.ok.injEq] at h
        subst h
        refine ⟨_, rfl, addEdge_sim ?_ _ _ _ _ (.inl ⟨rfl, rfl⟩) _ _⟩
        simpa only [addNode_edges] using hsim
  have htwo : ∀ {t : Option String} {g2 : Graph}, addTwoTerminal t g o = .ok g2 →
      ∃ g2', addTwoTerminal t g' o' = .ok g2' ∧ List.Forall₂ EdgeSim g2.edges g2'.edges := by
    intro t g2 h2
    unfold addTwoTerminal at h2 ⊢
    cases hf : o.fromEl with
    | none =>
      rw [hf] at h2; simp only [Except.ok.injEq] at h2; subst h2
      rcases ho with rfl | rfl
      · rw [hf]; exact ⟨_, rfl, h⟩
      · simp only [hf]; cases o.toEl <;> exact ⟨_, rfl, h⟩
    | some f =>
      cases ht : o.toEl with
      | none =>
        rw [hf, ht] at h2; simp only [Except.ok.injEq] at h2; subst h2
        rcases ho with rfl | rfl
        · rw [hf, ht]; exact ⟨_, rfl, h⟩
        · simp only [hf, ht]; exact ⟨_, rfl, h⟩
      | some tt =>
        rw [hf, ht] at h2
        cases t with
        | none => simp at h2
        | some ty =>
          simp only [Except.ok.injEq] at h2
          subst h2
          rcases ho with rfl | rfl
          · rw [hf, ht]
            refine ⟨_, rfl, addEdge_sim ?_ _ _ _ _ (.inl ⟨rfl, rfl⟩) _ _⟩
            simpa only [addNode_edges] using h
          · simp only [hf, ht]
            refine ⟨_, rfl, addEdge_sim ?_ _ _ _ _ (.inr ⟨rfl, rfl⟩) _ _⟩
            simpa only [addNode_edges] using h
  have hn : o'.name = o.name := by rcases ho with rfl | rfl <;> rfl
  have hcl : o'.cls = o.cls := by rcases ho with rfl | rfl <;> rfl
  unfold buildStep at hs ⊢
  simp only at hs ⊢
  rw [hn, hcl]
  split at hs
  · simp at hs
  · rename_i g2 hg2
    obtain ⟨g2', hg2', hsim⟩ := htwo hg2
    rw [hg2']
    simp only
    split at hs
    · simp at hs
    · rename_i g3 hg3
      obtain ⟨g3', hg3', hsim'⟩ := hone hsim hg3
      rw [hg3']
      simp only [Except.ok.injEq] at hs
      subst hs
      exact ⟨_, rfl, rfl, hsim'⟩

theorem neighbors_sim {es es' : List Edge} (h : List.Forall₂ EdgeSim es es') (x : String) :
    (⟨[], es'⟩ : Graph).neighbors x = (⟨[], es⟩ : Graph).neighbors x := by
  unfold Graph.neighbors
  induction h with
  | nil => rfl
  | @cons e e' _ _ h _ ih =>
    simp only [List.filterMap_cons] at ih ⊢
    have : (if e'.u = x then some e'.v else if e'.v = x then some e'.u else none) =
        (if e.u = x then some e.v else if e.v = x then some e.u else none) := by
      rcases h.1 with ⟨h1, h2⟩ | ⟨h1, h2⟩
      · rw [h1, h2]
      · rw [h1, h2]
        by_cases ha : e.u = x <;> by_cases hb : e.v = x <;> simp [ha, hb]
    rw [this, ih]

/-- C17: building the network again gives the same directed network, and so a second call changes nothing even then. -/
theorem C17_rebuild (objs objs' : List NetObj) (s : String) (n : Network) (hn : build objs s = .ok n)
    (h : directFromSource n.graph objs s = .ok objs') :
    ∃ n', build objs' s = .ok n' ∧ (∀ u v, Directed n' u v ↔ Directed n u v) ∧
      directFromSource n'.graph objs' s = .ok objs' := by
  have hsw := C17_only_swaps _ objs objs' s h
  have hcon := C17_connections _ objs objs' s h
  have hid := C17_idempotent _ objs objs' s h
  obtain ⟨t, d, ot, hb, ht, heq, hs, hd⟩ := build_tree hn
  -- the graph of the swapped objects
  have gen : ∀ (l l' : List NetObj) (ot : Option String) (g g' : Graph) (st : Option String × Graph),
      List.Forall₂ (fun o o' => o' = o ∨ o' = { o with fromEl := o.toEl, toEl := o.fromEl }) l l' →
      List.Forall₂ EdgeSim g.edges g'.edges → l.foldlM buildStep (ot, g) = .ok st →
      ∃ st', l'.foldlM buildStep (ot, g') = .ok st' ∧ List.Forall₂ EdgeSim st.2.edges st'.2.edges := by
    intro l
    induction l with
    | nil =>
      intro l' ot g g' st hl hsim hf
      cases hl
      have := foldlM_nil_ok hf
      subst this
      exact ⟨(ot, g'), rfl, hsim⟩
    | cons o l ih =>
      intro l' ot g g' st hl hsim hf
      cases hl with
      | cons ho hl =>
        obtain ⟨s1, h1, h2⟩ := foldlM_cons_ok hf
        obtain ⟨s1', h1', he, hsim'⟩ := buildStep_sim hsim ho h1
        obtain ⟨s2', h2', hsim''⟩ := ih _ s1.1 s1.2 s1'.2 st hl hsim' h2
        refine ⟨s2', ?_, hsim''⟩
        rw [List.foldlM_cons, h1']
        show List.foldlM buildStep s1' _ = _
        have : s1' = (s1.1, s1'.2) := by rw [← he]
        rw [this]; exact h2'
  have hg : buildGraph objs = .ok n.graph := by
    unfold build at hn
    split at hn
    · simp at hn
    · rename_i g hg
      unfold rebuildDigraph at hn
      split at hn
      · simp at hn
      · simp only [Except.ok.injEq] at hn; subst hn; exact hg
  obtain ⟨g', hg', hsim⟩ : ∃ g', buildGraph objs' = .ok g' ∧ List.Forall₂ EdgeSim n.graph.edges g'.edges := by
    unfold buildGraph at hg ⊢
    split at hg
    · simp at hg
    · rename_i ot1 g1 hf
      simp only [Except.ok.injEq] at hg
      subst hg
      obtain ⟨st', hst', hsim⟩ := gen objs objs' none ⟨[], []⟩ ⟨[], []⟩ _ hsw .nil hf
      exact ⟨st'.2, by rw [hst'], hsim⟩
  obtain ⟨ot', hb'⟩ := buildGraph_built hg'
  have hnb : g'.neighbors = n.graph.neighbors := by
    funext x
    have := neighbors_sim hsim x
    exact this
  have hnodes : ∀ x, x ∈ g'.nodes ↔ x ∈ n.graph.nodes := by
    intro x; rw [hb'.nodes, hb.nodes]; simp only [hcon]
  have hlen : g'.nodes.length = n.graph.nodes.length :=
    ((List.perm_ext_iff_of_nodup hb'.nodup hb.nodup).2 hnodes).length_eq
  have ht' : bfsOrder g' s = .ok t := by
    rw [← ht]
    unfold bfsOrder
    rw [hnb, hlen]
    simp only [hnodes]
  refine ⟨⟨g', mkDigraph g' t⟩, by simp [build, hg', rebuildDigraph, ht'], fun u v => ?_, ?_⟩
  · rw [directed_mk, heq, directed_mk]
  · unfold directFromSource at hid ⊢
    rw [ht] at hid
    rw [ht']
    exact hid

/-- line l1 of `exObjs` is directed against the source and gets swapped -/
example : ∃ n objs', build exObjs "src" = .ok n ∧ directFromSource n.graph exObjs "src" = .ok objs' ∧
    (objs'[1]?).map (fun o => (o.fromEl, o.toEl)) = some (some "a", some "b") := ⟨_, _, by rfl, by rfl, by decide +kernel⟩

/-! ### C21 -/

/-- C21: `find_internal_edges` gives exactly the names of the equipment on the edges with both ends in the set. -/
theorem C21_internal (objs : List NetObj) (g : Graph) (hg : buildGraph objs = .ok g) (S : List String) (nm : Option String) :
    nm ∈ internalEdges g S ↔ ∃ e ∈ g.edges, e.u ∈ S ∧ e.v ∈ S ∧ ∃ ty, e.equip = some (ty, nm) := by
  obtain ⟨ot, hb⟩ := buildGraph_built hg
  have hfind : ∀ e ∈ g.edges, ∀ a b, e.joins a b → g.find a b = some e := by
    intro e he a b hj
    unfold Graph.find
    rw [List.find?_eq_some_iff_append]
    refine ⟨by simpa using hj, ?_⟩
    obtain ⟨l1, l2, hl⟩ := List.append_of_mem he
    refine ⟨l1, l2, hl, fun e' he' => ?_⟩
    have hs := hb.simple
    unfold Simple at hs
    rw [hl, List.pairwise_append] at hs
    have := hs.2.2 e' he' e (by simp)
    simp only [Bool.not_eq_eq_eq_not, Bool.not_true, decide_eq_false_iff_not]
    intro hj'
    apply this
    unfold Edge.joins at hj hj' ⊢
    rcases hj with ⟨a1, a2⟩ | ⟨a1, a2⟩ <;> rcases hj' with ⟨b1, b2⟩ | ⟨b1, b2⟩ <;> rw [a1, a2, b1, b2] <;> simp
  unfold internalEdges
  simp only [List.mem_filterMap, List.mem_flatMap]
  constructor
  · rintro ⟨⟨a, b⟩, ⟨x, hx, hab⟩, h⟩
    split at h
    · rename_i hS
      simp only [Option.map_eq_some_iff] at h
      obtain ⟨⟨ty, nm'⟩, hq, rfl⟩ := h
      rw [Option.bind_eq_some_iff] at hq
      obtain ⟨e, he, hq⟩ := hq
      have hm := List.mem_of_find?_eq_some he
      have hj := List.find?_some he
      simp only [decide_eq_true_eq] at hj
      refine ⟨e, hm, ?_, ?_, ty, hq⟩
      · rcases hj with ⟨h1, h2⟩ | ⟨h1, h2⟩
        · rw [h1]; exact hS.1
        · rw [h1]; exact hS.2
      · rcases hj with ⟨h1, h2⟩ | ⟨h1, h2⟩
        · rw [h2]; exact hS.2
        · rw [h2]; exact hS.1
    · simp at h
  · rintro ⟨e, he, hu, hv, ty, hq⟩
    have hj : e.joins e.u e.v := .inl ⟨rfl, rfl⟩
    have hadj : g.Adj e.u e.v := ⟨e, he, hj⟩
    refine ⟨(e.u, e.v), ⟨e.u, hu, ?_⟩, ?_⟩
    · have hn : e.u ∈ g.nodes := by rw [hb.nodes]; exact ⟨e.v, (hb.adj _ _).1 hadj⟩
      rw [if_pos hn]
      exact List.mem_map.2 ⟨e.v, mem_neighbors.2 hadj, rfl⟩
    · rw [if_pos ⟨hu, hv⟩, hfind e he _ _ hj]
      simp [hq]

example : ∃ g, buildGraph exObjs = .ok g ∧ internalEdges g ["a", "b", "zz"] = [some "l1", some "l1"] :=
  ⟨_, by rfl, by decide +kernel⟩

end Ditto.Net
