import Verif.Spec.Route
import Verif.Props.Network

/-! C18: `get_upstream_transformer`. -/
namespace Ditto.Net
open Ditto Ditto.Search Ditto.Spec

/-- the directed network is a tree: edges have different ends `v`, none of them ends in the source, and depths grow -/
structure Arbo (d : List Edge) (s : String) (depth : String → Nat) : Prop where
  uniq : ∀ e ∈ d, ∀ e' ∈ d, e.v = e'.v → e = e'
  root : ∀ e ∈ d, e.v ≠ s
  step : ∀ e ∈ d, depth e.v = depth e.u + 1
  up : ∀ e ∈ d, e.u = s ∨ ∃ e' ∈ d, e'.v = e.u

theorem arbo_of_build {objs : List NetObj} {s : String} {n : Network} (h : build objs s = .ok n) :
    ∃ depth, Arbo n.digraph s depth := by
  obtain ⟨t, d, ot, hb, ht, heq, hs, hd⟩ := build_tree h
  have hm : ∀ e ∈ n.digraph, (e.u, e.v) ∈ t ∧ e = ⟨e.u, e.v, (n.graph.find e.u e.v).bind (·.equip), none⟩ := by
    intro e he
    rw [heq] at he
    obtain ⟨p, hp, rfl⟩ := List.mem_map.1 he
    exact ⟨hp, rfl⟩
  refine ⟨d, fun e he e' he' hv => ?_, fun e he hv => ?_, fun e he => hd.step _ _ (hm e he).1, fun e he => ?_⟩
  · have h1 := (hm e he).1
    have h2 := (hm e' he').1
    have hu : e.u = e'.u := hd.unique h1 (hv ▸ h2)
    rw [(hm e he).2, (hm e' he').2, hu, hv]
  · exact hd.no_parent e.u (hv ▸ (hm e he).1)
  · rcases List.mem_cons.1 (hd.parent _ _ (hm e he).1) with h1 | h1
    · exact .inl h1
    · obtain ⟨p, hp, hpe⟩ := List.mem_map.1 h1
      refine .inr ⟨⟨p.1, p.2, (n.graph.find p.1 p.2).bind (·.equip), none⟩, ?_, hpe⟩
      rw [heq]
      exact List.mem_map.2 ⟨p, hp, rfl⟩

theorem Route.mem {d : List Edge} {s x : String} {es : List Edge} (h : Route d s es x) : ∀ e ∈ es, e ∈ d := by
  induction h with
  | nil => simp
  | snoc _ he _ ih =>
    intro e' he'
    rcases List.mem_append.1 he' with h' | h'
    · exact ih e' h'
    · simp only [List.mem_singleton] at h'; subst h'; exact he

theorem Route.depth {d : List Edge} {s x : String} {depth : String → Nat} (ha : Arbo d s depth) {es : List Edge}
    (h : Route d s es x) : es.Nodup ∧ (∀ e ∈ es, depth e.v ≤ depth x) := by
  induction h with
  | nil => simp
  | @snoc es u e h he hu ih =>
    have hlt : ∀ e' ∈ es, depth e'.v < depth e.v := by
      intro e' h'
      have := ih.2 e' h'
      have := ha.step e he
      rw [hu] at this
      omega
    refine ⟨?_, fun e' he' => ?_⟩
    · rw [List.nodup_append]
      refine ⟨ih.1, by simp, fun a h1 b h2 => ?_⟩
      simp only [List.mem_singleton] at h2; subst h2; rintro rfl
      exact Nat.lt_irrefl _ (hlt a h1)
    · rcases List.mem_append.1 he' with h' | h'
      · exact Nat.le_of_lt (hlt e' h')
      · simp only [List.mem_singleton] at h'; subst h'; exact Nat.le_refl _

theorem Route.length_le {d : List Edge} {s x : String} {depth : String → Nat} (ha : Arbo d s depth) {es : List Edge}
    (h : Route d s es x) : es.length ≤ d.length :=
  (List.subperm_of_subset (h.depth ha).1 h.mem).length_le

theorem find_pred {d : List Edge} {s : String} {depth : String → Nat} (ha : Arbo d s depth) {e : Edge} (he : e ∈ d) :
    d.find? (fun e' => e'.v = e.v) = some e := by
  cases hf : d.find? (fun e' => e'.v = e.v) with
  | none =>
    rw [List.find?_eq_none] at hf
    exact absurd (decide_eq_true rfl) (hf e he)
  | some e' =>
    have h1 := List.mem_of_find?_eq_some hf
    have h2 := List.find?_some hf
    rw [ha.uniq e' h1 e he (by simpa using h2)]

theorem find_root {d : List Edge} {s : String} {depth : String → Nat} (ha : Arbo d s depth) :
    d.find? (fun e' => e'.v = s) = none := by
  rw [List.find?_eq_none]
  intro e he; simpa using ha.root e he

/-- C18: a node of the directed network is reached from the source on exactly one route. -/
theorem C18_route (objs : List NetObj) (s : String) (n : Network) (h : build objs s = .ok n) (x : String)
    (hx : x ∈ diNodes n.digraph) : ∃! es, Route n.digraph s es x := by
  obtain ⟨depth, ha⟩ := arbo_of_build h
  have ex : ∀ k x, depth x ≤ k → (x = s ∨ ∃ e ∈ n.digraph, e.v = x) → ∃ es, Route n.digraph s es x := by
    intro k
    induction k with
    | zero =>
      rintro x hk (rfl | ⟨e, he, rfl⟩)
      · exact ⟨[], .nil⟩
      · have := ha.step e he; omega
    | succ k ih =>
      rintro x hk (rfl | ⟨e, he, rfl⟩)
      · exact ⟨[], .nil⟩
      · obtain ⟨es, hes⟩ := ih e.u (by have := ha.step e he; omega) (ha.up e he)
        exact ⟨_, hes.snoc he rfl⟩
  have hx' : x = s ∨ ∃ e ∈ n.digraph, e.v = x := by
    unfold diNodes at hx
    obtain ⟨e, he, hm⟩ := List.mem_flatMap.1 hx
    simp only [List.mem_cons, List.not_mem_nil, or_false] at hm
    rcases hm with rfl | rfl
    · exact ha.up e he
    · exact .inr ⟨e, he, rfl⟩
  obtain ⟨es, hes⟩ := ex _ x (Nat.le_refl _) hx'
  refine ⟨es, hes, fun es' hes' => ?_⟩
  clear hx hx'
  induction hes generalizing es' with
  | nil =>
    generalize hs : s = y at hes'
    cases hes' with
    | nil => rfl
    | snoc _ he _ => exact absurd hs.symm (ha.root _ he)
  | @snoc es u e h he hu ih =>
    generalize hv : e.v = y at hes'
    cases hes' with
    | nil => exact absurd hv (ha.root _ he)
    | @snoc es1 u1 e1 h1 he1 hu1 =>
      have := ha.uniq e he e1 he1 hv
      subst this
      rw [ih es1 (by rw [← hu, hu1]; exact h1)]

theorem upstreamLoop_plain {d : List Edge} {s : String} {depth : String → Nat} (ha : Arbo d s depth) (post : List Edge) :
    ∀ (pre : List Edge) (x : String) (n : Nat), Route d s (pre ++ post) x → (∀ e ∈ post, e.Plain) →
      ∃ y, Route d s pre y ∧ upstreamLoop d (post.length + n) x = upstreamLoop d n y := by
  induction post using List.reverseRecOn with
  | nil => intro pre x n h _; exact ⟨x, by simpa using h, by simp⟩
  | append_singleton post e ih =>
    intro pre x n h hp
    rw [← List.append_assoc] at h
    generalize hl : pre ++ post ++ [e] = l at h
    cases h with
    | nil => simp at hl
    | @snoc es u e' h he hu =>
      obtain ⟨rfl, he'⟩ := List.append_inj' hl rfl
      simp only [List.cons.injEq, and_true] at he'
      subst he'
      obtain ⟨y, hy, heq⟩ := ih pre u n h (fun e' h' => hp e' (by simp [h']))
      refine ⟨y, hy, ?_⟩
      obtain ⟨ty, nm, heq', hty⟩ := hp e (by simp)
      rw [List.length_append, List.length_singleton, show post.length + 1 + n = (post.length + n) + 1 by omega]
      conv_lhs => unfold upstreamLoop
      rw [find_pred ha he]
      simp only [heq', if_neg hty]
      rw [hu]
      exact heq

theorem upstream_eq {d : List Edge} {s : String} {depth : String → Nat} (ha : Arbo d s depth) {x : String}
    (hx : x ∈ diNodes d) {pre post : List Edge} (h : Route d s (pre ++ post) x) (hp : ∀ e ∈ post, e.Plain) :
    ∃ y k, Route d s pre y ∧ pre.length ≤ k ∧ upstreamTransformer d x = upstreamLoop d (k + 1) y := by
  have hlen := h.length_le ha
  rw [List.length_append] at hlen
  obtain ⟨y, hy, heq⟩ := upstreamLoop_plain ha post pre x (d.length - post.length + 1) h hp
  refine ⟨y, d.length - post.length, hy, by omega, ?_⟩
  unfold upstreamTransformer
  rw [if_pos, ← heq]
  · congr 1; omega
  · unfold diNodes at hx
    obtain ⟨e, he, hm⟩ := List.mem_flatMap.1 hx
    rw [List.any_eq_true]
    refine ⟨e, he, ?_⟩
    simp only [List.mem_cons, List.not_mem_nil, or_false] at hm
    rcases hm with rfl | rfl <;> simp

/-- C18: the transformer nearest to the node on its route from the source, if there are only edges with equipment between
them. -/
theorem C18_nearest_partial (objs : List NetObj) (s : String) (n : Network) (h : build objs s = .ok n) (x : String)
    (hx : x ∈ diNodes n.digraph) (pre post : List Edge) (e : Edge) (nm : Option String)
    (hr : Route n.digraph s (pre ++ e :: post) x) (he : e.equip = some ("PowerTransformer", nm))
    (hp : ∀ e' ∈ post, e'.Plain) : upstreamTransformer n.digraph x = some (.ok nm) := by
  obtain ⟨depth, ha⟩ := arbo_of_build h
  have hr' : Route n.digraph s ((pre ++ [e]) ++ post) x := by simpa using hr
  obtain ⟨y, k, hy, _, heq⟩ := upstream_eq ha hx hr' hp
  rw [heq]
  generalize hl : pre ++ [e] = l at hy
  cases hy with
  | nil => simp at hl
  | @snoc es u e' _ he' _ =>
    obtain ⟨rfl, h'⟩ := List.append_inj' hl rfl
    simp only [List.cons.injEq, and_true] at h'
    subst h'
    unfold upstreamLoop
    rw [find_pred ha he']
    simp [he]

/-- C18: `None` if the route has only edges with equipment, and no transformer. -/
theorem C18_none_partial (objs : List NetObj) (s : String) (n : Network) (h : build objs s = .ok n) (x : String)
    (hx : x ∈ diNodes n.digraph) (es : List Edge) (hr : Route n.digraph s es x)
    (hp : ∀ e' ∈ es, e'.Plain) : upstreamTransformer n.digraph x = some (.ok none) := by
  obtain ⟨depth, ha⟩ := arbo_of_build h
  obtain ⟨y, k, hy, _, heq⟩ := upstream_eq ha hx (pre := []) hr hp
  rw [heq]
  have : y = s := by
    generalize hl : ([] : List Edge) = l at hy
    cases hy with
    | nil => rfl
    | snoc => simp at hl
  subst this
  unfold upstreamLoop
  rw [find_root ha]

/-- C18, otherwise: `KeyError` if the walk comes to an edge without equipment (between a device and its
`connecting_element`) before it comes to a transformer. -/
theorem C18_keyError (objs : List NetObj) (s : String) (n : Network) (h : build objs s = .ok n) (x : String)
    (hx : x ∈ diNodes n.digraph) (pre post : List Edge) (e : Edge)
    (hr : Route n.digraph s (pre ++ e :: post) x) (he : e.equip = none)
    (hp : ∀ e' ∈ post, e'.Plain) : upstreamTransformer n.digraph x = some (.error .keyError) := by
  obtain ⟨depth, ha⟩ := arbo_of_build h
  have hr' : Route n.digraph s ((pre ++ [e]) ++ post) x := by simpa using hr
  obtain ⟨y, k, hy, _, heq⟩ := upstream_eq ha hx hr' hp
  rw [heq]
  generalize hl : pre ++ [e] = l at hy
  cases hy with
  | nil => simp at hl
  | @snoc es u e' _ he' _ =>
    obtain ⟨rfl, h'⟩ := List.append_inj' hl rfl
    simp only [List.cons.injEq, and_true] at h'
    subst h'
    unfold upstreamLoop
    rw [find_pred ha he']
    simp [he]

/-- C18: a node that is not connected with the source raises `NetworkXError`. -/
theorem C18_unknown (d : List Edge) (x : String) (hx : x ∉ diNodes d) :
    upstreamTransformer d x = some (.error .networkXError) := by
  unfold upstreamTransformer
  rw [if_neg]
  rw [List.any_eq_true]
  rintro ⟨e, he, hm⟩
  simp only [Bool.or_eq_true, decide_eq_true_eq] at hm
  apply hx
  unfold diNodes
  refine List.mem_flatMap.2 ⟨e, he, ?_⟩
  rcases hm with rfl | rfl <;> simp

/-- C18: the walk always ends. -/
theorem C18_terminates (objs : List NetObj) (s : String) (n : Network) (h : build objs s = .ok n) (x : String) :
    ∃ r, upstreamTransformer n.digraph x = some r := by
  by_cases hx : x ∈ diNodes n.digraph
  · obtain ⟨es, hes, _⟩ := C18_route objs s n h x hx
    -- split at the last edge that is not plain
    have split : ∀ es : List Edge, (∀ e ∈ es, e.Plain) ∨ ∃ pre e post, es = pre ++ e :: post ∧ ¬ e.Plain ∧ ∀ e' ∈ post, e'.Plain := by
      intro es
      induction es with
      | nil => exact .inl (by simp)
      | cons a es ih =>
        rcases ih with ih | ⟨pre, e, post, rfl, h1, h2⟩
        · by_cases hp : a.Plain
          · refine .inl fun e he => ?_
            rcases List.mem_cons.1 he with rfl | he
            · exact hp
            · exact ih e he
          · exact .inr ⟨[], a, es, rfl, hp, ih⟩
        · exact .inr ⟨a :: pre, e, post, rfl, h1, h2⟩
    rcases split es with hp | ⟨pre, e, post, rfl, h1, h2⟩
    · exact ⟨_, C18_none_partial objs s n h x hx es hes hp⟩
    · cases he : e.equip with
      | none => exact ⟨_, C18_keyError objs s n h x hx pre post e hes he h2⟩
      | some q =>
        obtain ⟨ty, nm⟩ := q
        have : ty = "PowerTransformer" := by
          by_contra hty; exact h1 ⟨ty, nm, he, hty⟩
        subst this
        exact ⟨_, C18_nearest_partial objs s n h x hx pre post e nm hes he h2⟩
  · exact ⟨_, C18_unknown _ x hx⟩

/-- C18 is violated: with the power source as source of the network, as everywhere in DiTTo, a node without transformer above
it raises `KeyError` instead of giving `None`. -/
theorem C18_violated : ∃ n, build exObjs "src" = .ok n ∧ upstreamTransformer n.digraph "d" = some (.error .keyError) :=
  ⟨_, by rfl, by decide +kernel⟩

/-- the transformer t1 is above node c; seen from bus a there is no transformer above d -/
example : (∃ n, build exObjs "src" = .ok n ∧ upstreamTransformer n.digraph "c" = some (.ok (some "t1"))) ∧
    ∃ n, build exObjs "a" = .ok n ∧ upstreamTransformer n.digraph "d" = some (.ok none) :=
  ⟨⟨_, by rfl, by decide +kernel⟩, ⟨_, by rfl, by decide +kernel⟩⟩

end Ditto.Net
