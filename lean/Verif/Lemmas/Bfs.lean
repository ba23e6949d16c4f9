import Verif.Model.Search
import Verif.Spec.Walk
import Mathlib.Data.List.Nodup
import Mathlib.Data.List.Sublists
import Mathlib.Logic.Function.Basic

/-! The breadth first search yields a shortest path tree of the nodes that can be reached. -/
namespace Ditto.Search
open Ditto.Spec

variable {α : Type} [DecidableEq α]

/-- Invariant while the neighbours of `p` are visited; `P` are the nodes taken from the queue before `p`; `done` are the
neighbours of `p` visited so far. -/
structure Inv (nb : α → List α) (s : α) (P : List α) (p : α) (done : List α) (st : Bfs α) (d : α → Nat) : Prop where
  vis : st.visited = P ++ p :: st.queue
  tree : st.visited = s :: st.edges.map (·.2)
  nodup : st.visited.Nodup
  edge : ∀ e ∈ st.edges, e.2 ∈ nb e.1 ∧ d e.2 = d e.1 + 1
  first : ∀ es1 e es2, st.edges = es1 ++ e :: es2 → e.1 ∈ s :: es1.map (·.2)
  closed : ∀ x ∈ P, ∀ y ∈ nb x, y ∈ st.visited ∧ d y ≤ d x + 1
  closedp : ∀ y ∈ done, y ∈ st.visited ∧ d y ≤ d p + 1
  d0 : d s = 0
  sorted : st.visited.Pairwise (d · ≤ d ·)
  top : ∀ x ∈ st.visited, d x ≤ d p + 1

theorem Inv.child {nb : α → List α} {s : α} {P : List α} {p : α} {done : List α} {st : Bfs α} {d : α → Nat}
    (h : Inv nb s P p done st d) {c : α} (hc : c ∈ nb p) :
    ∃ d', Inv nb s P p (done ++ [c]) (bfsChild p st c) d' := by
  unfold bfsChild
  split
  · rename_i hv
    refine ⟨d, h.vis, h.tree, h.nodup, h.edge, h.first, h.closed, fun y hy => ?_, h.d0, h.sorted, h.top⟩
    rcases List.mem_append.1 hy with hy | hy
    · exact h.closedp y hy
    · simp only [List.mem_singleton] at hy; subst hy; exact ⟨hv, h.top _ hv⟩
  · rename_i hv
    have hold : ∀ x ∈ st.visited, Function.update d c (d p + 1) x = d x := by
      intro x hx
      rw [Function.update_of_ne]
      rintro rfl
      exact hv hx
    have hp : p ∈ st.visited := by rw [h.vis]; simp
    have hs : s ∈ st.visited := by rw [h.tree]; simp
    have hself : Function.update d c (d p + 1) c = d p + 1 := Function.update_self _ _ _
    have h1 : ∀ e ∈ st.edges, e.1 ∈ st.visited := by
      intro e he
      obtain ⟨es1, es2, heq⟩ := List.append_of_mem he
      have := h.first es1 e es2 heq
      rw [h.tree, heq]
      rcases List.mem_cons.1 this with hh | hh
      · rw [hh]; simp
      · exact List.mem_cons_of_mem _ (by rw [List.map_append]; exact List.mem_append_left _ hh)
    have h2 : ∀ e ∈ st.edges, e.2 ∈ st.visited := by
      intro e he; rw [h.tree]; exact List.mem_cons_of_mem _ (List.mem_map_of_mem he)
    refine ⟨Function.update d c (d p + 1), by simp [h.vis], ?_, ?_, ?_, ?_, ?_, ?_, ?_, ?_, ?_⟩
    · simp only [List.map_append, List.map_cons, List.map_nil]
      rw [h.tree]; rfl
    · rw [List.nodup_append]
      refine ⟨h.nodup, by simp, fun a ha b hb => ?_⟩
      simp only [List.mem_singleton] at hb; subst hb; rintro rfl; exact hv ha
    · intro e he
      rcases List.mem_append.1 he with he | he
      · rw [hold _ (h2 e he), hold _ (h1 e he)]; exact h.edge e he
      · simp only [List.mem_singleton] at he; subst he
        simp only [hself, hold p hp]; exact ⟨hc, trivial⟩
    · intro es1 e es2 heq
      simp only at heq
      rcases List.append_eq_append_iff.1 heq with ⟨a', h1', h2'⟩ | ⟨c', h1', h2'⟩
      · cases a' with
        | nil =>
          simp only [List.nil_append, List.cons.injEq] at h2'
          obtain ⟨rfl, _⟩ := h2'
          rw [h1', List.append_nil, ← h.tree]; exact hp
        | cons x a' =>
          simp only [List.cons_append, List.cons.injEq] at h2'
          obtain ⟨_, h2'⟩ := h2'
          cases a' <;> simp at h2'
      · cases c' with
        | nil =>
          simp only [List.nil_append, List.cons.injEq] at h2'
          obtain ⟨rfl, _⟩ := h2'
          simp only [List.append_nil] at h1'
          rw [← h1', ← h.tree]; exact hp
        | cons x c' =>
          simp only [List.cons_append, List.cons.injEq] at h2'
          obtain ⟨rfl, _⟩ := h2'
          exact h.first es1 e c' h1'
    · intro x hx y hy
      obtain ⟨hyv, hyd⟩ := h.closed x hx y hy
      have hxv : x ∈ st.visited := by rw [h.vis]; exact List.mem_append_left _ hx
      exact ⟨List.mem_append_left _ hyv, by rw [hold y hyv, hold x hxv]; exact hyd⟩
    · intro y hy
      rcases List.mem_append.1 hy with hy | hy
      · obtain ⟨hyv, hyd⟩ := h.closedp y hy
        exact ⟨List.mem_append_left _ hyv, by rw [hold y hyv, hold p hp]; exact hyd⟩
      · simp only [List.mem_singleton] at hy; subst hy
        exact ⟨by simp, by rw [hself, hold p hp]⟩
    · rw [hold s hs]; exact h.d0
    · rw [List.pairwise_append]
      refine ⟨?_, by simp, fun a ha b hb => ?_⟩
      · exact h.sorted.imp_of_mem (fun ha hb hab => by rw [hold _ ha, hold _ hb]; exact hab)
      · simp only [List.mem_singleton] at hb; subst hb
        rw [hself, hold a ha]; exact h.top a ha
    · intro x hx
      rw [hold p hp]
      rcases List.mem_append.1 hx with hx | hx
      · rw [hold x hx]; exact h.top x hx
      · simp only [List.mem_singleton] at hx; subst hx; rw [hself]

theorem Inv.fold {nb : α → List α} {s : α} {P : List α} {p : α} (l : List α) {done : List α} {st : Bfs α} {d : α → Nat}
    (h : Inv nb s P p done st d) (hl : ∀ c ∈ l, c ∈ nb p) :
    ∃ d', Inv nb s P p (done ++ l) (l.foldl (bfsChild p) st) d' := by
  induction l generalizing done st d with
  | nil => exact ⟨d, by simpa using h⟩
  | cons c l ih =>
    obtain ⟨d1, h1⟩ := h.child (hl c (by simp))
    obtain ⟨d2, h2⟩ := ih h1 (fun c hc => hl c (by simp [hc]))
    exact ⟨d2, by simpa using h2⟩

/-- Invariant between two nodes of the queue -/
structure Inv0 (nb : α → List α) (s : α) (P : List α) (st : Bfs α) (d : α → Nat) : Prop where
  vis : st.visited = P ++ st.queue
  tree : st.visited = s :: st.edges.map (·.2)
  nodup : st.visited.Nodup
  edge : ∀ e ∈ st.edges, e.2 ∈ nb e.1 ∧ d e.2 = d e.1 + 1
  first : ∀ es1 e es2, st.edges = es1 ++ e :: es2 → e.1 ∈ s :: es1.map (·.2)
  closed : ∀ x ∈ P, ∀ y ∈ nb x, y ∈ st.visited ∧ d y ≤ d x + 1
  d0 : d s = 0
  sorted : st.visited.Pairwise (d · ≤ d ·)
  top : ∀ p q, st.queue = p :: q → ∀ x ∈ st.visited, d x ≤ d p + 1

theorem Inv0.next {nb : α → List α} {s : α} {P : List α} {st : Bfs α} {d : α → Nat} (h : Inv0 nb s P st d)
    {p : α} {q : List α} (hq : st.queue = p :: q) :
    ∃ d', Inv0 nb s (P ++ [p]) ((nb p).foldl (bfsChild p) { st with queue := q }) d' := by
  have hi : Inv nb s P p [] { st with queue := q } d :=
    ⟨by simp only [h.vis, hq], h.tree, h.nodup, h.edge, h.first, h.closed, by simp, h.d0, h.sorted, h.top p q hq⟩
  obtain ⟨d', h'⟩ := hi.fold (nb p) (fun _ h => h)
  refine ⟨d', by simp [h'.vis], h'.tree, h'.nodup, h'.edge, h'.first, ?_, h'.d0, h'.sorted, ?_⟩
  · intro x hx y hy
    rcases List.mem_append.1 hx with hx | hx
    · exact h'.closed x hx y hy
    · simp only [List.mem_singleton] at hx; subst hx; exact h'.closedp y (by simpa using hy)
  · intro p' q' hq' x hx
    have h1 := h'.top x hx
    have h2 : d' p ≤ d' p' := by
      have := h'.sorted
      rw [h'.vis, hq', List.pairwise_append] at this
      have := this.2.1
      rw [List.pairwise_cons] at this
      exact this.1 p' (by simp)
    omega

theorem Inv0.loop {nb : α → List α} {s : α} {nodes : List α} (hcl : ∀ u ∈ nodes, ∀ v ∈ nb u, v ∈ nodes) (hs : s ∈ nodes)
    (n : Nat) {P : List α} {st : Bfs α} {d : α → Nat} (h : Inv0 nb s P st d) (hn : nodes.length ≤ n + P.length) :
    ∃ P' d', Inv0 nb s P' (bfsLoop nb n st) d' ∧ (bfsLoop nb n st).queue = [] := by
  -- visited nodes are nodes of the graph
  have hsub : ∀ {P st d}, Inv0 nb s P st d → ∀ x ∈ st.visited, x ∈ nodes := by
    intro P st d h
    have gen : ∀ es es2, st.edges = es ++ es2 → ∀ e ∈ es, e.2 ∈ nodes := by
      intro es
      induction es using List.reverseRecOn with
      | nil => simp
      | append_singleton es e ih =>
        intro es2 heq e' he'
        have heq' : st.edges = es ++ e :: es2 := by simpa using heq
        rcases List.mem_append.1 he' with he' | he'
        · exact ih _ heq' e' he'
        · simp only [List.mem_singleton] at he'; subst he'
          have hm : e' ∈ st.edges := by rw [heq']; simp
          refine hcl e'.1 ?_ _ (h.edge e' hm).1
          rcases List.mem_cons.1 (h.first es e' es2 heq') with hh | hh
          · rw [hh]; exact hs
          · obtain ⟨x, hx, hxe⟩ := List.mem_map.1 hh
            rw [← hxe]; exact ih _ heq' x hx
    intro x hx
    rw [h.tree] at hx
    rcases List.mem_cons.1 hx with rfl | hx
    · exact hs
    · obtain ⟨e, he, rfl⟩ := List.mem_map.1 hx
      exact gen st.edges [] (by simp) e he
  induction n generalizing P st d with
  | zero =>
    refine ⟨P, d, h, ?_⟩
    have h1 : st.visited.length ≤ nodes.length := (h.nodup.subperm (hsub h)).length_le
    rw [h.vis, List.length_append] at h1
    have : st.queue.length = 0 := by omega
    exact List.length_eq_zero_iff.1 this
  | succ n ih =>
    unfold bfsLoop
    cases hq : st.queue with
    | nil => exact ⟨P, d, h, by simpa using hq⟩
    | cons p q =>
      obtain ⟨d', h'⟩ := h.next hq
      obtain ⟨P', d'', h'', hq''⟩ := ih h' (by simp; omega)
      exact ⟨P', d'', by simpa using h'', by simpa using hq''⟩

/-- What the breadth first search computes. `d` is the distance from the source. -/
structure BfsTree (nb : α → List α) (s : α) (T : List (α × α)) (d : α → Nat) : Prop where
  edge : ∀ u v, (u, v) ∈ T → v ∈ nb u
  nodup : (s :: T.map (·.2)).Nodup
  reach : ∀ v, v ∈ s :: T.map (·.2) ↔ Reach (fun u v => v ∈ nb u) s v
  parent : ∀ u v, (u, v) ∈ T → u ∈ s :: T.map (·.2)
  d0 : d s = 0
  step : ∀ u v, (u, v) ∈ T → d v = d u + 1
  le : ∀ u v, u ∈ s :: T.map (·.2) → v ∈ nb u → d v ≤ d u + 1
  first : ∀ es1 e es2, T = es1 ++ e :: es2 → e.1 ∈ s :: es1.map (·.2)

theorem bfs_tree (nb : α → List α) (nodes : List α) (hcl : ∀ u ∈ nodes, ∀ v ∈ nb u, v ∈ nodes) (s : α) (hs : s ∈ nodes) :
    ∃ d, BfsTree nb s (bfsEdges nb nodes.length s) d := by
  have h0 : Inv0 nb s [] ⟨[s], [s], []⟩ (fun _ => 0) :=
    ⟨rfl, rfl, by simp, by simp, by simp, by simp, rfl, by simp, by simp⟩
  obtain ⟨P, d, h, hq⟩ := h0.loop hcl hs nodes.length (by simp)
  unfold bfsEdges
  refine ⟨d, fun u v he => (h.edge _ he).1, h.tree ▸ h.nodup, fun v => ⟨fun hv => ?_, fun hv => ?_⟩, ?_, h.d0,
    fun u v he => (h.edge _ he).2, fun u v hu hv => ?_, h.first⟩
  · have gen : ∀ es es2, (bfsLoop nb nodes.length ⟨[s], [s], []⟩).edges = es ++ es2 → ∀ e ∈ es,
        Reach (fun u v => v ∈ nb u) s e.2 := by
      intro es
      induction es using List.reverseRecOn with
      | nil => simp
      | append_singleton es e ih =>
        intro es2 heq e' he'
        have heq' : (bfsLoop nb nodes.length ⟨[s], [s], []⟩).edges = es ++ e :: es2 := by simpa using heq
        rcases List.mem_append.1 he' with he' | he'
        · exact ih _ heq' e' he'
        · simp only [List.mem_singleton] at he'; subst he'
          have hm := (h.edge e' (by rw [heq']; simp)).1
          rcases List.mem_cons.1 (h.first es e' es2 heq') with hh | hh
          · exact .single (hh ▸ hm)
          · obtain ⟨x, hx, hxe⟩ := List.mem_map.1 hh
            exact (ih _ heq' x hx).tail (hxe ▸ hm)
    rcases List.mem_cons.1 hv with rfl | hv
    · exact .refl
    · obtain ⟨e, he, rfl⟩ := List.mem_map.1 hv
      exact gen _ [] (by simp) e he
  · rw [← h.tree]
    induction hv with
    | refl => rw [h.tree]; simp
    | @tail b c _ hr ih =>
      have : b ∈ P := by have := ih; rwa [h.vis, hq, List.append_nil] at this
      exact (h.closed _ this _ hr).1
  · intro u v he
    obtain ⟨es1, es2, heq⟩ := List.append_of_mem he
    have := h.first es1 _ es2 heq
    rw [heq, List.map_append]
    rcases List.mem_cons.1 this with hh | hh
    · simp only at hh; rw [hh]; simp
    · exact List.mem_cons_of_mem _ (List.mem_append_left _ hh)
  · rw [← h.tree, h.vis, hq, List.append_nil] at hu
    exact (h.closed u hu v hv).2

theorem BfsTree.unique {nb : α → List α} {s : α} {T : List (α × α)} {d : α → Nat} (h : BfsTree nb s T d) {u u' v : α}
    (h1 : (u, v) ∈ T) (h2 : (u', v) ∈ T) : u = u' := by
  have hn := (List.nodup_cons.1 h.nodup).2
  have := List.inj_on_of_nodup_map hn h1 h2 rfl
  exact congrArg Prod.fst this

theorem BfsTree.no_parent {nb : α → List α} {s : α} {T : List (α × α)} {d : α → Nat} (h : BfsTree nb s T d) (u : α) :
    (u, s) ∉ T := fun hu => (List.nodup_cons.1 h.nodup).1 (List.mem_map.2 ⟨_, hu, rfl⟩)

/-- every visited node is reached along the tree, in as many steps as its distance -/
theorem BfsTree.walk {nb : α → List α} {s : α} {T : List (α × α)} {d : α → Nat} (h : BfsTree nb s T d) {v : α}
    (hv : v ∈ s :: T.map (·.2)) : Walk (fun u v => (u, v) ∈ T) s (d v) v := by
  generalize hn : d v = n
  induction n generalizing v with
  | zero =>
    rcases List.mem_cons.1 hv with rfl | hv
    · exact .nil
    · obtain ⟨⟨u, v⟩, he, rfl⟩ := List.mem_map.1 hv
      have := h.step u v he
      simp only at hn; omega
  | succ n ih =>
    rcases List.mem_cons.1 hv with rfl | hv
    · have := h.d0; omega
    · obtain ⟨⟨u, v⟩, he, rfl⟩ := List.mem_map.1 hv
      have := h.step u v he
      simp only at hn
      exact (ih (h.parent u v he) (by omega)).snoc he

theorem BfsTree.dist_le {nb : α → List α} {s : α} {T : List (α × α)} {d : α → Nat} (h : BfsTree nb s T d) {v : α} {n : Nat}
    (hw : Walk (fun u v => v ∈ nb u) s n v) : d v ≤ n := by
  induction hw with
  | nil => rw [h.d0]
  | snoc hw hr ih =>
    have := h.le _ _ ((h.reach _).2 hw.reach) hr
    omega

end Ditto.Search
