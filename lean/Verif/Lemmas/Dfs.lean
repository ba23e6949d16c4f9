import Verif.Model.Search
import Verif.Spec.Walk
import Mathlib.Data.List.Nodup
import Mathlib.Algebra.BigOperators.Group.List.Basic
import Mathlib.Algebra.Order.BigOperators.Group.List

/-! The depth first search visits exactly the nodes that can be reached. -/
namespace Ditto.Search
open Ditto.Spec

variable {α : Type} [DecidableEq α]

structure DInv (nb : α → List α) (s : α) (st : Dfs α) : Prop where
  tree : st.visited = s :: st.edges.map (·.2)
  nodup : st.visited.Nodup
  edge : ∀ e ∈ st.edges, e.2 ∈ nb e.1 ∧ e.1 ∈ st.visited
  stack : ∀ p ∈ st.stack, p.1 ∈ st.visited ∧ ∀ y ∈ p.2, y ∈ nb p.1
  closed : ∀ x ∈ st.visited, ∀ y ∈ nb x, y ∈ st.visited ∨ ∃ p ∈ st.stack, p.1 = x ∧ y ∈ p.2
  reach : ∀ x ∈ st.visited, Reach (fun u v => v ∈ nb u) s x

theorem DInv.step {nb : α → List α} {s : α} {st : Dfs α} (h : DInv nb s st) : DInv nb s (dfsStep nb st) := by
  obtain ⟨stack, visited, edges⟩ := st
  unfold dfsStep
  match stack, h with
  | [], h => exact h
  | (x, []) :: rest, h =>
    refine ⟨h.tree, h.nodup, h.edge, fun p hp => h.stack p (by simp [hp]), fun a ha y hy => ?_, h.reach⟩
    rcases h.closed a ha y hy with h1 | ⟨p, hp, h1, h2⟩
    · exact .inl h1
    · rcases List.mem_cons.1 hp with rfl | hp
      · simp at h2
      · exact .inr ⟨p, hp, h1, h2⟩
  | (x, c :: cs) :: rest, h =>
    simp only
    have hx := h.stack (x, c :: cs) (by simp)
    split
    · rename_i hc
      refine ⟨h.tree, h.nodup, h.edge, fun p hp => ?_, fun a ha y hy => ?_, h.reach⟩
      · rcases List.mem_cons.1 hp with rfl | hp
        · exact ⟨hx.1, fun y hy => hx.2 y (by simp [hy])⟩
        · exact h.stack p (by simp [hp])
      · rcases h.closed a ha y hy with h1 | ⟨p, hp, h1, h2⟩
        · exact .inl h1
        · rcases List.mem_cons.1 hp with rfl | hp
          · rcases List.mem_cons.1 h2 with rfl | h2
            · exact .inl hc
            · exact .inr ⟨(x, cs), by simp, h1, h2⟩
          · exact .inr ⟨p, by simp [hp], h1, h2⟩
    · rename_i hc
      have hcn : c ∈ nb x := hx.2 c (by simp)
      refine ⟨?_, ?_, fun e he => ?_, fun p hp => ?_, fun a ha y hy => ?_, fun a ha => ?_⟩
      · have := h.tree
        simp only at this ⊢
        rw [this]; simp
      · rw [List.nodup_append]
        refine ⟨h.nodup, by simp, fun a ha b hb => ?_⟩
        simp only [List.mem_singleton] at hb; subst hb; rintro rfl; exact hc ha
      · rcases List.mem_append.1 he with he | he
        · exact ⟨(h.edge e he).1, List.mem_append_left _ (h.edge e he).2⟩
        · simp only [List.mem_singleton] at he; subst he
          exact ⟨hcn, List.mem_append_left _ hx.1⟩
      · simp only [List.mem_cons] at hp
        rcases hp with rfl | rfl | hp
        · exact ⟨by simp, fun y hy => hy⟩
        · exact ⟨List.mem_append_left _ hx.1, fun y hy => hx.2 y (by simp [hy])⟩
        · have := h.stack p (by simp [hp])
          exact ⟨List.mem_append_left _ this.1, this.2⟩
      · rcases List.mem_append.1 ha with ha | ha
        · rcases h.closed a ha y hy with h1 | ⟨p, hp, h1, h2⟩
          · exact .inl (List.mem_append_left _ h1)
          · rcases List.mem_cons.1 hp with rfl | hp
            · rcases List.mem_cons.1 h2 with rfl | h2
              · exact .inl (by simp)
              · exact .inr ⟨(x, cs), by simp, h1, h2⟩
            · exact .inr ⟨p, by simp [hp], h1, h2⟩
        · simp only [List.mem_singleton] at ha; subst ha
          exact .inr ⟨(a, nb a), by simp, rfl, hy⟩
      · rcases List.mem_append.1 ha with ha | ha
        · exact h.reach a ha
        · simp only [List.mem_singleton] at ha; subst ha
          exact (h.reach x hx.1).tail hcn

/-- number of rounds still to come -/
def rounds (nb : α → List α) (nodes : List α) (st : Dfs α) : Nat :=
  (st.stack.map fun p => p.2.length + 1).sum +
    ((nodes.filter fun u => u ∉ st.visited).map fun u => (nb u).length + 1).sum

theorem filter_sum_le (nodes vis : List α) (f : α → Nat) (c : α) (hc : c ∈ nodes) (hv : c ∉ vis) :
    ((nodes.filter fun u => u ∉ vis ++ [c]).map f).sum + f c ≤ ((nodes.filter fun u => u ∉ vis).map f).sum := by
  have mono : ∀ l : List α, ((l.filter fun u => u ∉ vis ++ [c]).map f).sum ≤ ((l.filter fun u => u ∉ vis).map f).sum := by
    intro l
    induction l with
    | nil => simp
    | cons a l ih =>
      by_cases h1 : a ∈ vis
      · have h2 : a ∈ vis ++ [c] := by simp [h1]
        simpa [List.filter_cons, h1, h2] using ih
      · by_cases h2 : a = c
        · subst h2
          rw [List.filter_cons_of_neg (by simp), List.filter_cons_of_pos (by simpa using h1)]
          simp only [List.map_cons, List.sum_cons]; omega
        · rw [List.filter_cons_of_pos (by simp [h1, h2]), List.filter_cons_of_pos (by simpa using h1)]
          simp only [List.map_cons, List.sum_cons]; omega
  induction nodes with
  | nil => simp at hc
  | cons a l ih =>
    by_cases h2 : a = c
    · subst h2
      rw [List.filter_cons_of_neg (by simp), List.filter_cons_of_pos (by simpa using hv)]
      simp only [List.map_cons, List.sum_cons]
      have := mono l; omega
    · have hc' : c ∈ l := by
        rcases List.mem_cons.1 hc with rfl | h
        · exact absurd rfl h2
        · exact h
      have := ih hc'
      by_cases h1 : a ∈ vis
      · rw [List.filter_cons_of_neg (by simp [h1]), List.filter_cons_of_neg (by simpa using h1)]; exact this
      · rw [List.filter_cons_of_pos (by simp [h1, h2]), List.filter_cons_of_pos (by simpa using h1)]
        simp only [List.map_cons, List.sum_cons]; omega

theorem rounds_step {nb : α → List α} {nodes : List α} (hcl : ∀ u v, v ∈ nb u → v ∈ nodes) {s : α} {st : Dfs α}
    (h : DInv nb s st) (hne : st.stack ≠ []) : rounds nb nodes (dfsStep nb st) < rounds nb nodes st := by
  obtain ⟨stack, visited, edges⟩ := st
  unfold dfsStep rounds
  match stack, h, hne with
  | [], _, hne => exact absurd rfl hne
  | (x, []) :: rest, h, _ => simp
  | (x, c :: cs) :: rest, h, _ =>
    simp only
    split
    · simp
    · rename_i hc
      have := filter_sum_le nodes visited (fun u => (nb u).length + 1) c
        (hcl x c ((h.stack (x, c :: cs) (by simp)).2 c (by simp))) hc
      simp only [List.map_cons, List.sum_cons, List.length_cons]
      omega

theorem dfsLoop_inv {nb : α → List α} {nodes : List α} (hcl : ∀ u v, v ∈ nb u → v ∈ nodes) {s : α} (n : Nat) {st : Dfs α}
    (h : DInv nb s st) (hn : rounds nb nodes st ≤ n) :
    DInv nb s (dfsLoop nb n st) ∧ (dfsLoop nb n st).stack = [] := by
  induction n generalizing st with
  | zero =>
    refine ⟨h, ?_⟩
    obtain ⟨stack, visited, edges⟩ := st
    cases stack with
    | nil => rfl
    | cons p rest => simp [rounds] at hn
  | succ n ih =>
    unfold dfsLoop
    split
    · rename_i he; exact ⟨h, by simpa using he⟩
    · rename_i he
      have hne : st.stack ≠ [] := by simpa using he
      have := rounds_step hcl h hne
      exact ih h.step (by omega)

/-- The edges yielded from `s`: one for every other node that can be reached. -/
theorem dfs_tree (nb : α → List α) (nodes : List α) (hcl : ∀ u v, v ∈ nb u → v ∈ nodes) (s : α) (hs : s ∈ nodes) :
    (∀ u v, (u, v) ∈ dfsEdges nb nodes s → v ∈ nb u ∧ Reach (fun u v => v ∈ nb u) s u) ∧
    ∀ v, Reach (fun u v => v ∈ nb u) s v → v = s ∨ ∃ u, (u, v) ∈ dfsEdges nb nodes s := by
  have h0 : DInv nb s ⟨[(s, nb s)], [s], []⟩ := by
    refine ⟨rfl, by simp, by simp, by simp, ?_, ?_⟩
    · intro x hx y hy
      simp only [List.mem_singleton] at hx; subst hx
      exact .inr ⟨_, List.mem_singleton.2 rfl, rfl, hy⟩
    · intro x hx
      simp only [List.mem_singleton] at hx; subst hx
      exact .refl
  have hr : rounds nb nodes ⟨[(s, nb s)], [s], []⟩ ≤ (nodes.map fun u => (nb u).length + 1).sum := by
    have := filter_sum_le nodes [] (fun u => (nb u).length + 1) s hs (by simp)
    simp only [rounds, List.map_cons, List.map_nil, List.sum_cons, List.sum_nil]
    simp only [List.nil_append, List.not_mem_nil, not_false_eq_true, decide_true, List.filter_true] at this
    omega
  obtain ⟨h, he⟩ := dfsLoop_inv hcl _ h0 hr
  unfold dfsEdges
  refine ⟨fun u v huv => ⟨(h.edge _ huv).1, h.reach _ (h.edge _ huv).2⟩, fun v hv => ?_⟩
  have hvis : v ∈ (dfsLoop nb ((nodes.map fun u => (nb u).length + 1).sum) ⟨[(s, nb s)], [s], []⟩).visited := by
    induction hv with
    | refl => rw [h.tree]; simp
    | tail _ hr ih =>
      rcases h.closed _ ih _ hr with h1 | ⟨p, hp, _⟩
      · exact h1
      · rw [he] at hp; simp at hp
  rw [h.tree] at hvis
  rcases List.mem_cons.1 hvis with h1 | h1
  · exact .inl h1
  · obtain ⟨e, he, rfl⟩ := List.mem_map.1 h1
    exact .inr ⟨e.1, he⟩

end Ditto.Search
