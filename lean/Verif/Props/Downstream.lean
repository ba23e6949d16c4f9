import Verif.Lemmas.Dfs
import Verif.Props.Upstream
import Mathlib.Data.List.Dedup

/-! C20: `get_all_elements_downstream`. -/
namespace Ditto.Net
open Ditto Ditto.Search Ditto.Spec

theorem mem_successors (d : List Edge) (u v : String) : v ∈ successors d u ↔ ∃ e ∈ d, e.u = u ∧ e.v = v := by
  unfold successors
  simp only [List.mem_map, List.mem_filter, decide_eq_true_eq]
  constructor
  · rintro ⟨e, ⟨he, hu⟩, hv⟩; exact ⟨e, he, hu, hv⟩
  · rintro ⟨e, he, hu, hv⟩; exact ⟨e, ⟨he, hu⟩, hv⟩

/-- the depth first search from a node of the directed network yields all edges below it -/
theorem dfs_arbo {n : Network} {s : String} {depth : String → Nat} (ha : Arbo n.digraph s depth) {x : String}
    (hx : x ∈ diNodes n.digraph) (u v : String) :
    (u, v) ∈ dfsEdges (successors n.digraph) (diNodes n.digraph) x ↔ Directed n u v ∧ Reach (Directed n) x u := by
  have hrel : ∀ a b, b ∈ successors n.digraph a ↔ Directed n a b := fun a b => mem_successors n.digraph a b
  have hcl : ∀ a b, b ∈ successors n.digraph a → b ∈ diNodes n.digraph := by
    intro a b hb
    obtain ⟨e, he, rfl, rfl⟩ := (mem_successors _ _ _).1 hb
    unfold diNodes
    exact List.mem_flatMap.2 ⟨e, he, by simp⟩
  obtain ⟨h1, h2⟩ := dfs_tree (successors n.digraph) (diNodes n.digraph) hcl x hx
  constructor
  · intro h
    obtain ⟨ha, hb⟩ := h1 u v h
    exact ⟨(hrel u v).1 ha, reach_mono (fun a b h => (hrel a b).1 h) hb⟩
  · rintro ⟨hd, hr⟩
    have hdepth : ∀ a b, Reach (Directed n) a b → depth a ≤ depth b := by
      intro a b hab
      induction hab with
      | refl => exact Nat.le_refl _
      | tail _ hs ih =>
        obtain ⟨e, he, rfl, rfl⟩ := hs
        have := ha.step e he; omega
    rcases h2 v ((reach_mono (fun a b h => (hrel a b).2 h) hr).tail ((hrel u v).2 hd)) with rfl | ⟨w, hw⟩
    · have := hdepth _ _ hr
      obtain ⟨e, he, rfl, rfl⟩ := hd
      have := ha.step e he; omega
    · have hwd := (hrel w v).1 (h1 w v hw).1
      obtain ⟨e, he, rfl, rfl⟩ := hd
      obtain ⟨e', he', rfl, hv⟩ := hwd
      have := ha.uniq e' he' e he hv
      subst this
      exact hw

/-- C20, the names collected: the ends and the equipment of the edges below the node. -/
theorem C20_names (objs : List NetObj) (s : String) (n : Network) (h : build objs s = .ok n) (x : String)
    (l : List (Option String)) (hl : downstreamNames n x = .ok l) (nm : Option String) :
    nm ∈ l ↔ ∃ u v, Reach (Directed n) x u ∧ Directed n u v ∧
      (nm = some u ∨ nm = some v ∨ ∃ ty, n.graph.equipOf u v = some (ty, nm)) := by
  obtain ⟨depth, ha⟩ := arbo_of_build h
  unfold downstreamNames at hl
  split at hl
  · rename_i hx
    simp only [Except.ok.injEq] at hl
    subst hl
    rw [List.mem_flatMap]
    constructor
    · rintro ⟨⟨u, v⟩, hp, hm⟩
      obtain ⟨hd, hr⟩ := (dfs_arbo ha hx u v).1 hp
      refine ⟨u, v, hr, hd, ?_⟩
      simp only [List.cons_append, List.nil_append, List.mem_cons] at hm
      rcases hm with hm | hm | hm
      · exact .inl hm
      · exact .inr (.inl hm)
      · split at hm
        · rename_i ty nm' he
          simp only [List.mem_singleton] at hm
          subst hm
          exact .inr (.inr ⟨ty, he⟩)
        · simp at hm
    · rintro ⟨u, v, hr, hd, hm⟩
      refine ⟨(u, v), (dfs_arbo ha hx u v).2 ⟨hd, hr⟩, ?_⟩
      simp only [List.cons_append, List.nil_append, List.mem_cons]
      rcases hm with hm | hm | ⟨ty, hm⟩
      · exact .inl hm
      · exact .inr (.inl hm)
      · right; right
        unfold Graph.equipOf at hm
        rw [hm]; simp
  · simp at hl

theorem lookupAll_ok {β : Type} (names : Option String → Option β) (l : List (Option String)) (rs : List β)
    (h : lookupAll names l = .ok rs) : List.Forall₂ (fun x r => names x = some r) l rs := by
  induction l generalizing rs with
  | nil => simp only [lookupAll, Except.ok.injEq] at h; subst h; exact .nil
  | cons x l ih =>
    unfold lookupAll at h
    split at h
    · simp at h
    · rename_i r hr
      split at h
      · simp at h
      · rename_i rs' hrs
        simp only [Except.ok.injEq] at h
        subst h
        exact .cons hr (ih rs' hrs)

/-- C20: below a node that feeds something, the result is exactly the objects named by the nodes that can be reached from the
node (itself included) and by the equipment on the way. (Missing: nodes that feed nothing, see `C20_leaf_violated`.) -/
theorem C20_exact_partial {β : Type} (objs : List NetObj) (s : String) (n : Network) (h : build objs s = .ok n) (x y : String)
    (hy : Directed n x y) (names : Option String → Option β) (rs : List β) (hr : elementsDownstream n names x = .ok rs)
    (o : β) :
    o ∈ rs ↔ (∃ v, Reach (Directed n) x v ∧ names (some v) = some o) ∨
      ∃ u v ty nm, Reach (Directed n) x u ∧ Directed n u v ∧ n.graph.equipOf u v = some (ty, nm) ∧ names nm = some o := by
  unfold elementsDownstream at hr
  split at hr
  · simp at hr
  · rename_i l hl
    have hf := lookupAll_ok names _ _ hr
    have hmem : o ∈ rs ↔ ∃ nm ∈ l, names nm = some o := by
      have : ∀ (l : List (Option String)) rs, List.Forall₂ (fun x r => names x = some r) l rs →
          (o ∈ rs ↔ ∃ nm ∈ l, names nm = some o) := by
        intro l rs hf
        induction hf with
        | nil => simp
        | cons h _ ih =>
          simp only [List.mem_cons, exists_eq_or_imp, ih, h, Option.some.injEq]
          rw [eq_comm]
      rw [this _ _ hf]
      simp only [List.mem_dedup]
    rw [hmem]
    have key := C20_names objs s n h x l hl
    constructor
    · rintro ⟨nm, hn, ho⟩
      obtain ⟨u, v, hu, hd, rfl | rfl | ⟨ty, hq⟩⟩ := (key nm).1 hn
      · exact .inl ⟨u, hu, ho⟩
      · exact .inl ⟨v, hu.tail hd, ho⟩
      · exact .inr ⟨u, v, ty, nm, hu, hd, hq, ho⟩
    · rintro (⟨v, hv, ho⟩ | ⟨u, v, ty, nm, hu, hd, hq, ho⟩)
      · refine ⟨some v, (key _).2 ?_, ho⟩
        rcases Relation.ReflTransGen.cases_tail hv with rfl | ⟨u, hu, hd⟩
        · exact ⟨v, y, .refl, hy, .inl rfl⟩
        · exact ⟨u, v, hu, hd, .inr (.inl rfl)⟩
      · exact ⟨nm, (key _).2 ⟨u, v, hu, hd, .inr (.inr ⟨ty, hq⟩)⟩, ho⟩

/-- C20: it raises `ValueError` iff the node is not in the directed network or a name below it has no object. -/
theorem C20_error_iff {β : Type} (objs : List NetObj) (s : String) (n : Network) (h : build objs s = .ok n) (x : String)
    (names : Option String → Option β) :
    elementsDownstream n names x = .error .valueError ↔ x ∉ diNodes n.digraph ∨ ∃ u v nm, Reach (Directed n) x u ∧
      Directed n u v ∧ (nm = some u ∨ nm = some v ∨ ∃ ty, n.graph.equipOf u v = some (ty, nm)) ∧ names nm = none := by
  have gen : ∀ l, lookupAll names l = .error .valueError ↔ ∃ nm ∈ l, names nm = none := by
    intro l
    induction l with
    | nil => simp [lookupAll]
    | cons a l ih =>
      unfold lookupAll
      cases ha : names a with
      | none => simp [ha]
      | some r =>
        simp only [List.mem_cons, exists_eq_or_imp, ha, reduceCtorEq, false_or]
        rw [← ih]
        cases hl : lookupAll names l with
        | error e => simp
        | ok rs => simp
  have herr : ∀ l e, lookupAll names l = .error e → e = .valueError := by
    intro l
    induction l with
    | nil => simp [lookupAll]
    | cons a l ih =>
      intro e he
      unfold lookupAll at he
      split at he
      · simpa using he.symm
      · split at he
        · rename_i hl
          simp only [Except.error.injEq] at he
          subst he; exact ih _ hl
        · simp at he
  unfold elementsDownstream
  by_cases hx : x ∈ diNodes n.digraph
  · simp only [hx, not_true_eq_false, false_or]
    cases hl : downstreamNames n x with
    | error e => unfold downstreamNames at hl; rw [if_pos hx] at hl; simp at hl
    | ok l =>
      simp only
      rw [gen]
      constructor
      · rintro ⟨nm, hm, hn⟩
        rw [List.mem_dedup] at hm
        obtain ⟨u, v, h1, h2, h3⟩ := (C20_names objs s n h x l hl nm).1 hm
        exact ⟨u, v, nm, h1, h2, h3, hn⟩
      · rintro ⟨u, v, nm, h1, h2, h3, hn⟩
        exact ⟨nm, List.mem_dedup.2 ((C20_names objs s n h x l hl nm).2 ⟨u, v, h1, h2, h3⟩), hn⟩
  · simp only [hx, not_false_eq_true, true_or, iff_true]
    unfold downstreamNames
    rw [if_neg hx]

/-- C20 is violated at the ends of the network: for a node that feeds nothing the result is empty, without the node itself. -/
theorem C20_leaf_violated : ∃ n, build exObjs "src" = .ok n ∧ Reach (Directed n) "src" "load" ∧
    elementsDownstream n id "load" = .ok [] := by
  have h1 : Connects exObjs "src" "a" := ⟨_, List.mem_cons_self, .inr (.inr ⟨rfl, rfl⟩)⟩
  have h2 : Connects exObjs "a" "b" := ⟨exObjs[1], by decide, .inr (.inl ⟨rfl, rfl⟩)⟩
  have h3 : Connects exObjs "b" "c" := ⟨exObjs[2], by decide, .inl (.inl ⟨rfl, rfl⟩)⟩
  have h4 : Connects exObjs "c" "load" := ⟨exObjs[3], by decide, .inl (.inr ⟨rfl, rfl⟩)⟩
  exact ⟨_, by rfl, ((C16_arborescence exObjs "src" _ (by rfl)).2.2.2.1 _).1
    ((((Relation.ReflTransGen.single h1).tail h2).tail h3).tail h4), by decide +kernel⟩

example : ∃ n, build exObjs "src" = .ok n ∧
    elementsDownstream n id "b" = .ok ["b", "t1", "c", "load"] := ⟨_, by rfl, by decide +kernel⟩

end Ditto.Net
