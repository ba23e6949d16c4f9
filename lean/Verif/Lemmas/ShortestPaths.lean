import Verif.Model.PhasePath
import Verif.Lemmas.SimplePaths

/-! The paths of `single_source_shortest_path`. -/
namespace Ditto.Net
open Ditto Ditto.Search Ditto.Spec

theorem lookup_append_ne {ps : List (String × List String)} {k c : String} {p : List String} (h : c ≠ k) :
    (ps ++ [(k, p)]).lookup c = ps.lookup c := by
  induction ps with
  | nil => have : (c == k) = false := by simpa using h
           simp [List.lookup, this]
  | cons a ps ih =>
    obtain ⟨x, q⟩ := a
    simp only [List.cons_append, List.lookup_cons, ih]

theorem lookup_append_self {ps : List (String × List String)} {k : String} {p : List String} (h : k ∉ ps.map (·.1)) :
    (ps ++ [(k, p)]).lookup k = some p := by
  induction ps with
  | nil => simp
  | cons a ps ih =>
    obtain ⟨x, q⟩ := a
    simp only [List.map_cons, List.mem_cons, not_or] at h
    have : (k == x) = false := by simpa using h.1
    simp [List.lookup_cons, this, ih h.2]

/-- invariant of the construction of the paths -/
structure PathsInv (s : String) (T : List (String × String)) (ps : List (String × List String)) : Prop where
  keys : ps.map (·.1) = s :: T.map (·.2)
  path : ∀ c p, ps.lookup c = some p → p.head? = some s ∧ p.getLast? = some c ∧ p.IsChain (fun u v => (u, v) ∈ T)
  some : ∀ c ∈ s :: T.map (·.2), ps.lookup c ≠ none

theorem pathsInv_fold {s : String} {T : List (String × String)} (hnd : (s :: T.map (·.2)).Nodup)
    (hfirst : ∀ es1 e es2, T = es1 ++ e :: es2 → e.1 ∈ s :: es1.map (·.2)) :
    PathsInv s T (T.foldl addPath [(s, [s])]) := by
  suffices h : ∀ T1 T2, T = T1 ++ T2 → PathsInv s T1 (T1.foldl addPath [(s, [s])]) from h T [] (by simp)
  intro T1
  induction T1 using List.reverseRecOn with
  | nil =>
    intro T2 _
    refine ⟨rfl, ?_, ?_⟩
    · intro c p h
      simp only [List.foldl_nil, List.lookup_cons, List.lookup_nil] at h
      split at h
      · rename_i hc
        simp only [beq_iff_eq] at hc
        subst hc
        simp only [Option.some.injEq] at h
        subst h
        exact ⟨rfl, rfl, by simp⟩
      · simp at h
    · intro c hc
      simp only [List.map_nil, List.mem_singleton] at hc
      subst hc
      simp
  | append_singleton T1 e ih =>
    intro T2 heq
    have heq' : T = T1 ++ e :: T2 := by simpa using heq
    have hi := ih _ heq'
    rw [List.foldl_append]
    simp only [List.foldl_cons, List.foldl_nil]
    generalize T1.foldl addPath [(s, [s])] = ps at hi
    have hsome := hi.some e.1 (hfirst T1 e T2 heq')
    have hnew : e.2 ∉ ps.map (·.1) := by
      rw [hi.keys]
      rw [heq', List.map_append, ← List.cons_append, List.nodup_append] at hnd
      intro h
      exact hnd.2.2 _ h _ (by simp) rfl
    unfold addPath
    cases hl : ps.lookup e.1 with
    | none => exact absurd hl hsome
    | some p =>
      simp only
      refine ⟨by simp [hi.keys], ?_, ?_⟩
      · intro c q hq
        by_cases hc : c = e.2
        · subst hc
          rw [lookup_append_self hnew] at hq
          simp only [Option.some.injEq] at hq
          subst hq
          obtain ⟨h1, h2, h3⟩ := hi.path _ _ hl
          refine ⟨by rw [List.head?_append, h1]; rfl, by simp, ?_⟩
          rw [List.isChain_append]
          refine ⟨h3.imp fun _ _ h => List.mem_append_left _ h, by simp, ?_⟩
          intro x hx y hy
          rw [h2] at hx
          simp only [Option.mem_def, Option.some.injEq, List.head?_cons] at hx hy
          subst hx; subst hy
          simp
        · rw [lookup_append_ne hc] at hq
          obtain ⟨h1, h2, h3⟩ := hi.path _ _ hq
          exact ⟨h1, h2, h3.imp fun _ _ h => List.mem_append_left _ h⟩
      · intro c hc
        by_cases hce : c = e.2
        · subst hce
          rw [lookup_append_self hnew]
          simp
        · rw [lookup_append_ne hce]
          apply hi.some
          simp only [List.map_append, List.map_cons, List.map_nil, List.mem_cons, List.mem_append, List.not_mem_nil, or_false] at hc ⊢
          tauto

theorem lookup_mem_keys {ps : List (String × List String)} {c : String} {p : List String} (h : ps.lookup c = some p) :
    c ∈ ps.map (·.1) := by
  induction ps with
  | nil => simp at h
  | cons a ps ih =>
    obtain ⟨x, q⟩ := a
    simp only [List.lookup_cons] at h
    split at h
    · rename_i hc; simp only [beq_iff_eq] at hc; simp [hc]
    · simp [ih h]

/-- along a chain whose distances increase by one no node is repeated -/
theorem chain_dist {T : List (String × String)} {d : String → Nat} (hd : ∀ u v, (u, v) ∈ T → d v = d u + 1) :
    ∀ (p : List String) (x : String), p.head? = some x → p.IsChain (fun u v => (u, v) ∈ T) →
      p.Nodup ∧ (∀ y ∈ p, d x ≤ d y) ∧ ∀ c, p.getLast? = some c → d c + 1 = d x + p.length := by
  intro p
  induction p with
  | nil => intro x h; simp at h
  | cons a p ih =>
    intro x h hc
    obtain rfl : a = x := by simpa using h
    cases p with
    | nil => simp
    | cons b p =>
      obtain ⟨h1, h2⟩ := List.isChain_cons_cons.1 hc
      obtain ⟨i1, i2, i3⟩ := ih b rfl h2
      have hab := hd _ _ h1
      refine ⟨List.nodup_cons.2 ⟨fun hm => ?_, i1⟩, ?_, ?_⟩
      · have := i2 _ hm; omega
      · intro y hy
        rcases List.mem_cons.1 hy with rfl | hy
        · exact le_refl _
        · have := i2 y hy; omega
      · intro c hcl
        rw [List.getLast?_cons_cons] at hcl
        have := i3 c hcl
        simp only [List.length_cons] at this ⊢
        omega

theorem shortestPaths_spec {objs : List NetObj} {s : String} {g : Graph} (h : ClosedNet objs s g) (c : String) :
    (∀ p, (shortestPaths g s).lookup c = some p →
      IsSimplePath (ClosedLink objs) s c p ∧ ∀ k, Walk (ClosedLink objs) s k c → p.length ≤ k + 1) ∧
    ((shortestPaths g s).lookup c = none ↔ ¬ Reach (ClosedLink objs) s c) := by
  obtain ⟨d, ht⟩ := bfs_tree g.neighbors g.nodes (fun u _ v hv => h.closed u v (mem_neighbors.1 hv)) s h.source
  have hrel : (fun u v => v ∈ g.neighbors u) = ClosedLink objs := by
    funext u v; exact propext (mem_neighbors.trans (h.adj u v))
  have hi := pathsInv_fold ht.nodup ht.first
  unfold shortestPaths
  constructor
  · intro p hp
    obtain ⟨h1, h2, h3⟩ := hi.path c p hp
    obtain ⟨hn, _, hlen⟩ := chain_dist ht.step p s h1 h3
    refine ⟨⟨h1, h2, hn, ?_⟩, fun k hk => ?_⟩
    · rw [← hrel]; exact h3.imp fun u v huv => ht.edge u v huv
    · rw [← hrel] at hk
      have := ht.dist_le hk
      have := hlen c h2
      have := ht.d0
      omega
  · rw [← hrel, ← ht.reach]
    constructor
    · intro hn hr; exact hi.some c hr hn
    · intro hn
      rcases hl : List.lookup c _ with _ | p
      · rfl
      · exact absurd (hi.keys ▸ lookup_mem_keys hl) hn

end Ditto.Net
