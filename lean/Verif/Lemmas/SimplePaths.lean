import Verif.Lemmas.Closed
import Mathlib.Data.List.Chain

/-! The enumeration of the simple paths. -/
namespace Ditto.Net
open Ditto Ditto.Search Ditto.Spec

theorem mem_pathsFrom (nb : String → List String) (t : String) (n : Nat) : ∀ (vis : List String) (x : String), x ∈ vis →
    ∀ p, p ∈ pathsFrom nb t n vis x ↔
      IsSimplePath (fun u v => v ∈ nb u) x t p ∧ p.length ≤ n ∧ ∀ y ∈ p.tail, y ∉ vis := by
  induction n with
  | zero =>
    intro vis x _ p
    simp only [pathsFrom, List.not_mem_nil, Nat.le_zero_eq, List.length_eq_zero_iff, false_iff]
    rintro ⟨⟨h, _⟩, rfl, _⟩
    simp at h
  | succ n ih =>
    intro vis x hx p
    unfold pathsFrom
    split
    · rename_i hxt
      subst hxt
      constructor
      · intro h
        simp only [List.mem_singleton] at h
        subst h
        exact ⟨⟨rfl, rfl, by simp, by simp⟩, by simp, by simp⟩
      · rintro ⟨⟨h1, h2, h3, _⟩, _, _⟩
        cases p with
        | nil => simp at h1
        | cons a q =>
          simp only [List.head?_cons, Option.some.injEq] at h1
          subst h1
          cases q with
          | nil => simp
          | cons b q =>
            rw [List.getLast?_cons_cons] at h2
            have := List.mem_of_getLast? h2
            exact absurd this (List.nodup_cons.1 h3).1
    · rename_i hxt
      rw [List.mem_flatMap]
      constructor
      · rintro ⟨y, hy, hp⟩
        simp only [List.mem_filter, decide_eq_true_eq] at hy
        obtain ⟨hy1, hy2⟩ := hy
        obtain ⟨q, hq, rfl⟩ := List.mem_map.1 hp
        obtain ⟨⟨h1, h2, h3, h4⟩, h5, h6⟩ := (ih (y :: vis) y (by simp) q).1 hq
        cases q with
        | nil => simp at h1
        | cons b q =>
          simp only [List.head?_cons, Option.some.injEq] at h1
          subst h1
          simp only [List.tail_cons, List.mem_cons, not_or] at h6
          have hv : ∀ z ∈ b :: q, z ∉ vis := by
            intro z hz
            rcases List.mem_cons.1 hz with rfl | hz
            · exact hy2
            · exact (h6 z hz).2
          refine ⟨⟨rfl, ?_, ?_, ?_⟩, ?_, hv⟩
          · rw [List.getLast?_cons_cons]; exact h2
          · exact List.nodup_cons.2 ⟨fun h => hv x h hx, h3⟩
          · exact List.isChain_cons_cons.2 ⟨hy1, h4⟩
          · simp only [List.length_cons] at h5 ⊢; omega
      · rintro ⟨⟨h1, h2, h3, h4⟩, h5, h6⟩
        cases p with
        | nil => simp at h1
        | cons a q =>
          simp only [List.head?_cons, Option.some.injEq] at h1
          subst h1
          cases q with
          | nil => simp only [List.getLast?_singleton, Option.some.injEq] at h2; exact absurd h2 hxt
          | cons b q =>
            rw [List.getLast?_cons_cons] at h2
            obtain ⟨h7, h8⟩ := List.isChain_cons_cons.1 h4
            simp only [List.tail_cons] at h6
            refine ⟨b, List.mem_filter.2 ⟨h7, by simpa using h6 b (by simp)⟩, List.mem_map.2 ⟨b :: q, ?_, rfl⟩⟩
            refine (ih (b :: vis) b (by simp) _).2 ⟨⟨rfl, h2, (List.nodup_cons.1 h3).2, h8⟩, ?_, ?_⟩
            · simp only [List.length_cons] at h5 ⊢; omega
            · intro z hz
              simp only [List.tail_cons] at hz
              simp only [List.mem_cons, not_or]
              refine ⟨?_, h6 z (by simp [hz])⟩
              rintro rfl
              exact (List.nodup_cons.1 (List.nodup_cons.1 h3).2).1 hz

theorem pathsFrom_head {nb : String → List String} {t : String} {n : Nat} {vis : List String} {x : String} {p : List String}
    (h : p ∈ pathsFrom nb t n vis x) : p.head? = some x := by
  cases n with
  | zero => simp [pathsFrom] at h
  | succ n =>
    unfold pathsFrom at h
    split at h
    · simp only [List.mem_singleton] at h; subst h; rfl
    · obtain ⟨y, _, hp⟩ := List.mem_flatMap.1 h
      obtain ⟨q, _, rfl⟩ := List.mem_map.1 hp
      rfl

theorem pathsFrom_nodup {nb : String → List String} (hnb : ∀ x, (nb x).Nodup) (t : String) (n : Nat) :
    ∀ (vis : List String) (x : String), (pathsFrom nb t n vis x).Nodup := by
  induction n with
  | zero => intro vis x; simp [pathsFrom]
  | succ n ih =>
    intro vis x
    unfold pathsFrom
    split
    · simp
    · rw [List.nodup_flatMap]
      refine ⟨fun y _ => (ih _ y).map fun a b h => by simpa using h, ?_⟩
      have := (hnb x).filter (fun y => decide (y ∉ vis))
      refine this.imp ?_
      intro a b hab
      rw [Function.onFun, List.disjoint_left]
      intro p hp hq
      obtain ⟨p', hp', rfl⟩ := List.mem_map.1 hp
      obtain ⟨q', hq', heq⟩ := List.mem_map.1 hq
      simp only [List.cons.injEq, true_and] at heq
      subst heq
      have h1 := pathsFrom_head hp'
      have h2 := pathsFrom_head hq'
      rw [h1] at h2
      simp only [Option.some.injEq] at h2
      exact hab h2

theorem neighbors_nodup {g : Graph} (hs : Simple g.edges) (x : String) : (g.neighbors x).Nodup := by
  unfold Graph.neighbors
  unfold List.Nodup
  rw [List.pairwise_filterMap]
  refine hs.imp ?_
  intro e f hef a ha b hb hab
  subst hab
  apply hef
  unfold Edge.joins
  split at ha
  · rename_i h1
    simp only [Option.some.injEq] at ha
    split at hb
    · rename_i h2
      simp only [Option.some.injEq] at hb
      exact .inl ⟨by rw [h2, h1], by rw [hb, ha]⟩
    · split at hb
      · rename_i h2
        simp only [Option.some.injEq] at hb
        exact .inr ⟨by rw [hb, ha], by rw [h2, h1]⟩
      · simp at hb
  · split at ha
    · rename_i h1
      simp only [Option.some.injEq] at ha
      split at hb
      · rename_i h2
        simp only [Option.some.injEq] at hb
        exact .inr ⟨by rw [h2, h1], by rw [hb, ha]⟩
      · split at hb
        · rename_i h2
          simp only [Option.some.injEq] at hb
          exact .inl ⟨by rw [hb, ha], by rw [h2, h1]⟩
        · simp at hb
    · simp at ha

theorem chain_nodes {g : Graph} (hcl : ∀ a b, g.Adj a b → b ∈ g.nodes) {p : List String} :
    ∀ {s : String}, s ∈ g.nodes → p.head? = some s → p.IsChain (fun u v => v ∈ g.neighbors u) → ∀ x ∈ p, x ∈ g.nodes := by
  induction p with
  | nil => intro s _ h; simp at h
  | cons a q ih =>
    intro s hs h hc x hx
    simp only [List.head?_cons, Option.some.injEq] at h
    subst h
    rcases List.mem_cons.1 hx with rfl | hx
    · exact hs
    · cases q with
      | nil => simp at hx
      | cons b q =>
        obtain ⟨h1, h2⟩ := List.isChain_cons_cons.1 hc
        exact ih (hcl a b (mem_neighbors.1 h1)) rfl h2 x hx

theorem mem_simplePaths {objs : List NetObj} {s t : String} {g : Graph} (h : ClosedNet objs s g) (p : List String) :
    p ∈ simplePaths g s t ↔ s ≠ t ∧ IsSimplePath (ClosedLink objs) s t p := by
  unfold simplePaths
  split
  · rename_i hst; simp [hst]
  · rename_i hst
    have hrel : (fun u v => v ∈ g.neighbors u) = ClosedLink objs := by
      funext u v; exact propext (mem_neighbors.trans (h.adj u v))
    rw [mem_pathsFrom _ _ _ _ _ (by simp), hrel]
    constructor
    · rintro ⟨h1, _⟩; exact ⟨hst, h1⟩
    · rintro ⟨_, hp⟩
      refine ⟨hp, ?_, ?_⟩
      · obtain ⟨h1, _, h3, h4⟩ := hp
        rw [← hrel] at h4
        exact (List.Nodup.subperm h3 (chain_nodes h.closed h.source h1 h4)).length_le
      · obtain ⟨h1, _, h3, _⟩ := hp
        cases p with
        | nil => simp
        | cons a q =>
          simp only [List.head?_cons, Option.some.injEq] at h1
          subst h1
          intro y hy hy'
          simp only [List.mem_singleton] at hy'
          subst hy'
          exact (List.nodup_cons.1 h3).1 hy

theorem simplePaths_nodup {objs : List NetObj} {s : String} {g : Graph} (h : ClosedNet objs s g) (t : String) :
    (simplePaths g s t).Nodup := by
  unfold simplePaths
  split
  · simp
  · exact pathsFrom_nodup (neighbors_nodup h.simple) _ _ _ _

theorem simplePaths_one {objs : List NetObj} {s : String} {g : Graph} (h : ClosedNet objs s g) (t : String) :
    (simplePaths g s t).length = 1 ↔ s ≠ t ∧ ∃! p, IsSimplePath (ClosedLink objs) s t p := by
  rw [List.length_eq_one_iff]
  constructor
  · rintro ⟨p, hp⟩
    have h1 := (mem_simplePaths h (t := t) p).1 (by simp [hp])
    refine ⟨h1.1, p, h1.2, fun q hq => ?_⟩
    have := (mem_simplePaths h (t := t) q).2 ⟨h1.1, hq⟩
    simpa [hp] using this
  · rintro ⟨hne, p, hp, huniq⟩
    refine ⟨p, ?_⟩
    have hall : ∀ q ∈ simplePaths g s t, q = p := fun q hq => huniq q ((mem_simplePaths h q).1 hq).2
    have hnd := simplePaths_nodup h t
    have hm := (mem_simplePaths h p).2 ⟨hne, hp⟩
    generalize simplePaths g s t = l at *
    cases l with
    | nil => simp at hm
    | cons a l =>
      cases l with
      | nil => rw [hall a (by simp)]
      | cons b l =>
        exact absurd ((hall a (by simp)).trans (hall b (by simp)).symm) (by
          intro hab; subst hab; simp at hnd)

theorem ClosedLink.symm {objs : List NetObj} {a b : String} (h : ClosedLink objs a b) : ClosedLink objs b a := by
  obtain ⟨⟨o, ho, hd⟩, hno⟩ := h
  refine ⟨⟨o, ho, hd.symm⟩, ?_⟩
  rintro ⟨o', ho', hc, ht⟩
  exact hno ⟨o', ho', hc, ht.symm⟩

section
variable {α : Type} {R : α → α → Prop}

/-- a path from `s` to `t` contains a path from each of its nodes to `t` -/
theorem isSimplePath_cons {a b t : α} {q : List α} (h : IsSimplePath R a t (a :: b :: q)) :
    R a b ∧ a ∉ b :: q ∧ IsSimplePath R b t (b :: q) := by
  obtain ⟨_, h2, h3, h4⟩ := h
  rw [List.getLast?_cons_cons] at h2
  obtain ⟨h5, h6⟩ := List.isChain_cons_cons.1 h4
  exact ⟨h5, (List.nodup_cons.1 h3).1, rfl, h2, (List.nodup_cons.1 h3).2, h6⟩

theorem IsSimplePath.reach {P : α → Prop} {s t : α} {p : List α} (h : IsSimplePath R s t p) (hp : ∀ x ∈ p, P x) :
    Reach (fun x y => R x y ∧ P x ∧ P y) s t := by
  induction p generalizing s with
  | nil => simp [IsSimplePath] at h
  | cons a q ih =>
    obtain rfl : a = s := by simpa using h.1
    cases q with
    | nil =>
      obtain rfl : a = t := by simpa using h.2.1
      exact .refl
    | cons b q =>
      obtain ⟨h1, _, h3⟩ := isSimplePath_cons h
      exact Relation.ReflTransGen.head ⟨h1, hp a (by simp), hp b (by simp)⟩ (ih h3 fun x hx => hp x (by simp [hx]))

/-- without loops there is at most one simple path -/
theorem simplePath_unique (hsymm : ∀ a b, R a b → R b a) (hno : ¬ HasLoop R) {s t : α} {p q : List α}
    (hp : IsSimplePath R s t p) (hq : IsSimplePath R s t q) : p = q := by
  induction p generalizing s q with
  | nil => simp [IsSimplePath] at hp
  | cons a p ih =>
    obtain rfl : a = s := by simpa using hp.1
    cases q with
    | nil => simp [IsSimplePath] at hq
    | cons c q =>
      obtain rfl : c = a := by simpa using hq.1
      have hend : ∀ {b : α} {r : List α}, IsSimplePath R c c (c :: b :: r) → False := by
        intro b r h
        obtain ⟨_, h2, _, h4, _⟩ := isSimplePath_cons h
        exact h2 (List.mem_of_getLast? h4)
      cases p with
      | nil =>
        obtain rfl : c = t := by simpa using hp.2.1
        cases q with
        | nil => rfl
        | cons b q => exact (hend hq).elim
      | cons a p =>
        cases q with
        | nil =>
          obtain rfl : c = t := by simpa using hq.2.1
          exact (hend hp).elim
        | cons b q =>
          obtain ⟨p1, p2, p3⟩ := isSimplePath_cons hp
          obtain ⟨q1, q2, q3⟩ := isSimplePath_cons hq
          by_cases hab : a = b
          · subst hab
            rw [ih p3 q3]
          · exfalso
            refine hno ⟨c, a, p1, ?_⟩
            -- from `c` through `b` to `t`, and back to `a`
            have r1 := q3.reach (P := fun x => x ≠ c) fun x hx hxc => q2 (hxc ▸ hx)
            have r2 := p3.reach (P := fun x => x ≠ c) fun x hx hxc => p2 (hxc ▸ hx)
            have r2' : Reach (fun x y => R x y ∧ x ≠ c ∧ y ≠ c) t a := by
              clear ih hp hq p1 p2 p3 q1 q2 q3 r1 hend
              induction r2 with
              | refl => exact .refl
              | tail _ hs ih => exact Relation.ReflTransGen.head ⟨hsymm _ _ hs.1, hs.2.2, hs.2.1⟩ ih
            refine Relation.ReflTransGen.head (b := b) ⟨q1, ?_⟩ (reach_mono ?_ (r1.trans r2'))
            · rintro (⟨_, h⟩ | ⟨h, h'⟩)
              · exact hab h.symm
              · exact q2 (by simp [h'])
            · rintro x y ⟨h1, h2, h3⟩
              refine ⟨h1, ?_⟩
              rintro (⟨h, _⟩ | ⟨_, h⟩)
              · exact h2 h
              · exact h3 h

/-- a node that can be reached can be reached along a simple path -/
theorem exists_simplePath {s t : α} (h : Reach R s t) : ∃ p, IsSimplePath R s t p := by
  classical
  induction h using Relation.ReflTransGen.head_induction_on with
  | refl => exact ⟨[t], rfl, rfl, by simp, by simp⟩
  | @head a b hs _ ih =>
    obtain ⟨p, hp⟩ := ih
    by_cases ha : a ∈ p
    · obtain ⟨pre, post, rfl⟩ := List.append_of_mem ha
      obtain ⟨h1, h2, h3, h4⟩ := hp
      refine ⟨a :: post, rfl, ?_, (List.nodup_append.1 h3).2.1, (List.isChain_append.1 h4).2.1⟩
      rw [List.getLast?_append] at h2
      cases hl : (a :: post).getLast? with
      | none => simp at hl
      | some x => rw [hl] at h2; simpa using h2
    · refine ⟨a :: p, rfl, ?_, List.nodup_cons.2 ⟨ha, hp.2.2.1⟩, ?_⟩
      · obtain ⟨h1, h2, _⟩ := hp
        cases p with
        | nil => simp at h1
        | cons c p => rw [List.getLast?_cons_cons]; exact h2
      · obtain ⟨h1, _, _, h4⟩ := hp
        cases p with
        | nil => simp at h1
        | cons c p =>
          obtain rfl : c = b := by simpa using h1
          exact List.isChain_cons_cons.2 ⟨hs, h4⟩

end

end Ditto.Net
