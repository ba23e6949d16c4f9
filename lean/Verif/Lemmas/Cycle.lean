import Verif.Lemmas.Closed

/-! Loops of a graph, counted edge by edge. -/
namespace Ditto.Net
open Ditto Ditto.Search Ditto.Spec

/-- joined by one of the edges -/
def Rel (es : List Edge) (a b : String) : Prop := ∃ e ∈ es, e.joins a b

theorem Rel.symm {es : List Edge} {a b : String} (h : Rel es a b) : Rel es b a := by
  obtain ⟨e, he, hj⟩ := h
  exact ⟨e, he, (e.joins_comm a b).1 hj⟩

theorem reach_symm {es : List Edge} {a b : String} (h : Reach (Rel es) a b) : Reach (Rel es) b a := by
  induction h with
  | refl => exact .refl
  | tail _ hs ih => exact Relation.ReflTransGen.head hs.symm ih

theorem reach_sub {es es' : List Edge} (hs : ∀ e ∈ es, e ∈ es') {a b : String} (h : Reach (Rel es) a b) :
    Reach (Rel es') a b :=
  reach_mono (fun _ _ ⟨e, he, hj⟩ => ⟨e, hs e he, hj⟩) h

theorem reach_add {es : List Edge} {f : Edge} {x y : String} (h : Reach (Rel (es ++ [f])) x y) :
    Reach (Rel es) x y ∨ (Reach (Rel es) x f.u ∧ Reach (Rel es) f.v y) ∨ (Reach (Rel es) x f.v ∧ Reach (Rel es) f.u y) := by
  induction h with
  | refl => exact .inl .refl
  | tail _ hs ih =>
    obtain ⟨e, he, hj⟩ := hs
    rcases List.mem_append.1 he with he | he
    · have hstep : Rel es _ _ := ⟨e, he, hj⟩
      rcases ih with h | ⟨h1, h2⟩ | ⟨h1, h2⟩
      · exact .inl (h.tail hstep)
      · exact .inr (.inl ⟨h1, h2.tail hstep⟩)
      · exact .inr (.inr ⟨h1, h2.tail hstep⟩)
    · simp only [List.mem_singleton] at he
      subst he
      rcases hj with ⟨rfl, rfl⟩ | ⟨rfl, rfl⟩
      · rcases ih with h | ⟨h1, h2⟩ | ⟨h1, h2⟩
        · exact .inr (.inl ⟨h, .refl⟩)
        · exact .inr (.inl ⟨h1, .refl⟩)
        · exact .inl h1
      · rcases ih with h | ⟨h1, h2⟩ | ⟨h1, h2⟩
        · exact .inr (.inr ⟨h, .refl⟩)
        · exact .inl h1
        · exact .inr (.inr ⟨h1, .refl⟩)

/-- an edge whose ends are joined by the others -/
def EdgeLoop (es : List Edge) : Prop := ∃ pre e post, es = pre ++ e :: post ∧ Reach (Rel (pre ++ post)) e.u e.v

theorem edgeLoop_append (es : List Edge) (f : Edge) : EdgeLoop (es ++ [f]) ↔ EdgeLoop es ∨ Reach (Rel es) f.u f.v := by
  constructor
  · rintro ⟨pre, e, post, heq, hr⟩
    rcases List.eq_nil_or_concat post with rfl | ⟨post', f', rfl⟩
    · obtain ⟨rfl, h⟩ := List.append_inj' heq rfl
      simp only [List.cons.injEq, and_true] at h
      subst h
      exact .inr (by simpa using hr)
    · rw [List.concat_eq_append, ← List.cons_append, ← List.append_assoc] at heq
      obtain ⟨rfl, h⟩ := List.append_inj' heq rfl
      simp only [List.cons.injEq, and_true] at h
      subst h
      rw [List.concat_eq_append, ← List.append_assoc] at hr
      have hsub : ∀ x ∈ pre ++ post', x ∈ pre ++ e :: post' := by
        intro x hx; rcases List.mem_append.1 hx with h | h <;> simp [h]
      have he : Rel (pre ++ e :: post') e.u e.v := ⟨e, by simp, .inl ⟨rfl, rfl⟩⟩
      rcases reach_add hr with h | ⟨h1, h2⟩ | ⟨h1, h2⟩
      · exact .inl ⟨pre, e, post', rfl, h⟩
      · right
        exact ((reach_symm (reach_sub hsub h1)).tail he).trans (reach_symm (reach_sub hsub h2))
      · right
        exact ((reach_sub hsub h2).tail he.symm).trans (reach_sub hsub h1)
  · rintro (⟨pre, e, post, rfl, hr⟩ | h)
    · refine ⟨pre, e, post ++ [f], by simp, reach_sub ?_ hr⟩
      intro x hx; rcases List.mem_append.1 hx with h | h <;> simp [h]
    · exact ⟨es, f, [], rfl, by simpa using h⟩

theorem mem_ends {es : List Edge} {a b : String} (h : Rel es a b) : b ∈ ends es := by
  obtain ⟨e, he, hj⟩ := h
  unfold ends
  rw [List.mem_flatMap]
  refine ⟨e, he, ?_⟩
  rcases hj with ⟨rfl, rfl⟩ | ⟨rfl, rfl⟩ <;> simp

theorem edgeLoop_rank (es : List Edge) : ∀ pre, EdgeLoop (pre ++ es) ↔ EdgeLoop pre ∨ cycleRank pre es ≠ 0 := by
  induction es with
  | nil => intro pre; simp [cycleRank]
  | cons e es ih =>
    intro pre
    have hr : e.v ∈ reachable ⟨e.u :: ends pre, pre⟩ e.u ↔ Reach (Rel pre) e.u e.v :=
      mem_reachable (g := ⟨e.u :: ends pre, pre⟩) (fun a b hab => List.mem_cons_of_mem _ (mem_ends hab)) List.mem_cons_self
    have : pre ++ e :: es = (pre ++ [e]) ++ es := by simp
    rw [this, ih, edgeLoop_append, cycleRank]
    by_cases h : Reach (Rel pre) e.u e.v
    · rw [if_pos (hr.2 h)]
      simp [h]
    · rw [if_neg fun h' => h (hr.1 h')]
      simp [h]

theorem hasLoop_iff {es : List Edge} (hs : Simple es) : HasLoop (Rel es) ↔ EdgeLoop es := by
  constructor
  · rintro ⟨a, b, ⟨e, he, hj⟩, hr⟩
    obtain ⟨pre, post, rfl⟩ := List.append_of_mem he
    refine ⟨pre, e, post, rfl, ?_⟩
    have hr' : Reach (Rel (pre ++ post)) a b := by
      refine reach_mono ?_ hr
      rintro x y ⟨⟨e', he', hj'⟩, hne⟩
      refine ⟨e', ?_, hj'⟩
      simp only [List.mem_append, List.mem_cons] at he'
      rcases he' with h | rfl | h
      · simp [h]
      · exact absurd (Edge.joins_same hj hj') hne
      · simp [h]
    rcases hj with ⟨rfl, rfl⟩ | ⟨rfl, rfl⟩
    · exact hr'
    · exact reach_symm hr'
  · rintro ⟨pre, e, post, rfl, hr⟩
    refine ⟨e.u, e.v, ⟨e, by simp, .inl ⟨rfl, rfl⟩⟩, reach_mono ?_ hr⟩
    rintro x y ⟨e', he', hj'⟩
    refine ⟨⟨e', ?_, hj'⟩, fun hxy => ?_⟩
    · rcases List.mem_append.1 he' with h | h <;> simp [h]
    · have hj : e'.joins e.u e.v := (Edge.joins_congr hxy e').1 hj'
      unfold Simple at hs
      rw [List.pairwise_append] at hs
      obtain ⟨_, h2, h3⟩ := hs
      rcases List.mem_append.1 he' with h | h
      · apply h3 e' h e (by simp)
        rcases hj with ⟨h1, h2⟩ | ⟨h1, h2⟩
        · exact .inl ⟨h1.symm, h2.symm⟩
        · exact .inr ⟨h2.symm, h1.symm⟩
      · exact (List.pairwise_cons.1 h2).1 e' h hj

theorem basisSize_zero {objs : List NetObj} {s : String} {g : Graph} (h : ClosedNet objs s g) :
    basisSize g = 0 ↔ ¬ HasLoop (ClosedLink objs) := by
  have hadj : Rel g.edges = ClosedLink objs := by funext a b; exact propext (h.adj a b)
  rw [← hadj, hasLoop_iff h.simple]
  have := edgeLoop_rank g.edges []
  rw [List.nil_append] at this
  rw [this]
  have hnil : ¬ EdgeLoop [] := by rintro ⟨pre, e, post, heq, _⟩; simp at heq
  unfold basisSize
  tauto

end Ditto.Net
