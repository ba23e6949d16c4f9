import Verif.Spec.NetAttrs
import Verif.Props.Network

/-! C129: attributes of the objects in the directed network. -/
namespace Ditto.NetAttrs
open Ditto Ditto.Net Ditto.NetAttrs.Spec

variable {V : Type}

theorem public_iff {a : String} : Public a ↔ a.toList.head? ≠ some '_' := by
  unfold Public
  cases a.toList with
  | nil => simp
  | cons c cs => simp [eq_comm]

theorem goesTo_iff {o : AttrObj V} {nm : String} (hn : o.name = some nm) {k : String × String} : goesTo o nm k = true ↔ On o k := by
  unfold goesTo On
  rw [hn]
  obtain ⟨k1, k2⟩ := k
  cases o.fromEl <;> cases o.toEl <;> cases o.connecting <;> simp [Prod.ext_iff] <;> aesop

theorem edge_step (nodes : List String) (edges : List (String × String)) (st : Attrs V) (o : AttrObj V) (k : String × String) (a : String) :
    ((k ∈ edges ∧ On o k ∧ Public a) → (attrStep nodes edges st o).edge k a = (o.attrs a).or (st.edge k a)) ∧
      (¬ (k ∈ edges ∧ On o k ∧ Public a) → (attrStep nodes edges st o).edge k a = st.edge k a) := by
  unfold attrStep
  cases hn : o.name with
  | none =>
    refine ⟨fun h => ?_, fun _ => rfl⟩
    have := h.2.1
    unfold On at this
    simp [hn] at this
  | some nm =>
    constructor
    · rintro ⟨h1, h2, h3⟩
      dsimp only
      rw [if_pos ⟨h1, (goesTo_iff hn).2 h2⟩]
      exact if_neg (public_iff.1 h3)
    · intro h
      dsimp only
      split
      · rename_i hh
        refine if_pos ?_
        by_contra hp
        exact h ⟨hh.1, (goesTo_iff hn).1 hh.2, public_iff.2 hp⟩
      · rfl

theorem node_step (nodes : List String) (edges : List (String × String)) (st : Attrs V) (o : AttrObj V) (x a : String) :
    ((x ∈ nodes ∧ o.name = some x ∧ Public a) → (attrStep nodes edges st o).node x a = (o.attrs a).or (st.node x a)) ∧
      (¬ (x ∈ nodes ∧ o.name = some x ∧ Public a) → (attrStep nodes edges st o).node x a = st.node x a) := by
  unfold attrStep
  cases hn : o.name with
  | none => simp
  | some nm =>
    constructor
    · rintro ⟨h1, h2, h3⟩
      cases h2
      simp only [h1, and_self, if_true]
      exact if_neg (public_iff.1 h3)
    · intro h
      dsimp only
      split
      · rename_i hh
        refine if_pos ?_
        by_contra hp
        exact h ⟨hh.1 ▸ hh.2, by rw [hh.1], public_iff.2 hp⟩
      · rfl

/-- C129: an edge without objects that have the attribute keeps what `build` has stored; nothing is written to other edges, nor are private attributes. -/
theorem C129_edge_other (nodes : List String) (edges : List (String × String)) (objs : List (AttrObj V)) (st : Attrs V) (k : String × String) (a : String)
    (h : k ∉ edges ∨ ¬ Public a ∨ ∀ o ∈ objs, On o k → o.attrs a = none) : (setAttrs nodes edges st objs).edge k a = st.edge k a := by
  induction objs generalizing st with
  | nil => rfl
  | cons o os ih =>
    have hs : (attrStep nodes edges st o).edge k a = st.edge k a := by
      by_cases hc : k ∈ edges ∧ On o k ∧ Public a
      · rw [(edge_step nodes edges st o k a).1 hc]
        rcases h with h | h | h
        · exact absurd hc.1 h
        · exact absurd hc.2.2 h
        · rw [h o (by simp) hc.2.1]; rfl
      · exact (edge_step nodes edges st o k a).2 hc
    unfold setAttrs at ih ⊢
    rw [List.foldl_cons, ih _ ?_, hs]
    exact h.imp_right (Or.imp_right fun h o' ho' => h o' (by simp [ho']))

/-- C129: an edge of the directed network has the attributes of the object on it, in either direction; of several ones, those of the last that has the attribute. -/
theorem C129_edge (nodes : List String) (edges : List (String × String)) (st : Attrs V) (pre post : List (AttrObj V)) (o : AttrObj V) (k : String × String)
    (a : String) (v : V) (hk : k ∈ edges) (hp : Public a) (ho : On o k) (hv : o.attrs a = some v) (hl : ∀ o' ∈ post, On o' k → o'.attrs a = none) :
    (setAttrs nodes edges st (pre ++ o :: post)).edge k a = some v := by
  have : setAttrs nodes edges st (pre ++ o :: post) = setAttrs nodes edges (attrStep nodes edges (setAttrs nodes edges st pre) o) post := by
    simp [setAttrs]
  rw [this, C129_edge_other _ _ _ _ _ _ (.inr (.inr hl)), (edge_step _ _ _ _ _ _).1 ⟨hk, ho, hp⟩, hv]
  rfl

/-- C129: other nodes, nodes without object that has the attribute, and private attributes are left as they are. -/
theorem C129_node_other (nodes : List String) (edges : List (String × String)) (objs : List (AttrObj V)) (st : Attrs V) (x a : String)
    (h : x ∉ nodes ∨ ¬ Public a ∨ ∀ o ∈ objs, o.name = some x → o.attrs a = none) : (setAttrs nodes edges st objs).node x a = st.node x a := by
  induction objs generalizing st with
  | nil => rfl
  | cons o os ih =>
    have hs : (attrStep nodes edges st o).node x a = st.node x a := by
      by_cases hc : x ∈ nodes ∧ o.name = some x ∧ Public a
      · rw [(node_step nodes edges st o x a).1 hc]
        rcases h with h | h | h
        · exact absurd hc.1 h
        · exact absurd hc.2.2 h
        · rw [h o (by simp) hc.2.1]; rfl
      · exact (node_step nodes edges st o x a).2 hc
    unfold setAttrs at ih ⊢
    rw [List.foldl_cons, ih _ ?_, hs]
    exact h.imp_right (Or.imp_right fun h o' ho' => h o' (by simp [ho']))

/-- C129: a node of the directed network has the attributes of the object with its name; of several ones, those of the last that has the attribute. -/
theorem C129_node (nodes : List String) (edges : List (String × String)) (st : Attrs V) (pre post : List (AttrObj V)) (o : AttrObj V) (x a : String) (v : V)
    (hx : x ∈ nodes) (hp : Public a) (ho : o.name = some x) (hv : o.attrs a = some v) (hl : ∀ o' ∈ post, o'.name = some x → o'.attrs a = none) :
    (setAttrs nodes edges st (pre ++ o :: post)).node x a = some v := by
  have : setAttrs nodes edges st (pre ++ o :: post) = setAttrs nodes edges (attrStep nodes edges (setAttrs nodes edges st pre) o) post := by
    simp [setAttrs]
  rw [this, C129_node_other _ _ _ _ _ _ (.inr (.inr hl)), (node_step _ _ _ _ _ _).1 ⟨hx, ho, hp⟩, hv]
  rfl

theorem class_other (nodes : List String) (edges : List (String × String)) (objs : List (AttrObj V)) (st : Attrs V) (x : String)
    (h : ∀ o ∈ objs, o.name ≠ some x) : (setAttrs nodes edges st objs).classMap x = st.classMap x := by
  induction objs generalizing st with
  | nil => rfl
  | cons o os ih =>
    unfold setAttrs at ih ⊢
    rw [List.foldl_cons, ih _ fun o' ho' => h o' (by simp [ho'])]
    have := h o (by simp)
    unfold attrStep
    cases hn : o.name with
    | none => rfl
    | some nm => exact if_neg fun hh => this (by rw [hn, hh])

/-- C129: the class of a name is that of the last object with it, whether or not it is connected; other names keep theirs. -/
theorem C129_class (nodes : List String) (edges : List (String × String)) (st : Attrs V) (x : String) :
    (∀ (pre post : List (AttrObj V)) (o : AttrObj V), o.name = some x → (∀ o' ∈ post, o'.name ≠ some x) →
      (setAttrs nodes edges st (pre ++ o :: post)).classMap x = some o.cls) ∧
    ∀ objs : List (AttrObj V), (∀ o ∈ objs, o.name ≠ some x) → (setAttrs nodes edges st objs).classMap x = st.classMap x := by
  refine ⟨fun pre post o ho hl => ?_, fun objs h => class_other nodes edges objs st x h⟩
  have : setAttrs nodes edges st (pre ++ o :: post) = setAttrs nodes edges (attrStep nodes edges (setAttrs nodes edges st pre) o) post := by
    simp [setAttrs]
  rw [this, class_other _ _ _ _ _ hl]
  simp [attrStep, ho]

/-- attributes from a list -/
def attrsOf (l : List (String × Option String)) : String → Option (Option String) := fun a => l.lookup a

/-- line, transformer and load of `exObjs` with some attributes -/
def exAttrObjs : List (AttrObj (Option String)) := [
  { cls := "PowerSource", name := some "src", connecting := some "a", attrs := attrsOf [("rated_power", some "5e6")] },
  { cls := "Line", name := some "l1", fromEl := some "b", toEl := some "a", attrs := attrsOf [("line_type", some "overhead"), ("_x", some "y")] },
  { cls := "PowerTransformer", name := some "t1", fromEl := some "b", toEl := some "c", attrs := attrsOf [("is_substation", some "1"), ("feeder_name", some "f1")] },
  { cls := "Load", name := some "load", connecting := some "c", attrs := attrsOf [("feeder_name", some "f2")] }]

/-- a line that is parallel to the transformer -/
def exParallel : AttrObj (Option String) :=
  { cls := "Line", name := some "l4", fromEl := some "b", toEl := some "c", attrs := attrsOf [("line_type", some "overhead"), ("feeder_name", some "f3")] }

/-- C129 is violated: an edge with two objects in parallel has attributes of both, `equipment` from the network and others from any of them. -/
theorem C129_mixed_violated : ∃ n, build exObjs "src" = .ok n ∧
    let r := networkAttrs some none n.digraph (exAttrObjs ++ [exParallel])
    r.edge ("b", "c") "is_substation" = some (some "1") ∧ r.edge ("b", "c") "line_type" = some (some "overhead") ∧
      r.edge ("b", "c") "feeder_name" = some (some "f3") := ⟨_, by rfl, by decide +kernel⟩

/-- C129 is violated: a device at the lower end of its edge, as the power source is, does not give its attributes to the edge. -/
theorem C129_source_violated (nodes : List String) (edges : List (String × String)) (st : Attrs V) (o : AttrObj V) (c nm : String)
    (hn : o.name = some nm) (hf : o.fromEl = none) (hc : o.connecting = some c) (hne : c ≠ nm) :
    (setAttrs nodes edges st [o]).edge (nm, c) = st.edge (nm, c) := by
  funext a
  refine C129_edge_other nodes edges [o] st _ a (.inr (.inr ?_))
  intro o' ho' hon
  simp only [List.mem_singleton] at ho'
  subst ho'
  unfold On at hon
  rw [hf, hc] at hon
  rcases hon with ⟨_, h | h⟩ | h
  · cases h.1
  · cases h.1
  · exact absurd (Option.some.inj h.1) hne

/-- the line is directed against the network, and the source and the load are devices -/
example : ∃ n, build exObjs "src" = .ok n ∧
    let r := networkAttrs some none n.digraph exAttrObjs
    r.edge ("a", "b") "line_type" = some (some "overhead") ∧ r.edge ("a", "b") "equipment" = some (some "Line") ∧ r.edge ("a", "b") "_x" = none ∧
      r.edge ("c", "load") "feeder_name" = some (some "f2") ∧ r.node "load" "feeder_name" = some (some "f2") ∧ r.node "t1" "feeder_name" = none ∧
      r.edge ("src", "a") "rated_power" = none ∧ r.node "src" "rated_power" = some (some "5e6") ∧ r.classMap "t1" = some "PowerTransformer" :=
  ⟨_, by rfl, by decide +kernel⟩

/-- the hypotheses of `C129_edge` for the line l1 -/
example : ∃ n, build exObjs "src" = .ok n ∧ ("a", "b") ∈ n.digraph.map (fun e => (e.u, e.v)) ∧ Public "line_type" ∧
    ∃ o ∈ exAttrObjs, On o ("a", "b") ∧ o.attrs "line_type" = some (some "overhead") := by
  refine ⟨_, by rfl, by decide +kernel, public_iff.2 (by decide +kernel), exAttrObjs[1], by simp [exAttrObjs], .inl ⟨by simp [exAttrObjs], .inr ⟨rfl, rfl⟩⟩, ?_⟩
  decide +kernel

end Ditto.NetAttrs
