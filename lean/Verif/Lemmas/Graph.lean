import Verif.Spec.Connect
import Verif.Lemmas.Fold

/-! The graph made by `build`. -/
namespace Ditto.Net
open Ditto Ditto.Search

theorem Edge.joins_comm (e : Edge) (a b : String) : e.joins a b ↔ e.joins b a := by
  unfold Edge.joins; tauto

theorem Edge.joins_same {e : Edge} {a b u v : String} (h1 : e.joins a b) (h2 : e.joins u v) :
    (u = a ∧ v = b) ∨ (u = b ∧ v = a) := by
  unfold Edge.joins at *
  rcases h1 with ⟨rfl, rfl⟩ | ⟨rfl, rfl⟩ <;> rcases h2 with ⟨rfl, rfl⟩ | ⟨rfl, rfl⟩ <;> simp

theorem Edge.joins_congr {a b u v : String} (h : (u = a ∧ v = b) ∨ (u = b ∧ v = a)) (e : Edge) :
    e.joins u v ↔ e.joins a b := by
  rcases h with ⟨rfl, rfl⟩ | ⟨rfl, rfl⟩
  · rfl
  · exact e.joins_comm _ _

theorem Graph.Adj.symm {g : Graph} {a b : String} (h : g.Adj a b) : g.Adj b a := by
  obtain ⟨e, he, hj⟩ := h
  exact ⟨e, he, (e.joins_comm a b).1 hj⟩

theorem Graph.adj_iff_find {g : Graph} {a b : String} : g.Adj a b ↔ (g.find a b).isSome := by
  unfold Graph.Adj Graph.find
  rw [List.find?_isSome]
  simp

/-- the new attributes of an edge -/
def Edge.upd (equip : Option (String × Option String)) (length : Option ℚ) (e : Edge) : Edge :=
  { e with equip := equip.or e.equip, length := length.or e.length }

theorem Edge.upd_joins (equip : Option (String × Option String)) (length : Option ℚ) (e : Edge) (a b : String) :
    (e.upd equip length).joins a b ↔ e.joins a b := Iff.rfl

theorem addNode_nodes (g : Graph) (n x : String) : x ∈ (g.addNode n).nodes ↔ x ∈ g.nodes ∨ x = n := by
  unfold Graph.addNode
  split
  · rename_i h
    constructor
    · exact Or.inl
    · rintro (h' | rfl)
      · exact h'
      · exact h
  · simp

theorem addNode_nodup {g : Graph} (h : g.nodes.Nodup) (n : String) : (g.addNode n).nodes.Nodup := by
  unfold Graph.addNode
  split
  · exact h
  · rename_i hn
    rw [List.nodup_append]
    exact ⟨h, by simp, fun a ha b hb => by simp only [List.mem_singleton] at hb; subst hb; rintro rfl; exact hn ha⟩

theorem addNode_edges (g : Graph) (n : String) : (g.addNode n).edges = g.edges := by
  unfold Graph.addNode; split <;> rfl

theorem addEdge_nodes (g : Graph) (u v : String) (q : Option (String × Option String)) (l : Option ℚ) :
    (g.addEdge u v q l).nodes = g.nodes := by unfold Graph.addEdge; split <;> rfl

theorem addEdge_find (g : Graph) (u v : String) (q : Option (String × Option String)) (l : Option ℚ) (a b : String) :
    (g.addEdge u v q l).find a b =
      if (u = a ∧ v = b) ∨ (u = b ∧ v = a) then
        (match g.find a b with
        | some e => some (e.upd q l)
        | none => some ⟨u, v, q, l⟩)
      else g.find a b := by
  unfold Graph.addEdge Graph.find
  by_cases hc : (u = a ∧ v = b) ∨ (u = b ∧ v = a)
  · rw [if_pos hc]
    have hj : ∀ e : Edge, e.joins u v ↔ e.joins a b := Edge.joins_congr hc
    split
    · rename_i hany
      rw [List.find?_map]
      have : ((fun e : Edge => decide (e.joins a b)) ∘ fun e : Edge => if e.joins u v then
          ({ e with equip := q.or e.equip, length := l.or e.length } : Edge) else e) = fun e => decide (e.joins a b) := by
        funext e
        simp only [Function.comp]
        split
        · exact decide_eq_decide.2 Iff.rfl
        · rfl
      rw [this]
      cases hf : g.edges.find? (fun e => decide (e.joins a b)) with
      | none =>
        rw [List.find?_eq_none] at hf
        rw [List.any_eq_true] at hany
        obtain ⟨e, he, hje⟩ := hany
        exact absurd ((hj e).1 (by simpa using hje)) (by simpa using hf e he)
      | some e =>
        have := List.find?_some hf
        simp only [Option.map_some]
        rw [if_pos ((hj e).2 (by simpa using this))]
        rfl
    · rename_i hany
      rw [List.find?_append]
      have hn : g.edges.find? (fun e => decide (e.joins a b)) = none := by
        rw [List.find?_eq_none]
        intro e he hje
        apply hany
        rw [List.any_eq_true]
        exact ⟨e, he, by simpa using (hj e).2 (by simpa using hje)⟩
      rw [hn]
      have : (⟨u, v, q, l⟩ : Edge).joins a b := hc
      simp [List.find?, this]
  · rw [if_neg hc]
    have hj : ∀ e : Edge, e.joins u v → ¬ e.joins a b := fun e h1 h2 => hc (Edge.joins_same h2 h1)
    split
    · simp only
      generalize g.edges = es
      induction es with
      | nil => rfl
      | cons e es ih =>
        simp only [List.map_cons, List.find?_cons]
        by_cases he : e.joins u v
        · rw [if_pos he]
          have h1 : ¬ e.joins a b := hj e he
          have h2 : ¬ ({ e with equip := q.or e.equip, length := l.or e.length } : Edge).joins a b := h1
          simp only [h1, h2, decide_false]
          exact ih
        · rw [if_neg he]
          by_cases h1 : e.joins a b
          · simp [h1]
          · simp only [h1, decide_false]; exact ih
    · rw [List.find?_append]
      have : ¬ (⟨u, v, q, l⟩ : Edge).joins a b := hc
      simp [List.find?, this]

theorem addEdge_adj (g : Graph) (u v : String) (q : Option (String × Option String)) (l : Option ℚ) (a b : String) :
    (g.addEdge u v q l).Adj a b ↔ g.Adj a b ∨ (u = a ∧ v = b) ∨ (u = b ∧ v = a) := by
  rw [Graph.adj_iff_find, Graph.adj_iff_find, addEdge_find]
  split
  · rename_i h; simp only [h, or_true, iff_true]; split <;> rfl
  · rename_i h; simp [h]

/-- no two edges join the same nodes -/
def Simple (es : List Edge) : Prop := es.Pairwise fun e f => ¬ f.joins e.u e.v

theorem addEdge_simple {g : Graph} (h : Simple g.edges) (u v : String) (q : Option (String × Option String)) (l : Option ℚ) :
    Simple (g.addEdge u v q l).edges := by
  unfold Graph.addEdge
  split
  · simp only [Simple]
    rw [List.pairwise_map]
    refine h.imp ?_
    intro e f hef
    have hu : ∀ e : Edge, (if e.joins u v then ({ e with equip := q.or e.equip, length := l.or e.length } : Edge) else e).u = e.u := by
      intro e; split <;> rfl
    have hv : ∀ e : Edge, (if e.joins u v then ({ e with equip := q.or e.equip, length := l.or e.length } : Edge) else e).v = e.v := by
      intro e; split <;> rfl
    rw [hu, hv]
    intro hj
    apply hef
    unfold Edge.joins at hj ⊢
    rcases hj with ⟨h1, h2⟩ | ⟨h1, h2⟩
    · exact .inl ⟨(hu f).symm.trans h1, (hv f).symm.trans h2⟩
    · exact .inr ⟨(hu f).symm.trans h1, (hv f).symm.trans h2⟩
  · rename_i hany
    simp only [Simple]
    rw [List.pairwise_append]
    refine ⟨h, by simp, fun e he f hf => ?_⟩
    simp only [List.mem_singleton] at hf; subst hf
    intro hj
    apply hany
    rw [List.any_eq_true]
    refine ⟨e, he, decide_eq_true ?_⟩
    unfold Edge.joins at hj ⊢
    rcases hj with ⟨h1, h2⟩ | ⟨h1, h2⟩
    · exact .inl ⟨h1.symm, h2.symm⟩
    · exact .inr ⟨h2.symm, h1.symm⟩

theorem find_addNode (g : Graph) (n a b : String) : (g.addNode n).find a b = g.find a b := by
  unfold Graph.find; rw [addNode_edges]

theorem adj_addNode2 (g : Graph) (n m a b : String) : ((g.addNode n).addNode m).Adj a b ↔ g.Adj a b := by
  simp only [Graph.Adj, addNode_edges]

/-- new edge with its ends -/
theorem addEdge_spec (g : Graph) (u v : String) (q : Option (String × Option String)) (l : Option ℚ) :
    (∀ x, x ∈ (((g.addNode v).addNode u).addEdge u v q l).nodes ↔ x ∈ g.nodes ∨ x = u ∨ x = v) ∧
    (g.nodes.Nodup → (((g.addNode v).addNode u).addEdge u v q l).nodes.Nodup) ∧
    (Simple g.edges → Simple (((g.addNode v).addNode u).addEdge u v q l).edges) ∧
    (∀ a b, (((g.addNode v).addNode u).addEdge u v q l).Adj a b ↔ g.Adj a b ∨ (u = a ∧ v = b) ∨ (u = b ∧ v = a)) ∧
    ∀ a b, (((g.addNode v).addNode u).addEdge u v q l).equipOf a b =
      if (u = a ∧ v = b) ∨ (u = b ∧ v = a) then q.or (g.equipOf a b) else g.equipOf a b := by
  refine ⟨fun x => ?_, fun hn => ?_, fun hs => ?_, fun a b => ?_, fun a b => ?_⟩
  · rw [addEdge_nodes, addNode_nodes, addNode_nodes]
    tauto
  · rw [addEdge_nodes]; exact addNode_nodup (addNode_nodup hn _) _
  · apply addEdge_simple; rwa [addNode_edges, addNode_edges]
  · rw [addEdge_adj, adj_addNode2]
  · unfold Graph.equipOf
    rw [addEdge_find, find_addNode, find_addNode]
    by_cases hc : (u = a ∧ v = b) ∨ (u = b ∧ v = a)
    · rw [if_pos hc, if_pos hc]
      cases g.find a b <;> simp [Edge.upd]
    · rw [if_neg hc, if_neg hc]

theorem addTwoTerminal_spec {t : Option String} {g g1 : Graph} {o : NetObj} (h : addTwoTerminal t g o = .ok g1) :
    (∀ x, x ∈ g1.nodes ↔ x ∈ g.nodes ∨ ∃ b, TwoTerminal o x b) ∧
    (g.nodes.Nodup → g1.nodes.Nodup) ∧ (Simple g.edges → Simple g1.edges) ∧
    (∀ a b, g1.Adj a b ↔ g.Adj a b ∨ TwoTerminal o a b) ∧
    ∀ a b, g1.equipOf a b = if TwoTerminal o a b then t.map (fun t => (t, o.name)) else g.equipOf a b := by
  unfold addTwoTerminal at h
  cases hf : o.fromEl with
  | none => rw [hf] at h; simp only [Except.ok.injEq] at h; subst h; simp [TwoTerminal, hf]
  | some f =>
    cases ht : o.toEl with
    | none => rw [hf, ht] at h; simp only [Except.ok.injEq] at h; subst h; simp [TwoTerminal, ht]
    | some tt =>
      rw [hf, ht] at h
      cases t with
      | none => simp at h
      | some ty =>
        simp only [Except.ok.injEq] at h
        have hT : ∀ a b, TwoTerminal o a b ↔ (f = a ∧ tt = b) ∨ (f = b ∧ tt = a) := by
          intro a b; simp only [TwoTerminal, hf, ht, Option.some.injEq]
        obtain ⟨h1, h2, h3, h4, h5⟩ := addEdge_spec g f tt (some (ty, o.name)) (some (o.length.getD 0))
        rw [h] at h1 h2 h3 h4 h5
        refine ⟨fun x => ?_, h2, h3, fun a b => by rw [h4, hT], fun a b => ?_⟩
        · rw [h1]
          apply or_congr_right
          simp only [hT]
          constructor
          · rintro (rfl | rfl)
            · exact ⟨tt, .inl ⟨rfl, rfl⟩⟩
            · exact ⟨f, .inr ⟨rfl, rfl⟩⟩
          · rintro ⟨b, ⟨rfl, rfl⟩ | ⟨rfl, rfl⟩⟩
            · exact .inl rfl
            · exact .inr rfl
        · rw [h5]
          by_cases hc : TwoTerminal o a b
          · rw [if_pos hc, if_pos ((hT a b).1 hc)]; rfl
          · rw [if_neg hc, if_neg (fun hh => hc ((hT a b).2 hh))]

theorem addOneTerminal_spec {g g1 : Graph} {o : NetObj} (h : addOneTerminal g o = .ok g1) :
    (∀ x, x ∈ g1.nodes ↔ x ∈ g.nodes ∨ ∃ b, (o.connecting = some x ∧ o.name = some b) ∨ (o.connecting = some b ∧ o.name = some x)) ∧
    (g.nodes.Nodup → g1.nodes.Nodup) ∧ (Simple g.edges → Simple g1.edges) ∧
    (∀ a b, g1.Adj a b ↔ g.Adj a b ∨ (o.connecting = some a ∧ o.name = some b) ∨ (o.connecting = some b ∧ o.name = some a)) ∧
    ∀ a b, g1.equipOf a b = g.equipOf a b := by
  unfold addOneTerminal at h
  cases hf : o.connecting with
  | none => rw [hf] at h; simp only [Except.ok.injEq] at h; subst h; simp
  | some c =>
    cases ht : o.name with
    | none => rw [hf, ht] at h; simp at h
    | some n =>
      rw [hf, ht] at h
      simp only [Except.ok.injEq] at h
      have hcomm : (((g.addNode n).addNode c).addEdge c n none none).edges = g1.edges ∧
          (∀ x, x ∈ (((g.addNode n).addNode c).addEdge c n none none).nodes ↔ x ∈ g1.nodes) := by
        subst h
        refine ⟨?_, fun x => ?_⟩
        · unfold Graph.addEdge
          simp only [addNode_edges]
          split <;> rfl
        · simp only [addEdge_nodes, addNode_nodes]; tauto
      obtain ⟨h1, _, h3, h4, h5⟩ := addEdge_spec g c n none none
      have hadj : ∀ a b, g1.Adj a b ↔ (((g.addNode n).addNode c).addEdge c n none none).Adj a b := by
        intro a b; simp only [Graph.Adj, hcomm.1]
      refine ⟨fun x => ?_, fun hn => ?_, fun hs => hcomm.1 ▸ h3 hs, fun a b => ?_, fun a b => ?_⟩
      · rw [← hcomm.2, h1]
        apply or_congr_right
        simp only [Option.some.injEq]
        constructor
        · rintro (rfl | rfl)
          · exact ⟨n, .inl ⟨rfl, rfl⟩⟩
          · exact ⟨c, .inr ⟨rfl, rfl⟩⟩
        · rintro ⟨b, ⟨rfl, rfl⟩ | ⟨rfl, rfl⟩⟩
          · exact .inl rfl
          · exact .inr rfl
      · rw [← h, addEdge_nodes]; exact addNode_nodup (addNode_nodup hn _) _
      · rw [hadj, h4]; simp only [Option.some.injEq]
      · have : g1.equipOf a b = (((g.addNode n).addNode c).addEdge c n none none).equipOf a b := by
          simp only [Graph.equipOf, Graph.find, hcomm.1]
        rw [this, h5]; simp

/-- what one object adds to the graph -/
theorem buildStep_spec {ot ot' : Option String} {g g' : Graph} {o : NetObj} (h : buildStep (ot, g) o = .ok (ot', g')) :
    ot' = (if o.name.isSome then some o.cls else ot) ∧
    (∀ x, x ∈ g'.nodes ↔ x ∈ g.nodes ∨ ∃ b, Declares o x b ∨ Declares o b x) ∧
    (g.nodes.Nodup → g'.nodes.Nodup) ∧ (Simple g.edges → Simple g'.edges) ∧
    (∀ a b, g'.Adj a b ↔ g.Adj a b ∨ Declares o a b ∨ Declares o b a) ∧
    ∀ a b, g'.equipOf a b = if TwoTerminal o a b then ot'.map (fun t => (t, o.name)) else g.equipOf a b := by
  unfold buildStep at h
  simp only at h
  have hD : ∀ a b, (Declares o a b ∨ Declares o b a) ↔
      (TwoTerminal o a b ∨ (o.connecting = some a ∧ o.name = some b) ∨ (o.connecting = some b ∧ o.name = some a)) := by
    intro a b; unfold Declares TwoTerminal; tauto
  split at h
  · simp at h
  · rename_i g1 hg1
    split at h
    · simp at h
    · rename_i g2 hg2
      simp only [Except.ok.injEq, Prod.mk.injEq] at h
      obtain ⟨rfl, rfl⟩ := h
      obtain ⟨a1, a2, a3, a4, a5⟩ := addTwoTerminal_spec hg1
      obtain ⟨b1, b2, b3, b4, b5⟩ := addOneTerminal_spec hg2
      refine ⟨rfl, fun x => ?_, b2 ∘ a2, b3 ∘ a3, fun a b => ?_, fun a b => by rw [b5, a5]⟩
      · rw [b1, a1]; simp only [hD]; rw [or_assoc, ← exists_or]
      · rw [b4, a4, hD, or_assoc]

/-- state of the loop after the objects `objs` -/
structure Built (objs : List NetObj) (ot : Option String) (g : Graph) : Prop where
  nodes : ∀ x, x ∈ g.nodes ↔ ∃ b, Connects objs x b
  nodup : g.nodes.Nodup
  simple : Simple g.edges
  adj : ∀ a b, g.Adj a b ↔ Connects objs a b
  ot : ot = (objs.filter (·.name.isSome)).getLast?.map (·.cls)
  equip : ∀ a b, g.equipOf a b ≠ none → ∃ o ∈ objs, TwoTerminal o a b
  equipLast : ∀ a b pre o post, objs = pre ++ o :: post → TwoTerminal o a b → (∀ o' ∈ post, ¬ TwoTerminal o' a b) →
    ∃ ty, g.equipOf a b = some (ty, o.name) ∧ ((pre ++ [o]).filter (·.name.isSome)).getLast?.map (·.cls) = some ty

theorem connects_append {objs : List NetObj} {o : NetObj} {a b : String} :
    Connects (objs ++ [o]) a b ↔ Connects objs a b ∨ Declares o a b ∨ Declares o b a := by
  unfold Connects
  constructor
  · rintro ⟨o', ho', h⟩
    rcases List.mem_append.1 ho' with ho' | ho'
    · exact .inl ⟨o', ho', h⟩
    · simp only [List.mem_singleton] at ho'; subst ho'; exact .inr h
  · rintro (⟨o', ho', h⟩ | h)
    · exact ⟨o', List.mem_append_left _ ho', h⟩
    · exact ⟨o, by simp, h⟩

theorem Built.step {objs : List NetObj} {ot ot' : Option String} {g g' : Graph} {o : NetObj} (hb : Built objs ot g)
    (h : buildStep (ot, g) o = .ok (ot', g')) : Built (objs ++ [o]) ot' g' := by
  obtain ⟨hot, hn, hnd, hsi, ha, he⟩ := buildStep_spec h
  have hot' : ot' = ((objs ++ [o]).filter (·.name.isSome)).getLast?.map (·.cls) := by
    rw [hot, List.filter_append, hb.ot]
    by_cases hs : o.name.isSome
    · simp [hs]
    · simp [hs]
  have htt : ∀ a b, TwoTerminal o a b → ot' ≠ none := by
    rintro a b ht rfl
    unfold buildStep at h
    simp only at h
    rw [← hot] at h
    unfold addTwoTerminal at h
    rcases ht with ⟨h1, h2⟩ | ⟨h1, h2⟩ <;> simp [h1, h2] at h
  refine ⟨fun x => ?_, hnd hb.nodup, hsi hb.simple, fun a b => ?_, hot', fun a b hne => ?_,
    fun a b pre o' post heq ht hpost => ?_⟩
  · rw [hn, hb.nodes]
    rw [← exists_or]
    simp only [connects_append]
  · rw [ha, hb.adj, connects_append]
  · rw [he] at hne
    split at hne
    · rename_i ht; exact ⟨o, by simp, ht⟩
    · obtain ⟨o', ho', ht⟩ := hb.equip a b hne; exact ⟨o', List.mem_append_left _ ho', ht⟩
  · rw [he]
    rcases List.eq_nil_or_concat post with rfl | ⟨post', o2, rfl⟩
    · have : objs = pre ∧ o = o' := by
        have := List.append_inj' heq (by simp)
        simpa using this
      obtain ⟨rfl, rfl⟩ := this
      rw [if_pos ht]
      cases hc : ot' with
      | none => exact absurd hc (htt a b ht)
      | some ty => exact ⟨ty, rfl, by rw [← hot', hc]⟩
    · have heq' : objs ++ [o] = (pre ++ o' :: post') ++ [o2] := by rw [heq]; simp
      have := List.append_inj' heq' (by simp)
      obtain ⟨h1, h2⟩ := this
      simp only [List.cons.injEq, and_true] at h2
      subst h2
      rw [if_neg (hpost o (by simp))]
      exact hb.equipLast a b pre o' post' h1 ht (fun o'' ho'' => hpost o'' (by simp [ho'']))

theorem buildGraph_built {objs : List NetObj} {g : Graph} (h : buildGraph objs = .ok g) : ∃ ot, Built objs ot g := by
  unfold buildGraph at h
  have gen : ∀ (l done : List NetObj) (st st' : Option String × Graph), Built done st.1 st.2 →
      l.foldlM buildStep st = .ok st' → Built (done ++ l) st'.1 st'.2 := by
    intro l
    induction l with
    | nil => intro done st st' hb hf; rw [foldlM_nil_ok hf]; simpa using hb
    | cons o l ih =>
      intro done st st' hb hf
      obtain ⟨s1, h1, h2⟩ := foldlM_cons_ok hf
      have := ih (done ++ [o]) s1 st' (hb.step h1) h2
      simpa using this
  split at h
  · simp at h
  · rename_i ot g' hf
    simp only [Except.ok.injEq] at h
    subst h
    have h0 : Built [] none ⟨[], []⟩ := ⟨by simp [Connects], by simp, by simp [Simple], by simp [Connects, Graph.Adj], rfl,
      by simp [Graph.equipOf, Graph.find], by simp⟩
    have := gen objs [] _ _ h0 hf
    exact ⟨ot, by simpa using this⟩

theorem mem_neighbors {g : Graph} {x y : String} : y ∈ g.neighbors x ↔ g.Adj x y := by
  unfold Graph.neighbors Graph.Adj Edge.joins
  rw [List.mem_filterMap]
  apply exists_congr
  intro e
  apply and_congr_right
  intro _
  constructor
  · intro h
    split at h
    · rename_i hx; simp at h; exact .inl ⟨hx, h⟩
    · split at h
      · rename_i hx; simp at h; exact .inr ⟨h, hx⟩
      · simp at h
  · rintro (⟨rfl, rfl⟩ | ⟨h1, h2⟩)
    · simp
    · by_cases h : e.u = x
      · simp [h, h1, h2] ; rw [← h1, h]
      · simp [h, h1, h2]; exact Eq.symm

end Ditto.Net
