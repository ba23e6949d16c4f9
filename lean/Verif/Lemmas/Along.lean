import Verif.Spec.PhasePath
import Verif.Lemmas.ShortestPaths

/-! The elements of a path are its devices. -/
namespace Ditto.Net
open Ditto Ditto.Search Ditto.Spec

/-- the attributes that a device gives to its edge -/
def elementOf (d : Dev) : Element :=
  ⟨some d.net.cls, some d.net.name, some d.isSub, if d.net.isLine then some d.wirePhases else none⟩

theorem find_of_simple {g : Graph} (hs : Simple g.edges) {e : Edge} (he : e ∈ g.edges) {a b : String} (hj : e.joins a b) :
    g.find a b = some e := by
  unfold Graph.find
  obtain ⟨pre, post, heq⟩ := List.append_of_mem he
  rw [List.find?_eq_some_iff_append]
  refine ⟨by simpa using hj, pre, post, heq, ?_⟩
  intro e' he'
  simp only [Bool.not_eq_eq_eq_not, Bool.not_true, decide_eq_false_iff_not]
  intro hj'
  rw [heq] at hs
  unfold Simple at hs
  rw [List.pairwise_append] at hs
  refine hs.2.2 e' he' e (by simp) ?_
  unfold Edge.joins at hj hj' ⊢
  rcases hj with ⟨rfl, rfl⟩ | ⟨rfl, rfl⟩ <;> rcases hj' with ⟨h1, h2⟩ | ⟨h1, h2⟩ <;> simp [h1, h2]

theorem filter_twoTerminal {devs : List Dev} (hp : NoParallel (netList devs)) {d : Dev} (hd : d ∈ devs) {a b : String}
    (ht : TwoTerminal d.net a b) (hn : d.net.name.isSome) :
    devs.filter (fun x => x.net.name.isSome && decide ((x.net.fromEl = some a ∧ x.net.toEl = some b) ∨
      (x.net.fromEl = some b ∧ x.net.toEl = some a))) = [d] := by
  unfold NoParallel netList at hp
  rw [List.pairwise_map] at hp
  obtain ⟨pre, post, rfl⟩ := List.append_of_mem hd
  rw [List.pairwise_append, List.pairwise_cons] at hp
  obtain ⟨_, ⟨h2, _⟩, h3⟩ := hp
  have hother : ∀ x : Dev, ¬ TwoTerminal x.net a b → (x.net.name.isSome && decide ((x.net.fromEl = some a ∧ x.net.toEl = some b) ∨
      (x.net.fromEl = some b ∧ x.net.toEl = some a))) = false := by
    intro x hx
    unfold TwoTerminal at hx
    simp [hx]
  rw [List.filter_append, List.filter_cons]
  rw [List.filter_eq_nil_iff.2, List.filter_eq_nil_iff.2, if_pos]
  · rfl
  · unfold TwoTerminal at ht
    simp [hn, ht]
  · intro x hx
    rw [hother x (h2 x hx a b ht)]
    simp
  · intro x hx
    rw [hother x fun h => h3 x hx d (by simp) a b h ht]
    simp

theorem element_eq {devs : List Dev} (hT : Tidy devs) {s : String} {n n' : Network} (hb : build (netList devs) s = .ok n)
    (hr : removeOpenSwitches n (netList devs) = .ok n') {a b : String} {d : Dev} (hd : d ∈ devs) (ht : TwoTerminal d.net a b)
    (hadj : n'.graph.Adj a b) (hdir : ∃ e ∈ n.digraph, e.u = a ∧ e.v = b) :
    element n.digraph n'.graph devs a b = elementOf d := by
  have hname : d.net.name.isSome := Option.isSome_iff_ne_none.2 (hT.named d hd)
  have hany : n.digraph.any (fun e => e.joins a b) = true := by
    rw [List.any_eq_true]
    obtain ⟨e, he, h⟩ := hdir
    exact ⟨e, he, by simp [Edge.joins, h]⟩
  obtain ⟨t, dist, ot, hbu, _, _, _, _⟩ := build_tree hb
  -- the edge and its equipment
  obtain ⟨e, he, hj⟩ := hadj
  obtain ⟨_, hed, _⟩ := removeLoop_spec (netList devs) n n' hr
  have hsub : n'.graph.edges.Sublist n.graph.edges :=
    foldlM_rel (fun a b : Network => b.graph.edges.Sublist a.graph.edges) (fun _ => List.Sublist.refl _)
      (fun a b c h1 h2 => h2.trans h1) (netList devs) (fun b a b' _ hstep => removeStep_sublist hstep) hr
  have hf' : n'.graph.find a b = some e := find_of_simple (hbu.simple.sublist hsub) he hj
  have hf : n.graph.find a b = some e := find_of_simple hbu.simple (hsub.subset he) hj
  have heq : (n.graph.equipOf a b).map (·.1) = some d.net.cls := by
    obtain ⟨pre, post, hdev⟩ := List.append_of_mem hd
    have hp := hT.parallel
    unfold NoParallel at hp
    have hobjs : netList devs = pre.map (·.net) ++ d.net :: post.map (·.net) := by
      unfold netList; rw [hdev]; simp
    have hpost : ∀ o' ∈ post.map (·.net), ¬ TwoTerminal o' a b := by
      rw [hobjs, List.pairwise_append, List.pairwise_cons] at hp
      intro o' ho'
      exact hp.2.1.1 o' ho' a b ht
    obtain ⟨ty, h1, h2⟩ := hbu.equipLast a b _ _ _ hobjs ht hpost
    rw [List.filter_append, List.filter_cons, if_pos hname] at h2
    simp only [List.filter_nil, List.getLast?_append, List.getLast?_singleton, Option.some_or, Option.map_some,
      Option.some.injEq] at h2
    rw [h1, h2]; rfl
  unfold element
  simp only [hany, if_true, filter_twoTerminal hT.parallel hd ht hname]
  unfold elementOf
  unfold Graph.equipOf at heq
  rw [hf] at heq
  rw [hf']
  simp only [List.getLast?_singleton, Option.map_some, Element.mk.injEq, true_and]
  refine ⟨heq, ?_⟩
  by_cases hl : d.net.isLine <;> simp [hl]

theorem pathElements_eq {devs : List Dev} (hT : Tidy devs) {s : String} {n n' : Network} (hb : build (netList devs) s = .ok n)
    (hr : removeOpenSwitches n (netList devs) = .ok n') {p : List String} {ds : List Dev} (ha : Along devs p ds)
    (hadj : p.IsChain n'.graph.Adj) (hdir : p.IsChain (fun a b => ∃ e ∈ n.digraph, e.u = a ∧ e.v = b)) :
    pathElements n.digraph n'.graph devs p = ds.map elementOf := by
  induction ha with
  | single x => rfl
  | cons hd ht _ ih =>
    obtain ⟨h1, h2⟩ := List.isChain_cons_cons.1 hadj
    obtain ⟨h3, h4⟩ := List.isChain_cons_cons.1 hdir
    rw [pathElements, element_eq hT hb hr hd ht h1 h3, ih h2 h4]
    rfl

theorem Along.length {devs : List Dev} {p : List String} {ds : List Dev} (h : Along devs p ds) : p.length = ds.length + 1 := by
  induction h with
  | single => rfl
  | cons _ _ _ ih => simp [ih]

theorem Along.mem {devs : List Dev} {p : List String} {ds : List Dev} (h : Along devs p ds) : ∀ d ∈ ds, d ∈ devs := by
  induction h with
  | single => simp
  | cons hd _ _ ih =>
    intro d h
    rcases List.mem_cons.1 h with rfl | h
    · exact hd
    · exact ih d h

theorem Along.unique {devs : List Dev} (hp : NoParallel (netList devs)) {p : List String} {ds ds' : List Dev}
    (h : Along devs p ds) (h' : Along devs p ds') : ds = ds' := by
  induction h generalizing ds' with
  | single x => cases h'; rfl
  | @cons a b q d ds hd ht _ ih =>
    cases h' with
    | cons hd' ht' h'' =>
      rename_i d' ds''
      rw [ih h'']
      congr 1
      by_contra hne
      unfold NoParallel netList at hp
      rw [List.pairwise_map] at hp
      have hsymm : Std.Symm fun x y : Dev => ∀ a b, TwoTerminal x.net a b → ¬ TwoTerminal y.net a b :=
        ⟨fun x y h a b h1 h2 => h a b h2 h1⟩
      exact hp.forall hd hd' hne a b ht ht'

theorem isTransformer_elementOf (d : Dev) : isTransformer (elementOf d) = .ok (decide (Distribution d)) := by
  unfold isTransformer elementOf Distribution
  by_cases h : d.net.cls = "PowerTransformer" <;> simp [h]

theorem transformerNames_eq (ds : List Dev) :
    transformerNames (ds.map elementOf) = .ok ((ds.filter fun d => Distribution d).map (·.net.name)) := by
  induction ds with
  | nil => rfl
  | cons d ds ih =>
    rw [List.map_cons, transformerNames, isTransformer_elementOf]
    by_cases h : Distribution d
    · simp [h, ih, elementOf]
    · simp [h, ih]

theorem devNamed_of_mem {devs : List Dev} (hT : Tidy devs) {d : Dev} (hd : d ∈ devs) : devNamed devs d.net.name = .ok d := by
  obtain ⟨nm, hnm⟩ := Option.ne_none_iff_exists'.1 (hT.named d hd)
  have hf : devs.filter (fun x => x.net.name = some nm) = [d] := by
    have hn := hT.names
    obtain ⟨pre, post, rfl⟩ := List.append_of_mem hd
    rw [List.map_append, List.map_cons, List.nodup_append, List.nodup_cons] at hn
    rw [List.filter_append, List.filter_cons, List.filter_eq_nil_iff.2, List.filter_eq_nil_iff.2, if_pos]
    · rfl
    · simp [hnm]
    · intro x hx
      simp only [decide_eq_true_eq]
      intro h
      exact hn.2.1.1 (List.mem_map.2 ⟨x, hx, h.trans hnm.symm⟩)
    · intro x hx
      simp only [decide_eq_true_eq]
      intro h
      exact hn.2.2 _ (List.mem_map.2 ⟨x, hx, rfl⟩) _ (by simp) (h.trans hnm.symm)
  unfold devNamed
  rw [hnm]
  simp only [hf, List.getLast?_singleton]

end Ditto.Net
