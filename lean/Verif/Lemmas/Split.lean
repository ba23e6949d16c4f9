import Verif.Spec.Split
import Verif.Props.Network
import Mathlib.Data.List.Forall2

/-! Splitting a network into feeders. -/
namespace Ditto.Net
open Ditto Ditto.Spec Ditto.Search

/-- the ends of the edges are nodes -/
def Graph.Closed (g : Graph) : Prop := ∀ a b, g.Adj a b → a ∈ g.nodes

theorem Graph.adj_symm {g : Graph} {a b : String} (h : g.Adj a b) : g.Adj b a := by
  obtain ⟨e, he, h⟩ := h
  exact ⟨e, he, h.symm⟩

theorem induced_adj (g : Graph) (l : List String) (a b : String) : (g.induced l).Adj a b ↔ g.AdjIn l a b := by
  unfold Graph.Adj Graph.AdjIn Graph.induced
  constructor
  · rintro ⟨e, he, hj⟩
    simp only [List.mem_filter, decide_eq_true_eq] at he
    refine ⟨⟨e, he.1, hj⟩, ?_⟩
    rcases hj with ⟨rfl, rfl⟩ | ⟨rfl, rfl⟩
    · exact he.2
    · exact he.2.symm
  · rintro ⟨⟨e, he, hj⟩, ha, hb⟩
    refine ⟨e, ?_, hj⟩
    simp only [List.mem_filter, decide_eq_true_eq]
    rcases hj with ⟨rfl, rfl⟩ | ⟨rfl, rfl⟩
    · exact ⟨he, ha, hb⟩
    · exact ⟨he, hb, ha⟩

theorem induced_nodes (g : Graph) (l : List String) (x : String) : x ∈ (g.induced l).nodes ↔ x ∈ g.nodes ∧ x ∈ l := by
  simp [Graph.induced]

theorem induced_part (g : Graph) (l : List String) : g.IsPart l (g.induced l) :=
  ⟨induced_nodes g l, fun e => by simp [Graph.induced]⟩

theorem reach_back {α : Type} {R : α → α → Prop} (hs : ∀ a b, R a b → R b a) {a b : α} (h : Reach R a b) : Reach R b a := by
  induction h with
  | refl => exact .refl
  | tail _ hr ih => exact (Relation.ReflTransGen.single (hs _ _ hr)).trans ih

theorem adjIn_symm (g : Graph) (l : List String) : ∀ a b, g.AdjIn l a b → g.AdjIn l b a :=
  fun _ _ h => ⟨g.adj_symm h.1, h.2.2, h.2.1⟩

theorem Graph.Closed.induced {g : Graph} (hc : g.Closed) (l : List String) : (g.induced l).Closed := by
  intro a b h
  rw [induced_adj] at h
  exact (induced_nodes _ _ _).2 ⟨hc _ _ h.1, h.2.1⟩

theorem bfsOrder_reach {g : Graph} (hc : g.Closed) {s : String} (hs : s ∈ g.nodes) :
    ∃ t, bfsOrder g s = .ok t ∧ ∀ v, v ∈ s :: t.map (·.2) ↔ Reach g.Adj s v := by
  obtain ⟨d, hd⟩ := bfs_tree g.neighbors g.nodes (fun u _ v hv => hc v u (g.adj_symm (mem_neighbors.1 hv))) s hs
  refine ⟨bfsEdges g.neighbors g.nodes.length s, by simp [bfsOrder, hs], fun v => ?_⟩
  rw [hd.reach, reach_nb_iff]

theorem connectedGraph_spec {g : Graph} (hc : g.Closed) {l : List String} (hl : ∃ x ∈ g.nodes, x ∈ l) :
    ∃ b, connectedGraph (g.induced l) = .ok b ∧ (b = true ↔ g.ConnectedIn l) := by
  unfold connectedGraph
  cases hn : (g.induced l).nodes with
  | nil =>
    obtain ⟨x, hx, hxl⟩ := hl
    have := (induced_nodes g l x).2 ⟨hx, hxl⟩
    rw [hn] at this
    simp at this
  | cons s rest =>
    refine ⟨_, rfl, ?_⟩
    have hs : s ∈ (g.induced l).nodes := by rw [hn]; simp
    obtain ⟨t, ht, hr⟩ := bfsOrder_reach (hc.induced l) hs
    have hadj : (g.induced l).Adj = g.AdjIn l := by funext a b; exact propext (induced_adj g l a b)
    rw [hadj] at hr
    unfold isConnected
    simp only [ht, List.all_eq_true, decide_eq_true_eq]
    constructor
    · intro h a ha hal b hb hbl
      have h1 := (hr a).1 (h a ((induced_nodes _ _ _).2 ⟨ha, hal⟩))
      have h2 := (hr b).1 (h b ((induced_nodes _ _ _).2 ⟨hb, hbl⟩))
      exact (reach_back (adjIn_symm g l) h1).trans h2
    · intro h x hx
      have hx := (induced_nodes _ _ _).1 hx
      have hs := (induced_nodes _ _ _).1 hs
      exact (hr x).2 (h s hs.1 hs.2 x hx.1 hx.2)

theorem connectedGraph_none {g : Graph} {l : List String} (hl : ¬ ∃ x ∈ g.nodes, x ∈ l) :
    connectedGraph (g.induced l) = .error .networkXPointlessConcept := by
  have : (g.induced l).nodes = [] := by
    apply List.eq_nil_iff_forall_not_mem.2
    intro x hx
    exact hl ⟨x, (induced_nodes _ _ _).1 hx⟩
  unfold connectedGraph
  rw [this]

/-! ### Adding a path -/

theorem addNodes_spec (p : List String) : ∀ l, ∃ extra, addNodes l p = l ++ extra ∧ extra.Nodup ∧ (∀ x ∈ extra, x ∈ p ∧ x ∉ l) ∧
    ∀ x ∈ p, x ∈ addNodes l p := by
  induction p with
  | nil => intro l; exact ⟨[], by simp [addNodes]⟩
  | cons y p ih =>
    intro l
    by_cases hy : y ∈ l
    · have he : addNodes l (y :: p) = addNodes l p := by simp [addNodes, hy]
      obtain ⟨extra, h1, h2, h3, h4⟩ := ih l
      refine ⟨extra, by rw [he, h1], h2, fun x hx => ⟨by simp [(h3 x hx).1], (h3 x hx).2⟩, ?_⟩
      intro x hx
      rw [he]
      rcases List.mem_cons.1 hx with rfl | hx
      · rw [h1]; simp [hy]
      · exact h4 x hx
    · have he : addNodes l (y :: p) = addNodes (l ++ [y]) p := by simp [addNodes, hy]
      obtain ⟨extra, h1, h2, h3, h4⟩ := ih (l ++ [y])
      refine ⟨y :: extra, by rw [he, h1]; simp, ?_, ?_, ?_⟩
      · refine List.nodup_cons.2 ⟨fun hm => ?_, h2⟩
        have := (h3 y hm).2
        simp at this
      · intro x hx
        rcases List.mem_cons.1 hx with rfl | hx
        · exact ⟨by simp, hy⟩
        · have := h3 x hx
          refine ⟨by simp [this.1], fun hl => this.2 (by simp [hl])⟩
      · intro x hx
        rw [he]
        rcases List.mem_cons.1 hx with rfl | hx
        · rw [h1]; simp
        · exact h4 x hx

theorem Graph.Grown.refl (g : Graph) (l : List String) : g.Grown l l := ⟨[], by simp⟩

theorem Graph.Grown.trans {g : Graph} {l l' l'' : List String} (h : g.Grown l l') (h' : g.Grown l' l'') : g.Grown l l'' := by
  obtain ⟨e1, rfl, hn1, h1⟩ := h
  obtain ⟨e2, rfl, hn2, h2⟩ := h'
  refine ⟨e1 ++ e2, by simp, ?_, ?_⟩
  · refine List.nodup_append.2 ⟨hn1, hn2, fun a ha b hb => ?_⟩
    rintro rfl
    exact (h2 a hb).2 (by simp [ha])
  · intro x hx
    rcases List.mem_append.1 hx with hx | hx
    · exact h1 x hx
    · exact ⟨(h2 x hx).1, fun hl => (h2 x hx).2 (by simp [hl])⟩

theorem Graph.Grown.subset {g : Graph} {l l' : List String} (h : g.Grown l l') : ∀ x ∈ l, x ∈ l' := by
  obtain ⟨e, rfl, _⟩ := h
  intro x hx
  simp [hx]

/-! ### Paths -/

theorem chain_reach {R : String → String → Prop} : ∀ {p : List String} {a : String}, p.head? = some a → p.IsChain R →
    ∀ x ∈ p, Reach R a x := by
  intro p
  induction p with
  | nil => intro a h; simp at h
  | cons y p ih =>
    intro a h hc x hx
    simp only [List.head?_cons, Option.some.injEq] at h
    subst h
    rcases List.mem_cons.1 hx with rfl | hx
    · exact .refl
    · cases p with
      | nil => simp at hx
      | cons z p =>
        rw [List.isChain_cons_cons] at hc
        exact (Relation.ReflTransGen.single hc.1).trans (ih rfl hc.2 x hx)

theorem chain_in {g : Graph} {l : List String} : ∀ {p : List String}, p.IsChain g.Adj → (∀ x ∈ p, x ∈ l) → p.IsChain (g.AdjIn l) := by
  intro p
  induction p with
  | nil => intro _ _; simp
  | cons y p ih =>
    intro hc hl
    cases p with
    | nil => simp
    | cons z p =>
      rw [List.isChain_cons_cons] at hc ⊢
      exact ⟨⟨hc.1, hl _ (by simp), hl _ (by simp)⟩, ih hc.2 fun x hx => hl x (by simp [hx])⟩

theorem reach_node {g : Graph} (hc : g.Closed) {a x : String} (ha : a ∈ g.nodes) (h : Reach g.Adj a x) : x ∈ g.nodes := by
  cases h with
  | refl => exact ha
  | tail _ h => exact hc _ _ (g.adj_symm h)

/-! ### One round -/

/-- what is missing in the list -/
def missing (g : Graph) (l : List String) : Nat := (g.nodes.filter fun x => x ∉ l).length

theorem missing_lt {g : Graph} {l l' : List String} (h : ∀ x ∈ l, x ∈ l') {x : String} (hx : x ∈ g.nodes) (hl : x ∉ l) (hl' : x ∈ l') :
    missing g l' < missing g l := by
  unfold missing
  generalize g.nodes = ns at hx
  induction ns with
  | nil => simp at hx
  | cons y ns ih =>
    have hle : ∀ ns : List String, (ns.filter fun x => x ∉ l').length ≤ (ns.filter fun x => x ∉ l).length := by
      intro ns
      apply List.Sublist.length_le
      apply List.monotone_filter_right
      intro z hz
      simp only [decide_eq_true_eq] at hz ⊢
      exact fun hzl => hz (h z hzl)
    rcases List.mem_cons.1 hx with rfl | hx
    · rw [List.filter_cons_of_neg (by simpa using hl'), List.filter_cons_of_pos (by simpa using hl)]
      have := hle ns
      simp only [List.length_cons]
      omega
    · have := ih hx
      by_cases hy : y ∈ l
      · rw [List.filter_cons_of_neg (p := fun x => x ∉ l) (by simpa using hy), List.filter_cons_of_neg (by simpa using h y hy)]
        exact this
      · rw [List.filter_cons_of_pos (p := fun x => x ∉ l) (by simpa using hy)]
        by_cases hy' : y ∈ l'
        · rw [List.filter_cons_of_neg (by simpa using hy')]
          simp only [List.length_cons]; omega
        · rw [List.filter_cons_of_pos (by simpa using hy')]
          simp only [List.length_cons]; omega

theorem comps_two {g : Graph} {ops : SplitOps} (ho : ops.Correct g) {l : List String} (hl : ∃ x ∈ g.nodes, x ∈ l)
    (hn : ¬ g.ConnectedIn l) : ∃ a c b d rest, ops.comps l = (a :: c) :: (b :: d) :: rest ∧ a ∈ g.nodes ∧ a ∈ l ∧ b ∈ g.nodes ∧ b ∈ l ∧
      ¬ Reach (g.AdjIn l) a b := by
  have hne := ho.nonempty l
  have hnd := ho.nodup l
  have hns := ho.nodes l
  have hsame := ho.same l
  generalize ops.comps l = cs at *
  match cs with
  | [] =>
    obtain ⟨x, hx⟩ := hl
    have := (hns x).2 hx
    simp at this
  | [c] =>
    exfalso
    apply hn
    intro a ha hal b hb hbl
    have h1 := (hns a).2 ⟨ha, hal⟩
    have h2 := (hns b).2 ⟨hb, hbl⟩
    simp only [List.flatten_cons, List.flatten_nil, List.append_nil] at h1 h2
    exact (hsame c (by simp) a h1 b).1 h2
  | [] :: c :: rest => exact absurd rfl (hne [] (by simp))
  | (a :: c) :: [] :: rest => exact absurd rfl (hne [] (by simp))
  | (a :: c) :: (b :: d) :: rest =>
    have ha := (hns a).1 (by simp)
    have hb := (hns b).1 (by simp)
    refine ⟨a, c, b, d, rest, rfl, ha.1, ha.2, hb.1, hb.2, fun hr => ?_⟩
    have hm := (hsame (a :: c) (by simp) a (by simp) b).2 hr
    rw [List.flatten_cons, List.nodup_append] at hnd
    exact hnd.2.2 b hm b (by simp) rfl

theorem findPath_ok {g : Graph} (hc : g.Closed) {ops : SplitOps} {a b : String} (ha : a ∈ g.nodes) (h : Reach g.Adj a b) :
    findPath g ops a b = .ok (ops.path a b) := by
  obtain ⟨t, ht, hr⟩ := bfsOrder_reach hc ha
  unfold findPath
  simp only [ht]
  rw [if_pos ((hr b).2 h)]

theorem findPath_none {g : Graph} (hc : g.Closed) {ops : SplitOps} {a b : String} (ha : a ∈ g.nodes) (h : ¬ Reach g.Adj a b) :
    findPath g ops a b = .error .networkXNoPath := by
  obtain ⟨t, ht, hr⟩ := bfsOrder_reach hc ha
  unfold findPath
  simp only [ht]
  rw [if_neg fun hm => h ((hr b).1 hm)]

/-- a round adds a path, or finds none -/
theorem connect_step {g : Graph} (hc : g.Closed) {ops : SplitOps} (ho : ops.Correct g) {lists : List (List String)} {i : Nat}
    {l : List String} (hi : lists[i]? = some l) (hl : ∃ x ∈ g.nodes, x ∈ l) (hn : ¬ g.ConnectedIn l) :
    (connectComponents g ops lists i = .error .networkXNoPath ∧ ¬ g.Joinable l) ∨
    ∃ l', connectComponents g ops lists i = .ok (lists.set i l') ∧ g.Grown l l' ∧ missing g l' < missing g l ∧
      (g.Joinable l' ↔ g.Joinable l) := by
  obtain ⟨a, c, b, d, rest, hcs, ha, hal, hb, hbl, hab⟩ := comps_two ho hl hn
  have hne : a ≠ b := by rintro rfl; exact hab .refl
  have heq : connectComponents g ops lists i = match findPath g ops a b with
        | .error e => .error e
        | .ok p => .ok (lists.set i (addNodes l p)) := by
    unfold connectComponents
    simp only [hi, hcs]
    rw [if_neg hne]
    cases findPath g ops a b <;> rfl
  by_cases hr : Reach g.Adj a b
  · right
    rw [findPath_ok hc ha hr] at heq
    obtain ⟨hp1, hp2, hp3⟩ := ho.path a b hr
    obtain ⟨extra, h1, h2, h3, h4⟩ := addNodes_spec (ops.path a b) l
    have hreach := chain_reach hp1 hp3
    have hnode : ∀ x ∈ ops.path a b, x ∈ g.nodes := fun x hx => reach_node hc ha (hreach x hx)
    have hg : g.Grown l (addNodes l (ops.path a b)) := ⟨extra, h1, h2, fun x hx => ⟨hnode x (h3 x hx).1, (h3 x hx).2⟩⟩
    have hbm : b ∈ ops.path a b := List.mem_of_getLast? hp2
    obtain ⟨x, hx, hxl⟩ : ∃ x ∈ ops.path a b, x ∉ l := by
      by_contra hall
      push Not at hall
      exact hab (chain_reach hp1 (chain_in hp3 hall) b hbm)
    refine ⟨_, heq, hg, missing_lt hg.subset (hnode x hx) hxl (h4 x hx), ⟨fun hj => ⟨hl, fun u hu hul v hv hvl => ?_⟩,
      fun hj => ⟨⟨a, ha, hg.subset a hal⟩, ?_⟩⟩⟩
    · exact hj.2 u hu (hg.subset u hul) v hv (hg.subset v hvl)
    · have key : ∀ u ∈ g.nodes, u ∈ addNodes l (ops.path a b) → Reach g.Adj a u := by
        intro u hu hul
        rw [h1] at hul
        rcases List.mem_append.1 hul with hul | hul
        · exact hj.2 a ha hal u hu hul
        · exact hreach u (h3 u hul).1
      intro u hu hul v hv hvl
      exact (reach_back (fun _ _ => g.adj_symm) (key u hu hul)).trans (key v hv hvl)
  · left
    rw [findPath_none hc ha hr] at heq
    exact ⟨heq, fun hj => hr (hj.2 a ha hal b hb hbl)⟩

/-- the loop for a feeder -/
theorem splitLoop_spec {g : Graph} (hc : g.Closed) {ops : SplitOps} (ho : ops.Correct g) {i : Nat} :
    ∀ (k : Nat) (lists : List (List String)) (l : List String), lists[i]? = some l → (∃ x ∈ g.nodes, x ∈ l) → missing g l < k →
      (g.Joinable l → ∃ l', splitLoop g ops i i k lists = some (.ok (lists.set i l')) ∧ g.Grown l l' ∧ g.ConnectedIn l') ∧
      (¬ g.Joinable l → splitLoop g ops i i k lists = some (.error .networkXNoPath)) := by
  intro k
  induction k with
  | zero => intro lists l _ _ h; omega
  | succ k ih =>
    intro lists l hi hl hk
    unfold splitLoop
    simp only [hi]
    obtain ⟨b, hb, hcon⟩ := connectedGraph_spec hc hl
    rw [hb]
    cases b with
    | true =>
      have hcl := hcon.1 rfl
      refine ⟨fun _ => ⟨l, ?_, .refl g l, hcl⟩, fun hn => absurd ⟨hl, fun a ha hal b hb hbl => ?_⟩ hn⟩
      · simp only [Option.some.injEq, Except.ok.injEq]
        apply List.ext_getElem?
        intro j
        by_cases hj : i = j
        · subst hj
          obtain ⟨hlt, -⟩ := List.getElem?_eq_some_iff.1 hi
          rw [List.getElem?_set_self hlt, hi]
        · rw [List.getElem?_set_ne hj]
      · exact reach_mono (fun _ _ h => h.1) (hcl a ha hal b hb hbl)
    | false =>
      have hn : ¬ g.ConnectedIn l := fun h => by simpa using hcon.2 h
      simp only
      rcases connect_step hc ho hi hl hn with ⟨he, hj⟩ | ⟨l1, he, hg, hm, hj⟩
      · rw [he]
        exact ⟨fun h => absurd h hj, fun _ => rfl⟩
      · rw [he]
        simp only
        obtain ⟨hlt, -⟩ := List.getElem?_eq_some_iff.1 hi
        obtain ⟨x, hx, hxl⟩ := hl
        have := ih (lists.set i l1) l1 (List.getElem?_set_self hlt) ⟨x, hx, hg.subset x hxl⟩ (by omega)
        refine ⟨fun h => ?_, fun h => this.2 fun h' => h (hj.1 h')⟩
        obtain ⟨l', h1, h2, h3⟩ := this.1 (hj.2 h)
        exact ⟨l', by rw [h1, List.set_set], hg.trans h2, h3⟩

theorem missing_le (g : Graph) (l : List String) : missing g l < g.nodes.length + 1 := by
  have := List.length_filter_le (fun x => decide (x ∉ l)) g.nodes
  unfold missing
  omega

theorem splitLoop_none {g : Graph} {ops : SplitOps} {i j k : Nat} {lists : List (List String)} {l : List String}
    (hi : lists[i]? = some l) (hl : ¬ ∃ x ∈ g.nodes, x ∈ l) : splitLoop g ops i j (k + 1) lists = some (.error .networkXPointlessConcept) := by
  unfold splitLoop
  simp only [hi]
  rw [connectedGraph_none hl]

theorem splitLoop_connected {g : Graph} (hc : g.Closed) {ops : SplitOps} {i j k : Nat} {lists : List (List String)} {l : List String}
    (hi : lists[i]? = some l) (hl : ∃ x ∈ g.nodes, x ∈ l) (h : g.ConnectedIn l) : splitLoop g ops i j (k + 1) lists = some (.ok lists) := by
  unfold splitLoop
  simp only [hi]
  obtain ⟨b, hb, hcon⟩ := connectedGraph_spec hc hl
  rw [hb, hcon.2 h]

/-! ### All feeders -/

/-- the assignments to `node_feeder_mapping` -/
def assignments (g : Graph) (names : List String) (lists : List (List String)) : List (String × String) :=
  (names.zip lists).flatMap fun p => (g.induced p.2).nodes.map fun x => (x, p.1)

theorem splitFeeders_ok {g : Graph} {ops : SplitOps} {names : List String} {P : List String → Prop} {Q : List String → List String → Prop}
    (H : ∀ cpt nm lists l, names[cpt]? = some nm → lists[cpt]? = some l → P l →
      ∃ l', splitLoop g ops cpt (names.idxOf nm) (g.nodes.length + 1) lists = some (.ok (lists.set cpt l')) ∧ Q l l') :
    ∀ (rest done : List String) (pre ls : List (List String)) (net : List (String × Graph)) (mp : List (String × String)),
      names = done ++ rest → pre.length = done.length → ls.length = rest.length → (∀ l ∈ ls, P l) →
      ∃ ls', splitFeeders g ops names done.length rest ⟨pre ++ ls, net, mp⟩ =
          some (.ok ⟨pre ++ ls', net ++ (rest.zip ls').map fun p => (p.1, g.induced p.2), mp ++ assignments g rest ls'⟩) ∧
        List.Forall₂ Q ls ls' := by
  intro rest
  induction rest with
  | nil =>
    intro done pre ls net mp hn hp hl hP
    have : ls = [] := by simpa using hl
    subst this
    exact ⟨[], by simp [splitFeeders, assignments], .nil⟩
  | cons nm rest ih =>
    intro done pre ls net mp hn hp hl hP
    cases ls with
    | nil => simp at hl
    | cons l ls =>
      obtain ⟨l', h1, h2⟩ := H done.length nm (pre ++ l :: ls) l (by rw [hn]; simp) (by rw [← hp]; simp) (hP l (by simp))
      have hset : (pre ++ l :: ls).set done.length l' = pre ++ l' :: ls := by
        rw [← hp, List.set_append_right _ _ (Nat.le_refl _)]
        simp
      have hget : (pre ++ l' :: ls)[done.length]? = some l' := by rw [← hp]; simp
      obtain ⟨ls', h3, h4⟩ := ih (done ++ [nm]) (pre ++ [l']) ls (net ++ [(nm, g.induced l')])
        (mp ++ (g.induced l').nodes.map fun x => (x, nm)) (by simp [hn]) (by simp [hp]) (by simpa using hl)
        (fun l hl => hP l (by simp [hl]))
      refine ⟨l' :: ls', ?_, .cons h2 h4⟩
      unfold splitFeeders splitFeeder
      simp only [h1, hset, hget]
      simp only [List.length_append, List.length_cons, List.length_nil, List.append_assoc, List.cons_append, List.nil_append] at h3
      simp only [Nat.zero_add] at h3
      rw [h3]
      simp [assignments]

theorem splitFeeders_error {g : Graph} {ops : SplitOps} {names : List String} {P : List String → Prop} {E : PyErr → Prop}
    (H : ∀ cpt nm lists l, names[cpt]? = some nm → lists[cpt]? = some l → P l →
      ∃ l', splitLoop g ops cpt (names.idxOf nm) (g.nodes.length + 1) lists = some (.ok (lists.set cpt l')))
    (H' : ∀ cpt nm lists l, names[cpt]? = some nm → lists[cpt]? = some l → ¬ P l →
      ∃ e, splitLoop g ops cpt (names.idxOf nm) (g.nodes.length + 1) lists = some (.error e) ∧ E e) :
    ∀ (rest done : List String) (pre ls : List (List String)) (net : List (String × Graph)) (mp : List (String × String)),
      names = done ++ rest → pre.length = done.length → ls.length = rest.length → ¬ (∀ l ∈ ls, P l) →
      ∃ e, splitFeeders g ops names done.length rest ⟨pre ++ ls, net, mp⟩ = some (.error e) ∧ E e := by
  intro rest
  induction rest with
  | nil =>
    intro done pre ls net mp hn hp hl hP
    have : ls = [] := by simpa using hl
    subst this
    simp at hP
  | cons nm rest ih =>
    intro done pre ls net mp hn hp hl hP
    cases ls with
    | nil => simp at hl
    | cons l ls =>
      have hnm : names[done.length]? = some nm := by rw [hn]; simp
      have hll : (pre ++ l :: ls)[done.length]? = some l := by rw [← hp]; simp
      by_cases hPl : P l
      · obtain ⟨l', h1⟩ := H done.length nm (pre ++ l :: ls) l hnm hll hPl
        have hset : (pre ++ l :: ls).set done.length l' = pre ++ l' :: ls := by
          rw [← hp, List.set_append_right _ _ (Nat.le_refl _)]
          simp
        have hget : (pre ++ l' :: ls)[done.length]? = some l' := by rw [← hp]; simp
        obtain ⟨e, h3, h4⟩ := ih (done ++ [nm]) (pre ++ [l']) ls (net ++ [(nm, g.induced l')])
          (mp ++ (g.induced l').nodes.map fun x => (x, nm)) (by simp [hn]) (by simp [hp]) (by simpa using hl)
          (fun hall => hP fun l0 hl0 => by
            rcases List.mem_cons.1 hl0 with rfl | hl0
            · exact hPl
            · exact hall l0 hl0)
        refine ⟨e, ?_, h4⟩
        unfold splitFeeders splitFeeder
        simp only [h1, hset, hget]
        simp only [List.length_append, List.length_cons, List.length_nil, List.append_assoc, List.cons_append, List.nil_append] at h3
        simp only [Nat.zero_add] at h3
        rw [h3]
      · obtain ⟨e, h1, h2⟩ := H' done.length nm (pre ++ l :: ls) l hnm hll hPl
        refine ⟨e, ?_, h2⟩
        unfold splitFeeders splitFeeder
        simp only [h1]

/-- looking up a node in the assignments finds the last feeder with it -/
theorem find_assignments {g : Graph} (x : String) : ∀ (names : List String) (lists : List (List String)), names.length = lists.length →
    ∀ nm, ((assignments g names lists).reverse.find? fun a => a.1 = x).map (·.2) = some nm ↔
      ∃ i l, names[i]? = some nm ∧ lists[i]? = some l ∧ x ∈ g.nodes ∧ x ∈ l ∧ ∀ (j : Nat) (l' : List String), i < j → lists[j]? = some l' → x ∉ l' := by
  intro names
  induction names using List.reverseRecOn with
  | nil =>
    intro lists _ nm
    simp [assignments]
  | append_singleton names nm0 ih =>
    intro lists hlen nm
    have hne : lists ≠ [] := by rintro rfl; simp at hlen
    obtain ⟨ls, l0, rfl⟩ : ∃ ls l0, lists = ls ++ [l0] := ⟨lists.dropLast, lists.getLast hne, (List.dropLast_append_getLast hne).symm⟩
    have hlen' : names.length = ls.length := by simpa using hlen
    have has : assignments g (names ++ [nm0]) (ls ++ [l0]) = assignments g names ls ++ (g.induced l0).nodes.map fun x => (x, nm0) := by
      unfold assignments
      rw [List.zip_append hlen']
      simp
    rw [has, List.reverse_append, List.find?_append]
    by_cases hx : x ∈ (g.induced l0).nodes
    · have hf : ∃ q, ((g.induced l0).nodes.map fun x => (x, nm0)).reverse.find? (fun a => decide (a.1 = x)) = some q ∧ q.2 = nm0 := by
        cases hq : ((g.induced l0).nodes.map fun x => (x, nm0)).reverse.find? (fun a => decide (a.1 = x)) with
        | none =>
          rw [List.find?_eq_none] at hq
          exact absurd (decide_eq_true (rfl : (x, nm0).1 = x)) (hq (x, nm0) (by simpa using hx))
        | some q =>
          have := List.mem_of_find?_eq_some hq
          simp only [List.mem_reverse, List.mem_map] at this
          obtain ⟨y, _, rfl⟩ := this
          exact ⟨_, rfl, rfl⟩
      obtain ⟨q, hq, rfl⟩ := hf
      rw [hq]
      simp only [Option.some_or, Option.map_some, Option.some.injEq]
      obtain ⟨hxg, hxl⟩ := (induced_nodes _ _ _).1 hx
      constructor
      · rintro rfl
        refine ⟨names.length, l0, by simp, by simp [hlen'], hxg, hxl, fun j l' hj hl' => ?_⟩
        obtain ⟨hlt, -⟩ := List.getElem?_eq_some_iff.1 hl'
        simp at hlt
        omega
      · rintro ⟨i, l, h1, h2, h3, h4, h5⟩
        by_cases hi : i = names.length
        · subst hi
          simpa using h1
        · obtain ⟨hlt, -⟩ := List.getElem?_eq_some_iff.1 h1
          simp only [List.length_append, List.length_cons, List.length_nil] at hlt
          exact absurd hxl (h5 names.length l0 (by omega) (by simp [hlen']))
    · have hf : ((g.induced l0).nodes.map fun x => (x, nm0)).reverse.find? (fun a => decide (a.1 = x)) = none := by
        rw [List.find?_eq_none]
        intro q hq
        simp only [List.mem_reverse, List.mem_map] at hq
        obtain ⟨y, hy, rfl⟩ := hq
        simp only [decide_eq_true_eq]
        rintro rfl
        exact hx hy
      rw [hf, Option.none_or, ih ls hlen' nm]
      have hx' : x ∈ g.nodes → x ∉ l0 := fun h1 h2 => hx ((induced_nodes _ _ _).2 ⟨h1, h2⟩)
      constructor
      · rintro ⟨i, l, h1, h2, h3, h4, h5⟩
        have hi1 := (List.getElem?_eq_some_iff.1 h1).1
        have hi2 := (List.getElem?_eq_some_iff.1 h2).1
        refine ⟨i, l, by rw [List.getElem?_append_left hi1, h1], by rw [List.getElem?_append_left hi2, h2], h3, h4, fun j l' hj hl' => ?_⟩
        by_cases hjl : j < ls.length
        · rw [List.getElem?_append_left hjl] at hl'
          exact h5 j l' hj hl'
        · rw [List.getElem?_append_right (by omega)] at hl'
          have : l' = l0 := by
            cases hj0 : j - ls.length with
            | zero => rw [hj0] at hl'; simpa using hl'.symm
            | succ m => rw [hj0] at hl'; simp at hl'
          subst this
          exact hx' h3
      · rintro ⟨i, l, h1, h2, h3, h4, h5⟩
        have hi2 := (List.getElem?_eq_some_iff.1 h2).1
        simp only [List.length_append, List.length_cons, List.length_nil] at hi2
        by_cases hi : i < ls.length
        · rw [List.getElem?_append_left (by omega)] at h1
          rw [List.getElem?_append_left hi] at h2
          refine ⟨i, l, h1, h2, h3, h4, fun j l' hj hl' => h5 j l' hj ?_⟩
          rw [List.getElem?_append_left (List.getElem?_eq_some_iff.1 hl').1, hl']
        · have : i = ls.length := by omega
          subst this
          rw [List.getElem?_append_right (Nat.le_refl _)] at h2
          simp at h2
          subst h2
          exact absurd h4 (hx' h3)

end Ditto.Net
