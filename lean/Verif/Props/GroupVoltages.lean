import Verif.Lemmas.GroupVoltages
import Verif.Props.Voltages

/-! C45: `set_nominal_voltages`. -/
namespace Ditto.Net
open Ditto Ditto.Spec

theorem setGroup_cases {n : Network} {s : String} {groups : List (List String)} {devs devs' : List VoltDev}
    (hn : (devs.filterMap (·.net.name)).Nodup) (h : setGroupVoltages n s groups devs = .ok devs') :
    ∃ infos F, List.Forall₂ (fun c i => groupInfo n devs c = .ok i) groups infos ∧
      (∀ x j, F x = some j → j ∈ infos ∧ x ∈ j.rest) ∧ (∀ j ∈ infos, ∀ x ∈ j.rest, F x ≠ none) ∧
      List.Forall₂ (fun d d' => d'.net = d.net ∧ (d.net.isLine = false → d' = putG F d)) devs devs' := by
  unfold setGroupVoltages nodeVoltages at h
  split at h
  · cases hm : groups.mapM (groupInfo n devs) with
    | error e => rw [hm] at h; simp at h
    | ok infos =>
      rw [hm] at h
      simp only at h
      cases ha : assignGroups infos devs with
      | error e => rw [ha] at h; simp at h
      | ok devs1 =>
        rw [ha] at h
        simp only at h
        rw [← putG_none devs] at ha
        obtain ⟨F, h1, h2, _, h4⟩ := assignGroups_put hn infos _ _ ha
        obtain ⟨post, h5, h6⟩ := lineVoltages_other h
        rw [List.nil_append] at h5
        subst h5 h1
        refine ⟨infos, F, mapM_forall₂ hm, fun x j hx => ?_, h4, ?_⟩
        · rcases h2 x j hx with h | h
          · simp at h
          · exact h
        · rw [List.forall₂_map_left_iff] at h6
          refine h6.imp fun d d' ⟨g1, g2⟩ => ?_
          rw [putG_net] at g1 g2
          exact ⟨g1, g2⟩
  · simp at h

theorem forall₂_mem_left {α β : Type} {R : α → β → Prop} {l : List α} {l' : List β} (h : List.Forall₂ R l l') {b : β} (hb : b ∈ l') :
    ∃ a ∈ l, R a b := by
  induction h with
  | nil => simp at hb
  | cons hab _ ih =>
    rcases List.mem_cons.1 hb with rfl | hb
    · exact ⟨_, by simp, hab⟩
    · obtain ⟨a, ha, hr⟩ := ih hb
      exact ⟨a, by simp [ha], hr⟩

theorem forall₂_mem_right {α β : Type} {R : α → β → Prop} {l : List α} {l' : List β} (h : List.Forall₂ R l l') {a : α} (ha : a ∈ l) :
    ∃ b ∈ l', R a b := by
  induction h with
  | nil => simp at ha
  | cons hab _ ih =>
    rcases List.mem_cons.1 ha with rfl | ha
    · exact ⟨_, by simp, hab⟩
    · obtain ⟨b, hb, hr⟩ := ih ha
      exact ⟨b, by simp [hb], hr⟩

theorem groups_unique {g : Graph} {groups : List (List String)} (hg : IsGroups g groups) {c c' : List String} (hc : c ∈ groups)
    (hc' : c' ∈ groups) {x : String} (hx : x ∈ c) (hx' : x ∈ c') : c = c' := by
  by_contra hne
  have hnf := List.nodup_flatten.1 hg.nodup
  haveI : Std.Symm (List.Disjoint (α := String)) := ⟨fun _ _ h _ hb ha => h ha hb⟩
  exact (hnf.2.forall hc hc' hne) hx hx'

/-- C45, the part that holds: in a network without loops whose transformers have windings with known voltages, if the method ends
without exception, then it changes no object that is not a node of the network or a line. Every object in the network gets the low
voltage of the nearest transformer above it, `None` if there is no transformer, and loads also get its name, with the exception of
the objects that are taken out of their group to find this transformer; these keep everything. -/
theorem C45_effect_partial (devs : List VoltDev) (s : String) (n : Network) (groups : List (List String)) (devs' : List VoltDev)
    (hb : build (devs.map (·.net)) s = .ok n) (hn : (devs.filterMap (·.net.name)).Nodup) (hg : IsGroups n.graph groups)
    (hr : Radial n)
    (h : setGroupVoltages n s groups devs = .ok devs') :
    List.Forall₂ (fun d d' => d.net.isLine = false →
      ((∀ x, d.net.name = some x → x ∉ n.graph.nodes) ∧ d' = d) ∨
      ∃ x, d.net.name = some x ∧ x ∈ n.graph.nodes ∧
        (((∃ c ∈ groups, ∃ w rest, TakenOut devs c w rest ∧ x ∈ c ∧ x ∉ rest) ∧ d' = d) ∨
        ((∃ c ∈ groups, ∃ w rest, TakenOut devs c w rest ∧ x ∈ rest) ∧
          ∃ es v nm, Route n.digraph s es x ∧ UpVoltage devs es v ∧ UpTrafo es nm ∧
          d' = { d with hasVoltage := true, voltage := v, upstream := if d.net.cls = "Load" then nm else d.upstream }))) devs devs' := by
  obtain ⟨infos, F, h1, h2, h3, h4⟩ := setGroup_cases hn h
  refine h4.imp fun d d' ⟨_, hd⟩ hl => ?_
  have hd := hd hl
  cases hname : d.net.name with
  | none =>
    left
    refine ⟨by simp, ?_⟩
    rw [hd]; unfold putG; simp [hname]
  | some x =>
    cases hF : F x with
    | none =>
      have hd' : d' = d := by rw [hd]; unfold putG; simp [hname, hF]
      by_cases hx : x ∈ n.graph.nodes
      · right
        refine ⟨x, rfl, hx, .inl ⟨?_, hd'⟩⟩
        obtain ⟨c, hc, hxc⟩ := hg.all x hx
        obtain ⟨i, hi, hgi⟩ := forall₂_mem_right h1 hc
        obtain ⟨w, hw, _⟩ := groupInfo_spec hgi
        exact ⟨c, hc, w, i.rest, hw, hxc, fun hxr => h3 i hi x hxr hF⟩
      · left
        exact ⟨fun x' hx' => by simp only [Option.some.injEq] at hx'; exact hx' ▸ hx, hd'⟩
    | some i =>
      right
      obtain ⟨hi, hxr⟩ := h2 x i hF
      obtain ⟨c, hc, hgi⟩ := forall₂_mem_left h1 hi
      obtain ⟨w, hw, hup, hvolt⟩ := groupInfo_spec hgi
      obtain ⟨pre, hceq, hwn, -⟩ := id hw
      have hxc : x ∈ c := by rw [hceq]; simp [hxr]
      have hwc : w ∈ c := by rw [hceq]; simp
      refine ⟨x, rfl, hg.nodes c hc x hxc, .inr ⟨⟨c, hc, w, i.rest, hw, hxr⟩, ?_⟩⟩
      obtain ⟨es, hes, hu⟩ := upTrafo_reach hb hr ((hg.class_ c hc w hwc x).1 hxc) (upTrafo_of_ok hb hup)
      refine ⟨es, i.voltage, i.trafo, hes, ?_, hu, ?_⟩
      · rcases hu with ⟨g1, g2⟩ | ⟨pre', e, post, heq, g1, g2⟩
        · rw [g2] at hvolt
          exact .inl ⟨g1, hvolt⟩
        · refine .inr ⟨pre', e, post, i.trafo, heq, g1, g2, ?_⟩
          revert hvolt
          cases i.trafo with
          | none => exact fun hvolt => .inl ⟨rfl, hvolt⟩
          | some nm => exact fun hvolt => secondaryVoltage_side hn hvolt
      · rw [hd]; unfold putG GroupInfo.set; simp [hname, hF]

/-- C45 is violated in every network: in each group of nodes one node, the volunteer, does not get a voltage but keeps what it had,
whatever the order of the sets. -/
theorem C45_volunteer_violated (devs : List VoltDev) (s : String) (n : Network) (groups : List (List String)) (devs' : List VoltDev)
    (hn : (devs.filterMap (·.net.name)).Nodup) (hg : IsGroups n.graph groups)
    (hl : ∀ d ∈ devs, d.net.cls = "Node" → d.net.isLine = false)
    (h : setGroupVoltages n s groups devs = .ok devs') :
    ∀ c ∈ groups, ∃ x ∈ c, ∃ d ∈ devs, d.net.name = some x ∧ d.net.cls = "Node" ∧ d ∈ devs' := by
  intro c hc
  obtain ⟨infos, F, h1, h2, h3, h4⟩ := setGroup_cases hn h
  obtain ⟨i, hi, hgi⟩ := forall₂_mem_right h1 hc
  obtain ⟨w, hw, _⟩ := groupInfo_spec hgi
  obtain ⟨pre, hceq, ⟨d, hd, hdn, hdc⟩, -⟩ := id hw
  have hwc : w ∈ c := by rw [hceq]; simp
  refine ⟨w, hwc, d, hd, hdn, hdc, ?_⟩
  obtain ⟨d', hd', _, hR⟩ := forall₂_mem_right h4 hd
  have hF : F w = none := by
    by_contra hne
    obtain ⟨j, hj⟩ := Option.ne_none_iff_exists'.1 hne
    obtain ⟨hj1, hj2⟩ := h2 w j hj
    obtain ⟨c', hc', hgj⟩ := forall₂_mem_left h1 hj1
    obtain ⟨w', ⟨pre', hceq', -, -⟩, _⟩ := groupInfo_spec hgj
    have hwc' : w ∈ c' := by rw [hceq']; simp [hj2]
    have := groups_unique hg hc hc' hwc hwc'
    subst this
    rw [hgi] at hgj
    simp only [Except.ok.injEq] at hgj
    subst hgj
    have hnd : c.Nodup := (List.nodup_flatten.1 hg.nodup).1 c hc
    rw [hceq, List.nodup_append] at hnd
    exact (List.nodup_cons.1 hnd.2.1).1 hj2
  have : d' = d := by rw [hR (hl d hd hdc)]; unfold putG; simp [hdn, hF]
  rw [← this]
  exact hd'

/-- C45: a network that is not connected raises `AssertionError`. -/
theorem C45_assertion (objs : List NetObj) (devs : List VoltDev) (s : String) (n : Network) (groups : List (List String))
    (hb : build objs s = .ok n) (x b : String) (hx : Connects objs x b) (hxs : ¬ Reach (Connects objs) s x) :
    setGroupVoltages n s groups devs = .error .assertionError := by
  obtain ⟨t, d, ot, hbt, ht, heq, hs, hd⟩ := build_tree hb
  unfold setGroupVoltages
  rw [if_neg]
  unfold isConnected
  rw [ht]
  simp only [List.all_eq_true, decide_eq_true_eq]
  intro hall
  have hm := hall x ((hbt.nodes x).2 ⟨b, hx⟩)
  rw [hd.reach, reach_nb_iff] at hm
  have : n.graph.Adj = Connects objs := by funext a b; exact propext (hbt.adj a b)
  rw [this] at hm
  exact hxs hm

/-! ### Examples -/

/-- the groups of `exVoltNet` -/
theorem exVolt_groups : IsGroups exVoltNet.graph [["a", "src"], ["c", "b"]] := by
  have hadj : ∀ a b, exVoltNet.graph.CutAdj a b ↔
      (a, b) ∈ [("src", "a"), ("a", "src"), ("c", "b"), ("b", "c")] := by
    intro a b
    unfold Graph.CutAdj Edge.joins Edge.Trafo
    constructor
    · rintro ⟨e, he, hj, hno⟩
      simp only [exVoltNet, List.mem_cons, List.not_mem_nil, or_false] at he
      rcases he with rfl | rfl | rfl
      · rcases hj with ⟨rfl, rfl⟩ | ⟨rfl, rfl⟩ <;> simp
      · exact absurd rfl (hno (some "t"))
      · rcases hj with ⟨rfl, rfl⟩ | ⟨rfl, rfl⟩ <;> simp
    · intro h
      simp only [List.mem_cons, Prod.mk.injEq, List.not_mem_nil, or_false] at h
      have m1 : (⟨"src", "a", some ("Line", some "l1"), some 0⟩ : Edge) ∈ exVoltNet.graph.edges := by decide +kernel
      have m2 : (⟨"c", "b", some ("Line", some "l2"), some 0⟩ : Edge) ∈ exVoltNet.graph.edges := by decide +kernel
      rcases h with ⟨rfl, rfl⟩ | ⟨rfl, rfl⟩ | ⟨rfl, rfl⟩ | ⟨rfl, rfl⟩
      · exact ⟨_, m1, .inl ⟨rfl, rfl⟩, by simp⟩
      · exact ⟨_, m1, .inr ⟨rfl, rfl⟩, by simp⟩
      · exact ⟨_, m2, .inl ⟨rfl, rfl⟩, by simp⟩
      · exact ⟨_, m2, .inr ⟨rfl, rfl⟩, by simp⟩
  have hcl : ∀ c ∈ [["a", "src"], ["c", "b"]], ∀ x ∈ c, ∀ y, Reach exVoltNet.graph.CutAdj x y → y ∈ c := by
    intro c hc x hx y hy
    induction hy with
    | refl => exact hx
    | tail _ hs ih =>
      rw [hadj] at hs
      simp only [List.mem_cons, List.not_mem_nil, or_false] at hc
      rcases hc with rfl | rfl <;> simp only [List.mem_cons, Prod.mk.injEq, List.not_mem_nil, or_false] at hs ih ⊢ <;>
        rcases hs with ⟨rfl, rfl⟩ | ⟨rfl, rfl⟩ | ⟨rfl, rfl⟩ | ⟨rfl, rfl⟩ <;> simp_all
  refine ⟨by decide, by decide +kernel, by decide +kernel, fun c hc x hx y => ⟨fun hy => ?_, hcl c hc x hx y⟩, by decide⟩
  simp only [List.mem_cons, List.not_mem_nil, or_false] at hc
  rcases hc with rfl | rfl <;> simp only [List.mem_cons, List.not_mem_nil, or_false] at hx hy <;>
    rcases hx with rfl | rfl <;> rcases hy with rfl | rfl <;>
    first | exact .refl | exact .single ((hadj _ _).2 (by decide))

/-- the hypotheses of `C45_effect_partial` and `C45_volunteer_violated` -/
example : build (exVolt.map (·.net)) "src" = .ok exVoltNet ∧ (exVolt.filterMap (·.net.name)).Nodup ∧
    IsGroups exVoltNet.graph [["a", "src"], ["c", "b"]] ∧ Radial exVoltNet ∧
    (∀ d ∈ exVolt, d.net.cls = "Node" → d.net.isLine = false) ∧
    (setGroupVoltages exVoltNet "src" [["a", "src"], ["c", "b"]] exVolt).map (·.map (·.voltage)) =
      .ok [none, none, some 120, none, none, none, none, none] := by
  refine ⟨by decide +kernel, by decide +kernel, exVolt_groups, ?_, by decide +kernel, by decide +kernel⟩
  unfold Radial
  decide +kernel

/-- a transformer without windings: no voltage below it -/
example : (setGroupVoltages exVoltNet "src" [["a", "src"], ["c", "b"]] (exVolt.map fun d => { d with windings := none })).map
    (·.map (·.voltage)) = .ok [none, none, none, none, none, none, none, none] := by decide +kernel

/-- C45: the graph of which the components are taken is that without transformers. -/
theorem C45_cut (g : Graph) : (cutGraph g).nodes = g.nodes ∧ ∀ a b, (cutGraph g).Adj a b ↔ g.CutAdj a b := by
  refine ⟨rfl, fun a b => ?_⟩
  unfold Graph.Adj Graph.CutAdj cutGraph
  simp only [List.mem_filter, ne_eq, decide_not, Bool.not_eq_eq_eq_not, Bool.not_true, decide_eq_false_iff_not]
  have key : ∀ e : Edge, (¬ e.equip.map (·.1) = some "PowerTransformer") ↔ ∀ nm, ¬ e.Trafo nm := by
    intro e
    unfold Edge.Trafo
    cases e.equip with
    | none => simp
    | some q =>
      obtain ⟨ty, nm⟩ := q
      simp only [Option.map_some, Option.some.injEq, Prod.mk.injEq]
      constructor
      · rintro h nm' ⟨h1, _⟩; exact h h1
      · intro h h1; exact h nm ⟨h1, rfl⟩
  constructor
  · rintro ⟨e, ⟨h1, h2⟩, h3⟩; exact ⟨e, h1, h3, (key e).1 h2⟩
  · rintro ⟨e, h1, h3, h2⟩; exact ⟨e, ⟨h1, (key e).2 h2⟩, h3⟩

/-- The voltage of the source, known before, is overwritten by `None`. The nodes above the first transformer end without a voltage. -/
theorem C45_erased_violated : exVolt[0].net.name = some "src" ∧ exVolt[0].voltage = some 12470 ∧
    (setGroupVoltages exVoltNet "src" [["a", "src"], ["c", "b"]] exVolt).map (·.map fun d => (d.net.name, d.voltage)) =
      .ok [(some "src", none), (some "a", none), (some "b", some 120), (some "c", none), (some "z", none), (some "l1", none),
        (some "t", none), (some "l2", none)] := by decide +kernel

/-- Two lines between separate pairs of nodes: not connected -/
example : ∃ n, build [{ cls := "Line", name := some "l", fromEl := some "a", toEl := some "b", isLine := true },
      { cls := "Line", name := some "m", fromEl := some "c", toEl := some "d", isLine := true }] "a" = .ok n ∧
    ∀ groups devs, setGroupVoltages n "a" groups devs = .error .assertionError :=
  ⟨_, rfl, fun _ _ => by rfl⟩

end Ditto.Net
