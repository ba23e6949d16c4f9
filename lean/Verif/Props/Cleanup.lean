import Verif.Model.Cleanup
import Verif.Props.Delete
import Verif.Props.Upstream

/-! C22: `delete_cycles`; C23: `delete_disconnected_nodes`. -/
namespace Ditto.Net
open Ditto Ditto.Heap Ditto.Spec

/-! ### C22 -/

theorem closes_depth {d : List Edge} {s : String} {depth : String → Nat} (ha : Arbo d s depth) {x : String} (ys : List String) :
    ∀ cur, closes d x cur ys = true → depth cur < depth x := by
  have edge : ∀ u v, hasEdge d u v = true → depth u < depth v := by
    intro u v h
    unfold hasEdge at h
    rw [List.any_eq_true] at h
    obtain ⟨e, he, h⟩ := h
    simp only [Bool.and_eq_true, decide_eq_true_eq] at h
    have := ha.step e he
    rw [h.1, h.2] at this
    omega
  induction ys with
  | nil => intro cur h; exact edge _ _ h
  | cons y ys ih =>
    intro cur h
    unfold closes at h
    rw [Bool.and_eq_true] at h
    have h1 := edge _ _ h.1
    have h2 := ih y h.2
    omega

/-- C22, what holds: `find_cycles` finds nothing in a network made by `build`, whatever loops the model has. -/
theorem C22_finds_nothing (objs : List NetObj) (s : String) (n : Network) (h : build objs s = .ok n) :
    findCycles n.digraph = [] := by
  obtain ⟨depth, ha⟩ := arbo_of_build h
  have : simpleCycles n.digraph = [] := by
    unfold simpleCycles
    rw [List.filter_eq_nil_iff]
    intro c _ hc
    cases c with
    | nil => simp [isCycle] at hc
    | cons x xs => exact Nat.lt_irrefl _ (closes_depth ha xs x hc)
  unfold findCycles
  rw [this]; rfl

/-- C22: so `delete_cycles` only builds the network again, from "sourcebus". -/
theorem C22_noop (phases : String → Option Nat) (objs objs' : List NetObj) (s : String) (n : Network)
    (h : build objs s = .ok n) : deleteCycles phases n objs' = build objs' "sourcebus" := by
  unfold deleteCycles
  rw [C22_finds_nothing objs s n h]
  rfl

/-- three lines in a ring -/
def exRing : List NetObj := [
  { cls := "Line", name := some "l1", fromEl := some "sourcebus", toEl := some "a", isLine := true },
  { cls := "Line", name := some "l2", fromEl := some "a", toEl := some "b", isLine := true },
  { cls := "Line", name := some "l3", fromEl := some "b", toEl := some "sourcebus", isLine := true }]

/-- C22 is violated: the ring is still there after `delete_cycles`. -/
theorem C22_violated : ∃ n n', build exRing "sourcebus" = .ok n ∧ deleteCycles (fun _ => some 3) n exRing = .ok n' ∧
    n'.graph.Adj "sourcebus" "a" ∧ n'.graph.Adj "a" "b" ∧ n'.graph.Adj "b" "sourcebus" := by
  obtain ⟨n, hn, h⟩ : ∃ n, build exRing "sourcebus" = .ok n ∧
      n.graph.Adj "sourcebus" "a" ∧ n.graph.Adj "a" "b" ∧ n.graph.Adj "b" "sourcebus" :=
    ⟨_, by rfl, ⟨_, List.mem_cons_self, .inl ⟨rfl, rfl⟩⟩, ⟨_, List.mem_cons_of_mem _ List.mem_cons_self, .inl ⟨rfl, rfl⟩⟩,
      ⟨_, List.mem_cons_of_mem _ (List.mem_cons_of_mem _ List.mem_cons_self), .inl ⟨rfl, rfl⟩⟩⟩
  exact ⟨n, n, hn, (C22_noop _ exRing exRing "sourcebus" n hn).trans hn, h⟩

/-- C22: on a directed graph that does have a cycle of three nodes (which `build` never makes) it raises. -/
example : deleteCycles (fun _ => some 3) ⟨⟨[], []⟩, [⟨"a", "b", none, none⟩, ⟨"b", "c", none, none⟩, ⟨"c", "a", none, none⟩]⟩ [] =
    .error .typeError := by decide +kernel

/-! ### C23 -/

/-- a node object without name -/
def UnnamedNode (h : Heap) (r : Ref) : Prop := clsOf h r = some "Node" ∧ nameOf h r = some none

/-- a node object with a name that no object of `objs` connects to -/
def IsolatedNode (h : Heap) (objs : List NetObj) (r : Ref) : Prop :=
  clsOf h r = some "Node" ∧ ∃ a, nameOf h r = some (some a) ∧ ∀ n b, a = .str n → ¬ Connects objs n b

/-- value of a string trait -/
abbrev sv (n : String) : Option AttrVal := some (.plain (some (.str n)))

theorem strOf_eq (v : Option AttrVal) (n : String) : strOf v = some n ↔ v = sv n := by
  unfold strOf
  split
  · simp
  · rename_i h
    simp only [reduceCtorEq, false_iff]
    intro hh
    exact h n hh

/-- C23: `n` is connected iff some object of the store has it as one of its two ends, or has it as `connecting_element`, or has
this name and a `connecting_element`. -/
theorem C23_connected (h : Heap) (ms : List Ref) (n : String) :
    (∃ b, Connects (netObjs h ms) n b) ↔ ∃ r ∈ ms, ∃ o, h[r]? = some o ∧ ∃ b : String,
      (o.get "from_element" = sv n ∧ o.get "to_element" = sv b) ∨ (o.get "from_element" = sv b ∧ o.get "to_element" = sv n) ∨
      (o.get "connecting_element" = sv n ∧ o.get "name" = sv b) ∨ (o.get "connecting_element" = sv b ∧ o.get "name" = sv n) := by
  unfold Connects Declares netObjs
  simp only [List.mem_filterMap, Option.map_eq_some_iff]
  constructor
  · rintro ⟨b, _, ⟨r, hr, o, ho, rfl⟩, hd⟩
    refine ⟨r, hr, o, ho, b, ?_⟩
    simp only [netOf, strOf_eq] at hd
    tauto
  · rintro ⟨r, hr, o, ho, b, hd⟩
    refine ⟨b, netOf h o, ⟨r, hr, o, ho, rfl⟩, ?_⟩
    simp only [netOf, strOf_eq]
    tauto

theorem disconnectStep_del {h : Heap} {limit : Nat} {g : Graph} {objs : List NetObj} (hg : buildGraph objs = .ok g)
    {ms ms' : List Ref} {r : Ref} (hn : ms.Nodup) (hd : disconnectStep h limit g ms r = .ok ms') :
    Del ms ms' (fun x => (IsolatedNode h objs r ∧ Owned h r x) ∨ (UnnamedNode h r ∧ x = r)) := by
  obtain ⟨ot, hb⟩ := buildGraph_built hg
  unfold disconnectStep at hd
  split at hd
  · rename_i hc
    split at hd
    · rename_i a ha
      have hun : ¬ UnnamedNode h r := fun hh => by have := hh.2; rw [ha] at this; simp at this
      split at hd
      · rename_i hin
        simp only [Except.ok.injEq] at hd
        subst hd
        refine (Del.refl ms).congr fun x => ?_
        simp only [false_iff, not_or, not_and]
        refine ⟨fun hi => ?_, fun hh => absurd hh hun⟩
        obtain ⟨_, a', ha', hiso⟩ := hi
        rw [ha] at ha'
        simp only [Option.some.injEq] at ha'
        subst ha'
        obtain ⟨nm, hnm, rfl⟩ := hin
        rw [hb.nodes] at hnm
        obtain ⟨b, hb⟩ := hnm
        exact absurd hb (hiso nm b rfl)
      · rename_i hin
        refine (deleteElement_del h limit ms ms' r hn hd).congr fun x => ?_
        constructor
        · intro ho
          refine .inl ⟨⟨hc, a, ha, ?_⟩, ho⟩
          rintro nm b rfl hcon
          exact hin ⟨nm, (hb.nodes nm).2 ⟨b, hcon⟩, rfl⟩
        · rintro (⟨_, ho⟩ | ⟨hh, _⟩)
          · exact ho
          · exact absurd hh hun
    · rename_i ha
      refine (removeElement_del hn hd).congr fun x => ?_
      constructor
      · intro hx; exact .inr ⟨⟨hc, ha⟩, hx⟩
      · rintro (⟨⟨_, a, ha', _⟩, _⟩ | ⟨_, hx⟩)
        · rw [ha] at ha'; simp at ha'
        · exact hx
    · rename_i ha
      simp only [Except.ok.injEq] at hd
      subst hd
      refine (Del.refl ms).congr fun x => ?_
      simp only [false_iff, not_or, not_and]
      refine ⟨fun hi => ?_, fun hh => ?_⟩
      · obtain ⟨_, a', ha', _⟩ := hi
        rw [ha] at ha'; simp at ha'
      · have := hh.2; rw [ha] at this; simp at this
  · rename_i hc
    simp only [Except.ok.injEq] at hd
    subst hd
    refine (Del.refl ms).congr fun x => ?_
    simp only [false_iff, not_or, not_and]
    exact ⟨fun hi => absurd hi.1 hc, fun hh => absurd hh.1 hc⟩

/-- C23, what is removed: the named nodes that no object connects to, with everything they own, and the unnamed nodes. All
else survives, in the same order. -/
theorem C23_effect (h : Heap) (limit : Nat) (g : Graph) (ms ms' : List Ref) (hn : ms.Nodup)
    (hg : buildGraph (netObjs h ms) = .ok g) (hd : disconnectLoop h limit g ms = .ok ms') :
    ms'.Sublist ms ∧ ∀ x, x ∈ ms' ↔ x ∈ ms ∧
      ¬ ∃ r ∈ ms, (IsolatedNode h (netObjs h ms) r ∧ Owned h r x) ∨ (UnnamedNode h r ∧ x = r) := by
  have d := fold_del _ _ (fun ms a ms' hn hd => disconnectStep_del hg hn hd) ms ms ms' hn hd
  exact ⟨d.1, d.2.1⟩

/-- C23: if the unnamed nodes own nothing, exactly the nodes without connection or name are removed with what they own.
(Missing: positions of unnamed nodes, see `C23_positions_violated`.) -/
theorem C23_exact_partial (h : Heap) (limit : Nat) (g : Graph) (ms ms' : List Ref) (hn : ms.Nodup)
    (hg : buildGraph (netObjs h ms) = .ok g) (hd : disconnectLoop h limit g ms = .ok ms')
    (hun : ∀ r ∈ ms, UnnamedNode h r → ∀ c, ¬ Child h r c) (x : Ref) :
    x ∈ ms' ↔ x ∈ ms ∧ ¬ ∃ r ∈ ms, (IsolatedNode h (netObjs h ms) r ∨ UnnamedNode h r) ∧ Owned h r x := by
  rw [(C23_effect h limit g ms ms' hn hg hd).2 x]
  apply and_congr_right
  intro _
  apply not_congr
  apply exists_congr
  intro r
  apply and_congr_right
  intro hr
  constructor
  · rintro (⟨h1, h2⟩ | ⟨h1, rfl⟩)
    · exact ⟨.inl h1, h2⟩
    · exact ⟨.inr h1, .refl⟩
  · rintro ⟨h1 | h1, h2⟩
    · exact .inl ⟨h1, h2⟩
    · right
      refine ⟨h1, ?_⟩
      rcases (owned_iff h r x).1 h2 with h2 | ⟨c, hc, _⟩
      · exact h2
      · exact absurd hc (hun r hr h1 c)

/-- C23: on a store as the readers build it, with nodes that are not part of other objects, the loop never raises. -/
theorem C23_succeeds (h : Heap) (limit : Nat) (F : Forest h limit) (g : Graph) (ms : List Ref) (hn : ms.Nodup)
    (hown : ∀ r ∈ ms, ∀ x, Owned h r x → x ∈ ms)
    (hroot : ∀ r ∈ ms, clsOf h r = some "Node" → ∀ p, ¬ Child h p r) :
    ∃ ms', disconnectLoop h limit g ms = .ok ms' := by
  have disj : ∀ a b x, (∀ p, ¬ Child h p a) → (∀ p, ¬ Child h p b) → Owned h a x → Owned h b x → a = b := by
    intro a b x ha hb hax hbx
    rcases owned_chain F.unique hax hbx with h1 | h1
    · rcases Relation.ReflTransGen.cases_tail h1 with h2 | ⟨y, _, hy⟩
      · exact h2.symm
      · exact absurd hy (hb y)
    · rcases Relation.ReflTransGen.cases_tail h1 with h2 | ⟨y, _, hy⟩
      · exact h2
      · exact absurd hy (ha y)
  have main : ∀ (l cur : List Ref), l.Nodup → cur.Nodup → (∀ r ∈ l, r ∈ ms) →
      (∀ r ∈ l, clsOf h r = some "Node" → ∀ x, Owned h r x → x ∈ cur) →
      ∃ ms', l.foldlM (disconnectStep h limit g) cur = .ok ms' := by
    intro l
    induction l with
    | nil => intro cur _ _ _ _; exact ⟨cur, rfl⟩
    | cons r l ih =>
      intro cur hl hc hsub hin
      obtain ⟨hrl, hl⟩ := List.nodup_cons.1 hl
      -- the step succeeds and only removes objects owned by r
      have step : ∃ cur', disconnectStep h limit g cur r = .ok cur' ∧ cur'.Nodup ∧
          ∀ x ∈ cur, x ∈ cur' ∨ (clsOf h r = some "Node" ∧ Owned h r x) := by
        unfold disconnectStep
        split
        · rename_i hcls
          have hin' := hin r (by simp) hcls
          split
          · split
            · exact ⟨cur, rfl, hc, fun x hx => .inl hx⟩
            · have ho : ∃ o, h[r]? = some o := by
                unfold clsOf at hcls
                cases ho : h[r]? with
                | none => rw [ho] at hcls; simp at hcls
                | some o => exact ⟨o, rfl⟩
              obtain ⟨o, ho⟩ := ho
              obtain ⟨m1, h1⟩ := C09_succeeds h limit F cur r o ho hc hin'
              have d := deleteElement_del h limit cur m1 r hc h1
              refine ⟨m1, h1, hc.sublist d.1, fun x hx => ?_⟩
              by_cases hx' : Owned h r x
              · exact .inr ⟨hcls, hx'⟩
              · exact .inl ((d.2.1 x).2 ⟨hx, hx'⟩)
          · unfold removeElement
            rw [if_pos (hin' r .refl)]
            refine ⟨_, rfl, hc.erase r, fun x hx => ?_⟩
            by_cases hxr : x = r
            · subst hxr; exact .inr ⟨hcls, .refl⟩
            · exact .inl ((hc.mem_erase_iff).2 ⟨hxr, hx⟩)
          · exact ⟨cur, rfl, hc, fun x hx => .inl hx⟩
        · exact ⟨cur, rfl, hc, fun x hx => .inl hx⟩
      obtain ⟨cur', h1, hc', h2⟩ := step
      obtain ⟨ms', h3⟩ := ih cur' hl hc' (fun r' hr' => hsub r' (by simp [hr'])) (by
        intro r' hr' hcls' x hx
        rcases h2 x (hin r' (by simp [hr']) hcls' x hx) with h | ⟨hcls, ho⟩
        · exact h
        · have := disj r r' x (hroot r (hsub r (by simp)) hcls) (hroot r' (hsub r' (by simp [hr'])) hcls') ho hx
          subst this
          exact absurd hr' hrl)
      exact ⟨ms', foldlM_cons_intro h1 h3⟩
  exact main ms ms hn hn (fun _ h => h) (fun r hr _ x hx => hown r hr x hx)

/-- node a with a line to b; the isolated node c with a position; an unnamed node with a position -/
def exNodes : Heap := [
  ⟨"Node", [("name", .plain (some (.str "a")))]⟩,
  ⟨"Line", [("name", .plain (some (.str "l"))), ("from_element", .plain (some (.str "a"))),
    ("to_element", .plain (some (.str "b")))]⟩,
  ⟨"Node", [("name", .plain (some (.str "c"))), ("positions", .list (some [.ref 3]))]⟩,
  ⟨"Position", [("lat", .plain (some (.num 1)))]⟩,
  ⟨"Node", [("name", .plain none), ("positions", .list (some [.ref 5]))]⟩,
  ⟨"Position", [("lat", .plain (some (.num 2)))]⟩]

example : ∃ g, buildGraph (netObjs exNodes [0, 1, 2, 3]) = .ok g ∧ disconnectLoop exNodes 1000 g [0, 1, 2, 3] = .ok [0, 1] :=
  ⟨_, by rfl, by decide +kernel⟩

/-- C23 is violated: the position of an unnamed node stays in the store. -/
theorem C23_positions_violated : ∃ g, buildGraph (netObjs exNodes [0, 1, 2, 3, 4, 5]) = .ok g ∧
    disconnectLoop exNodes 1000 g [0, 1, 2, 3, 4, 5] = .ok [0, 1, 5] ∧ UnnamedNode exNodes 4 ∧ Owned exNodes 4 5 :=
  ⟨_, by rfl, by decide +kernel, ⟨by decide, by decide⟩, .single ⟨_, "positions", [.ref 5], rfl, by simp, by decide, by simp⟩⟩

/-- C23: the call as a whole raises `KeyError` in the end, after the deletions, if nothing connects to "sourcebus". -/
theorem C23_keyError (h : Heap) (limit : Nat) (g : Graph) (ms ms' : List Ref) (res : Py Network)
    (hd : deleteDisconnectedNodes h limit g ms = .ok (ms', res)) :
    disconnectLoop h limit g ms = .ok ms' ∧
    ((∃ g', buildGraph (netObjs h ms') = .ok g') → (∀ b, ¬ Connects (netObjs h ms') "sourcebus" b) → res = .error .keyError) := by
  unfold deleteDisconnectedNodes at hd
  split at hd
  · simp at hd
  · rename_i m hm
    simp only [Except.ok.injEq, Prod.mk.injEq] at hd
    obtain ⟨rfl, rfl⟩ := hd
    exact ⟨hm, fun ⟨g', hg'⟩ hc => C16_keyError _ g' hg' _ hc⟩

example : ∃ g, buildGraph (netObjs exNodes [0, 1, 2, 3]) = .ok g ∧
    deleteDisconnectedNodes exNodes 1000 g [0, 1, 2, 3] = .ok ([0, 1], .error .keyError) := ⟨_, by rfl, by decide +kernel⟩

end Ditto.Net
