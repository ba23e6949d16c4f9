import Verif.Spec.GroupVoltages
import Verif.Lemmas.Voltages
import Verif.Lemmas.Along

/-! Invariants of `set_nominal_voltages`. -/
namespace Ditto.Net
open Ditto Ditto.Spec

/-! ### The loops over the groups -/

/-- the object after the assignments `F` -/
def putG (F : String → Option GroupInfo) (d : VoltDev) : VoltDev :=
  match d.net.name.bind F with
  | none => d
  | some i => i.set d

theorem putG_net (F : String → Option GroupInfo) (d : VoltDev) : (putG F d).net = d.net := by
  unfold putG; split <;> rfl

theorem putG_name (F : String → Option GroupInfo) (d : VoltDev) : (putG F d).net.name = d.net.name := by rw [putG_net]

theorem putG_none (devs : List VoltDev) : devs.map (putG fun _ => none) = devs := by
  rw [List.map_congr_left (g := id), List.map_id]
  intro d _
  unfold putG
  cases d.net.name <;> rfl

theorem GroupInfo.set_set (i j : GroupInfo) (d : VoltDev) : i.set (j.set d) = i.set d := by
  unfold GroupInfo.set
  simp only
  split <;> rfl

/-- one more assignment -/
def updG (F : String → Option GroupInfo) (x : String) (i : GroupInfo) : String → Option GroupInfo :=
  fun z => if z = x then some i else F z

theorem assignMember_put {devs : List VoltDev} (h : (devs.filterMap (·.net.name)).Nodup) (F : String → Option GroupInfo) {x : String}
    (i : GroupInfo) {devs' : List VoltDev} (ha : assignMember i (devs.map (putG F)) x = .ok devs') :
    devs' = devs.map (putG (updG F x i)) := by
  have hnd : ((devs.map (putG F)).filterMap (fun d : VoltDev => d.net.name)).Nodup := by
    rw [filterMap_name_map (name := fun d : VoltDev => d.net.name) (putG_name F)]; exact h
  unfold assignMember at ha
  split at ha
  · simp at ha
  · simp only [Except.ok.injEq] at ha
    rw [← ha, updateNamed_eq hnd, List.map_map]
    apply List.map_congr_left
    intro d _
    simp only [Function.comp_apply, putG_name]
    by_cases hx : d.net.name = some x
    · rw [if_pos hx]
      unfold putG updG
      simp only [hx, Option.bind_some, if_true]
      cases F x with
      | none => rfl
      | some j => exact i.set_set j d
    · rw [if_neg hx]
      unfold putG updG
      cases hn : d.net.name with
      | none => rfl
      | some z =>
        have : z ≠ x := fun hz => hx (by rw [hn, hz])
        simp [this]

theorem assignRest_put {devs : List VoltDev} (h : (devs.filterMap (·.net.name)).Nodup) (i : GroupInfo) (rest : List String) :
    ∀ (F : String → Option GroupInfo) (devs' : List VoltDev), rest.foldlM (assignMember i) (devs.map (putG F)) = .ok devs' →
      ∃ F', devs' = devs.map (putG F') ∧ (∀ x j, F' x = some j → F x = some j ∨ (x ∈ rest ∧ j = i)) ∧
        (∀ x, F x ≠ none → F' x ≠ none) ∧ ∀ x ∈ rest, F' x ≠ none := by
  induction rest with
  | nil =>
    intro F devs' ha
    simp only [List.foldlM_nil, pure, Except.pure, Except.ok.injEq] at ha
    exact ⟨F, ha.symm, fun x j h => .inl h, fun _ h => h, by simp⟩
  | cons x rest ih =>
    intro F devs' ha
    rw [List.foldlM_cons] at ha
    cases hm : assignMember i (devs.map (putG F)) x with
    | error e => rw [hm] at ha; simp [bind, Except.bind] at ha
    | ok devs1 =>
      rw [hm, assignMember_put h F i hm] at ha
      obtain ⟨F', h1, h2, h3, h4⟩ := ih _ _ ha
      refine ⟨F', h1, fun z j hz => ?_, fun z hz => h3 z ?_, fun z hz => ?_⟩
      · rcases h2 z j hz with h | ⟨h, rfl⟩
        · unfold updG at h
          split at h
          · rename_i hzx
            simp only [Option.some.injEq] at h
            exact .inr ⟨by simp [hzx], h.symm⟩
          · exact .inl h
        · exact .inr ⟨by simp [h], rfl⟩
      · unfold updG; split
        · simp
        · exact hz
      · rcases List.mem_cons.1 hz with rfl | hz
        · exact h3 z (by simp [updG])
        · exact h4 z hz

theorem assignGroups_put {devs : List VoltDev} (h : (devs.filterMap (·.net.name)).Nodup) (infos : List GroupInfo) :
    ∀ (F : String → Option GroupInfo) (devs' : List VoltDev), assignGroups infos (devs.map (putG F)) = .ok devs' →
      ∃ F', devs' = devs.map (putG F') ∧ (∀ x j, F' x = some j → F x = some j ∨ (j ∈ infos ∧ x ∈ j.rest)) ∧
        (∀ x, F x ≠ none → F' x ≠ none) ∧ ∀ j ∈ infos, ∀ x ∈ j.rest, F' x ≠ none := by
  unfold assignGroups
  induction infos with
  | nil =>
    intro F devs' ha
    simp only [List.foldlM_nil, pure, Except.pure, Except.ok.injEq] at ha
    exact ⟨F, ha.symm, fun x j h => .inl h, fun _ h => h, by simp⟩
  | cons i infos ih =>
    intro F devs' ha
    rw [List.foldlM_cons] at ha
    cases hm : i.rest.foldlM (assignMember i) (devs.map (putG F)) with
    | error e => rw [hm] at ha; simp [bind, Except.bind] at ha
    | ok devs1 =>
      obtain ⟨F1, e1, g2, g3, g4⟩ := assignRest_put h i i.rest F devs1 hm
      rw [hm, e1] at ha
      obtain ⟨F', h1, h2, h3, h4⟩ := ih _ _ ha
      refine ⟨F', h1, fun z j hz => ?_, fun z hz => h3 z (g3 z hz), fun j hj z hz => ?_⟩
      · rcases h2 z j hz with h | ⟨hj, h⟩
        · rcases g2 z j h with h | ⟨h, rfl⟩
          · exact .inl h
          · exact .inr ⟨by simp, h⟩
        · exact .inr ⟨by simp [hj], h⟩
      · rcases List.mem_cons.1 hj with rfl | hj
        · exact h3 z (g4 z hz)
        · exact h4 j hj z hz

theorem mapM_forall₂ {α β : Type} {f : α → Py β} {l : List α} : ∀ {l' : List β}, l.mapM f = .ok l' →
    List.Forall₂ (fun a b => f a = .ok b) l l' := by
  induction l with
  | nil => intro l' h; simp only [List.mapM_nil, pure, Except.pure, Except.ok.injEq] at h; subst h; exact .nil
  | cons a l ih =>
    intro l' h
    rw [List.mapM_cons] at h
    cases hf : f a with
    | error e => rw [hf] at h; simp [bind, Except.bind] at h
    | ok b =>
      rw [hf] at h
      cases hl : l.mapM f with
      | error e => rw [hl] at h; simp [bind, Except.bind] at h
      | ok bs =>
        rw [hl] at h
        simp only [bind, Except.bind, pure, Except.pure, Except.ok.injEq] at h
        subst h
        exact .cons hf (ih hl)

/-- the elements taken out of a group: those before the first node, and this node, the volunteer -/
def TakenOut (devs : List VoltDev) (c : List String) (w : String) (rest : List String) : Prop :=
  ∃ pre, c = pre ++ w :: rest ∧ (∃ d ∈ devs, d.net.name = some w ∧ d.net.cls = "Node") ∧
    ∀ z ∈ pre, ∃ d ∈ devs, d.net.name = some z ∧ d.net.cls ≠ "Node"

theorem volunteer_spec {devs : List VoltDev} : ∀ {c rest : List String} {w : String}, volunteer devs c = .ok (w, rest) →
    TakenOut devs c w rest := by
  intro c
  induction c with
  | nil => intro rest w h; simp [volunteer] at h
  | cons x c ih =>
    intro rest w h
    unfold volunteer at h
    split at h
    · simp at h
    · rename_i d hd
      obtain ⟨h1, h2⟩ := named_mem hd
      split at h
      · rename_i hc
        simp only [Except.ok.injEq, Prod.mk.injEq] at h
        obtain ⟨rfl, rfl⟩ := h
        exact ⟨[], rfl, ⟨d, h1, h2, hc⟩, by simp⟩
      · rename_i hc
        obtain ⟨pre, rfl, h3, h4⟩ := ih h
        refine ⟨x :: pre, rfl, h3, fun z hz => ?_⟩
        rcases List.mem_cons.1 hz with rfl | hz
        · exact ⟨d, h1, h2, hc⟩
        · exact h4 z hz

/-- what `groupInfo` finds out -/
theorem groupInfo_spec {n : Network} {devs : List VoltDev} {c : List String} {i : GroupInfo} (h : groupInfo n devs c = .ok i) :
    ∃ w, TakenOut devs c w i.rest ∧ upstreamTransformer n.digraph w = some (.ok i.trafo) ∧
      (match i.trafo with
        | none => i.voltage = none
        | some nm => secondaryVoltage devs nm = .ok i.voltage) := by
  unfold groupInfo at h
  split at h
  · simp at h
  · rename_i x rest hv
    have ht := volunteer_spec hv
    split at h
    · simp at h
    · simp at h
    · rename_i hu
      simp only [Except.ok.injEq] at h
      subst h
      exact ⟨x, ht, hu, rfl⟩
    · rename_i nm hu
      split at h
      · simp at h
      · rename_i v hs
        simp only [Except.ok.injEq] at h
        subst h
        exact ⟨x, ht, hu, hs⟩

theorem secondaryVoltage_side {devs : List VoltDev} (h : (devs.filterMap (·.net.name)).Nodup) {nm : String} {v : Option ℚ}
    (hs : secondaryVoltage devs nm = .ok v) : SideVoltage devs (some nm) v := by
  refine .inr ⟨nm, rfl, ?_⟩
  unfold secondaryVoltage at hs
  split at hs
  · simp at hs
  · rename_i t ht
    obtain ⟨h1, h2⟩ := named_mem ht
    split at hs
    · rename_i hw
      simp only [Except.ok.injEq] at hs
      exact .inr ⟨t, h1, h2, hw, hs.symm⟩
    · rename_i ws hws
      split at hs
      · simp at hs
      · rename_i y hy
        simp only [Except.ok.injEq] at hs
        refine .inl ⟨y, (lowVoltage_iff h).1 ?_, hs.symm⟩
        unfold lowVoltage
        rw [ht]
        simp only [hws]
        exact hy

/-! ### Transformers above nodes -/

theorem upTrafo_of_ok {objs : List NetObj} {s : String} {n : Network} (h : build objs s = .ok n) {x : String} {nm : Option String}
    (hu : upstreamTransformer n.digraph x = some (.ok nm)) : ∃ es, Route n.digraph s es x ∧ UpTrafo es nm := by
  by_cases hx : x ∈ diNodes n.digraph
  · obtain ⟨es, hes, _⟩ := C18_route objs s n h x hx
    refine ⟨es, hes, ?_⟩
    have plain_not : ∀ e : Edge, e.Plain → ∀ nm, ¬ e.Trafo nm := by
      rintro e ⟨ty, nm', he, hty⟩ nm ht
      unfold Edge.Trafo at ht
      rw [he] at ht
      simp only [Option.some.injEq, Prod.mk.injEq] at ht
      exact hty ht.1
    have split : ∀ es : List Edge, (∀ e ∈ es, e.Plain) ∨ ∃ pre e post, es = pre ++ e :: post ∧ ¬ e.Plain ∧ ∀ e' ∈ post, e'.Plain := by
      intro es
      induction es with
      | nil => exact .inl (by simp)
      | cons a es ih =>
        rcases ih with ih | ⟨pre, e, post, rfl, h1, h2⟩
        · by_cases hp : a.Plain
          · refine .inl fun e he => ?_
            rcases List.mem_cons.1 he with rfl | he
            · exact hp
            · exact ih e he
          · exact .inr ⟨[], a, es, rfl, hp, ih⟩
        · exact .inr ⟨a :: pre, e, post, rfl, h1, h2⟩
    rcases split es with hp | ⟨pre, e, post, rfl, h1, h2⟩
    · rw [C18_none_partial objs s n h x hx es hes hp] at hu
      simp only [Option.some.injEq, Except.ok.injEq] at hu
      exact .inl ⟨fun e he => plain_not e (hp e he), hu.symm⟩
    · cases he : e.equip with
      | none =>
        rw [C18_keyError objs s n h x hx pre post e hes he h2] at hu
        simp at hu
      | some q =>
        obtain ⟨ty, nm'⟩ := q
        have : ty = "PowerTransformer" := by
          by_contra hty; exact h1 ⟨ty, nm', he, hty⟩
        subst this
        rw [C18_nearest_partial objs s n h x hx pre post e nm' hes he h2] at hu
        simp only [Option.some.injEq, Except.ok.injEq] at hu
        subst hu
        exact .inr ⟨pre, e, post, rfl, he, fun e' he' => plain_not e' (h2 e' he')⟩
  · rw [C18_unknown _ x hx] at hu
    simp at hu

theorem UpTrafo.snoc {es : List Edge} {e : Edge} {nm : Option String} (he : ∀ nm, ¬ e.Trafo nm) :
    UpTrafo (es ++ [e]) nm ↔ UpTrafo es nm := by
  unfold UpTrafo
  constructor
  · rintro (⟨h1, h2⟩ | ⟨pre, e', post, heq, ht, hp⟩)
    · exact .inl ⟨fun e' he' => h1 e' (by simp [he']), h2⟩
    · rcases List.eq_nil_or_concat post with rfl | ⟨post', e'', rfl⟩
      · obtain ⟨_, h2⟩ := List.append_inj' heq rfl
        simp only [List.cons.injEq, and_true] at h2
        subst h2
        exact absurd ht (he _)
      · have : es ++ [e] = (pre ++ e' :: post') ++ [e''] := by simpa using heq
        obtain ⟨h1, _⟩ := List.append_inj' this rfl
        exact .inr ⟨pre, e', post', h1, ht, fun a ha => hp a (by simp [ha])⟩
  · rintro (⟨h1, h2⟩ | ⟨pre, e', post, rfl, ht, hp⟩)
    · refine .inl ⟨fun e' he' => ?_, h2⟩
      rcases List.mem_append.1 he' with h | h
      · exact h1 e' h
      · simp only [List.mem_singleton] at h; subst h; exact he
    · refine .inr ⟨pre, e', post ++ [e], by simp, ht, fun a ha => ?_⟩
      rcases List.mem_append.1 ha with h | h
      · exact hp a h
      · simp only [List.mem_singleton] at h; subst h; exact he

theorem upTrafo_adj {objs : List NetObj} {s : String} {n : Network} (h : build objs s = .ok n) (hr : Radial n) {x y : String}
    (hxy : n.graph.CutAdj x y) {nm : Option String} (hx : ∃ es, Route n.digraph s es x ∧ UpTrafo es nm) :
    ∃ es, Route n.digraph s es y ∧ UpTrafo es nm := by
  obtain ⟨e, he, hj, hno⟩ := hxy
  obtain ⟨t, d, ot, hb, -, -, -, -⟩ := build_tree h
  have hequip : ∀ e' ∈ n.digraph, e.joins e'.u e'.v → ∀ nm, ¬ e'.Trafo nm := by
    intro e' he' hj' nm ht
    have h1 := C16_equipment objs s n h e' he'
    unfold Graph.equipOf at h1
    rw [find_of_simple hb.simple he hj'] at h1
    unfold Edge.Trafo at ht
    rw [ht] at h1
    exact hno nm h1.symm
  obtain ⟨es, hes, hu⟩ := hx
  have fwd : ∀ e' ∈ n.digraph, e'.u = x → e'.v = y → ∃ es, Route n.digraph s es y ∧ UpTrafo es nm := by
    rintro e' he' rfl rfl
    exact ⟨es ++ [e'], hes.snoc he' rfl, (UpTrafo.snoc (hequip e' he' hj)).2 hu⟩
  have bwd : ∀ e' ∈ n.digraph, e'.u = y → e'.v = x → ∃ es, Route n.digraph s es y ∧ UpTrafo es nm := by
    rintro e' he' rfl rfl
    have hm : e'.v ∈ diNodes n.digraph := List.mem_flatMap.2 ⟨e', he', by simp⟩
    have hm' : e'.u ∈ diNodes n.digraph := List.mem_flatMap.2 ⟨e', he', by simp⟩
    obtain ⟨es', hes', _⟩ := C18_route objs s n h e'.u hm'
    have := (C18_route objs s n h e'.v hm).unique hes (hes'.snoc he' rfl)
    subst this
    exact ⟨es', hes', (UpTrafo.snoc (hequip e' he' (hj.symm))).1 hu⟩
  rcases hr e he with ⟨e', he', h1, h2⟩ | ⟨e', he', h1, h2⟩ <;> rcases hj with ⟨h3, h4⟩ | ⟨h3, h4⟩
  · exact fwd e' he' (h1.trans h3) (h2.trans h4)
  · exact bwd e' he' (h1.trans h3) (h2.trans h4)
  · exact bwd e' he' (h1.trans h4) (h2.trans h3)
  · exact fwd e' he' (h1.trans h4) (h2.trans h3)

theorem upTrafo_reach {objs : List NetObj} {s : String} {n : Network} (h : build objs s = .ok n) (hr : Radial n) {x y : String}
    (hxy : Reach n.graph.CutAdj x y) {nm : Option String} (hx : ∃ es, Route n.digraph s es x ∧ UpTrafo es nm) :
    ∃ es, Route n.digraph s es y ∧ UpTrafo es nm := by
  induction hxy with
  | refl => exact hx
  | tail _ hs ih => exact upTrafo_adj h hr hs ih

/-! ### Lines -/

theorem lineVoltages_other : ∀ {post pre devs' : List VoltDev}, lineVoltages pre post = .ok devs' →
    ∃ post', devs' = pre ++ post' ∧ List.Forall₂ (fun d d' => d'.net = d.net ∧ (d.net.isLine = false → d' = d)) post post' := by
  intro post
  induction post with
  | nil => intro pre devs' h; simp only [lineVoltages, Except.ok.injEq] at h; exact ⟨[], by simp [h], .nil⟩
  | cons d post ih =>
    intro pre devs' h
    unfold lineVoltages at h
    split at h
    · simp at h
    · rename_i d' hd'
      obtain ⟨post', h1, h2⟩ := ih h
      refine ⟨d' :: post', by simp [h1], .cons ?_ h2⟩
      unfold lineVoltage at hd'
      split at hd'
      · rename_i hc
        simp only [Bool.and_eq_true] at hc
        split at hd'
        · simp only [Except.ok.injEq] at hd'; subst hd'; exact ⟨rfl, fun _ => rfl⟩
        · split at hd'
          · simp at hd'
          · split at hd' <;> simp only [Except.ok.injEq] at hd' <;> subst hd'
            · exact ⟨rfl, fun h => absurd hc.1 (by simp [h])⟩
            · exact ⟨rfl, fun _ => rfl⟩
      · simp only [Except.ok.injEq] at hd'; subst hd'; exact ⟨rfl, fun _ => rfl⟩

end Ditto.Net
