import Verif.Spec.Voltage
import Verif.Lemmas.Named
import Verif.Props.Upstream
import Mathlib.Algebra.Order.Field.Rat
import Mathlib.Data.List.Forall2

/-! Invariants of `set_nominal_voltages_recur`. -/
namespace Ditto.Net
open Ditto

theorem minQ_spec {qs : List ℚ} {y : ℚ} (h : minQ qs = .ok y) : y ∈ qs ∧ ∀ z ∈ qs, y ≤ z := by
  cases qs with
  | nil => simp [minQ] at h
  | cons q qs =>
    simp only [minQ, Except.ok.injEq] at h
    subst h
    have key : ∀ (qs : List ℚ) (q : ℚ), (qs.foldl (fun a b => if b < a then b else a) q ∈ q :: qs) ∧
        ∀ z ∈ q :: qs, qs.foldl (fun a b => if b < a then b else a) q ≤ z := by
      intro qs
      induction qs with
      | nil => intro q; simp
      | cons b qs ih =>
        intro q
        obtain ⟨h1, h2⟩ := ih (if b < q then b else q)
        simp only [List.foldl_cons]
        refine ⟨?_, fun z hz => ?_⟩
        · rcases List.mem_cons.1 h1 with h | h
          · rw [h]; split <;> simp
          · simp [h]
        · have h3 := h2 (if b < q then b else q) (by simp)
          rcases List.mem_cons.1 hz with rfl | hz
          · refine le_trans h3 ?_
            split
            · rename_i hlt; exact le_of_lt hlt
            · exact le_refl _
          · rcases List.mem_cons.1 hz with rfl | hz
            · refine le_trans h3 ?_
              split
              · exact le_refl _
              · rename_i hlt; exact not_lt.1 hlt
            · exact h2 z (by simp [hz])
    exact key qs q

theorem minQ_ok {qs : List ℚ} (h : qs ≠ []) : ∃ y, minQ qs = .ok y := by
  cases qs with
  | nil => exact absurd rfl h
  | cons q qs => exact ⟨_, rfl⟩

theorem lowVoltage_iff {devs : List VoltDev} (h : (devs.filterMap (·.net.name)).Nodup) {x : String} {y : ℚ} :
    lowVoltage devs (some x) = .ok y ↔ LowSide devs x y := by
  constructor
  · intro hy
    unfold lowVoltage at hy
    split at hy
    · simp at hy
    · rename_i t ht
      obtain ⟨h1, h2⟩ := named_mem ht
      split at hy
      · simp at hy
      · rename_i ws hws
        obtain ⟨h3, h4⟩ := minQ_spec hy
        exact ⟨t, h1, h2, ws, hws, by simpa using h3, fun z hz => h4 z (by simpa using hz)⟩
  · rintro ⟨t, h1, h2, ws, hws, h3, h4⟩
    have := named_eq (name := fun d : VoltDev => d.net.name) h h1 h2
    unfold lowVoltage
    rw [this]
    simp only [hws]
    obtain ⟨z, hz⟩ := minQ_ok (qs := ws.filterMap id) (List.ne_nil_of_mem (a := y) (by simpa using h3))
    obtain ⟨h5, h6⟩ := minQ_spec hz
    rw [hz]
    congr 1
    exact le_antisymm (h6 y (by simpa using h3)) (h4 z (by simpa using h5))

theorem LowSide.unique {devs : List VoltDev} (h : (devs.filterMap (·.net.name)).Nodup) {x : String} {y z : ℚ}
    (h1 : LowSide devs x y) (h2 : LowSide devs x z) : y = z := by
  rw [← lowVoltage_iff h] at h1 h2
  simpa [h1] using h2

/-! ### The objects during the recursion -/

/-- the object after the assignments `F` -/
def put (F : String → Option ℚ) (d : VoltDev) : VoltDev :=
  match d.net.name.bind F with
  | none => d
  | some v => if d.hasVoltage then { d with voltage := some v } else d

theorem put_net (F : String → Option ℚ) (d : VoltDev) : (put F d).net = d.net := by
  unfold put; split
  · rfl
  · split <;> rfl

theorem put_windings (F : String → Option ℚ) (d : VoltDev) : (put F d).windings = d.windings := by
  unfold put; split
  · rfl
  · split <;> rfl

theorem put_hasVoltage (F : String → Option ℚ) (d : VoltDev) : (put F d).hasVoltage = d.hasVoltage := by
  unfold put; split
  · rfl
  · split <;> rfl

theorem put_name (F : String → Option ℚ) (d : VoltDev) : (put F d).net.name = d.net.name := by rw [put_net]

theorem lowVoltage_put (F : String → Option ℚ) (devs : List VoltDev) (nm : Option String) :
    lowVoltage (devs.map (put F)) nm = lowVoltage devs nm := by
  unfold lowVoltage
  rw [named_map (name := fun d : VoltDev => d.net.name) (f := put F) (put_name F)]
  cases named (fun d : VoltDev => d.net.name) devs nm with
  | error e => rfl
  | ok t =>
    simp only [Except.map]
    rw [put_windings]

theorem newVoltage_put (g : Graph) (F : String → Option ℚ) (devs : List VoltDev) (a b : String) (v : ℚ) :
    newVoltage g (devs.map (put F)) a b v = newVoltage g devs a b v := by
  unfold newVoltage
  simp only [lowVoltage_put]

/-- one more assignment -/
def upd (F : String → Option ℚ) (x : String) (v : ℚ) : String → Option ℚ := fun z => if z = x then some v else F z

theorem assignVoltage_put {devs : List VoltDev} (h : (devs.filterMap (·.net.name)).Nodup) (F : String → Option ℚ) {x : String}
    (hx : ∃ d ∈ devs, d.net.name = some x) (v : ℚ) :
    assignVoltage x v (devs.map (put F)) = .ok (devs.map (put (upd F x v))) := by
  obtain ⟨d, hd, hn⟩ := hx
  have hnd : ((devs.map (put F)).filterMap (fun d : VoltDev => d.net.name)).Nodup := by
    rw [filterMap_name_map (name := fun d : VoltDev => d.net.name) (put_name F)]; exact h
  have h1 : named (fun d : VoltDev => d.net.name) (devs.map (put F)) (some x) = .ok (put F d) :=
    named_eq hnd (List.mem_map_of_mem hd) (by simp only [put_name]; exact hn)
  unfold assignVoltage
  rw [h1]
  simp only
  rw [updateNamed_eq hnd, put_hasVoltage, List.map_map]
  congr 1
  have heq : ∀ d' ∈ devs, d'.net.name = some x → d' = d := fun d' hd' hn' =>
    name_inj (name := fun d : VoltDev => d.net.name) h hd' hd hn' hn
  have hother : ∀ d' ∈ devs, d'.net.name ≠ some x → put (upd F x v) d' = put F d' := by
    intro d' _ hne
    unfold put upd
    cases hn' : d'.net.name with
    | none => rfl
    | some z =>
      have : z ≠ x := fun hz => hne (by rw [hn', hz])
      simp [this]
  by_cases hv : d.hasVoltage = true
  · rw [if_pos hv]
    apply List.map_congr_left
    intro d' hd'
    simp only [Function.comp_apply, put_name]
    by_cases hx' : d'.net.name = some x
    · rw [if_pos hx']
      obtain rfl := heq d' hd' hx'
      unfold put upd
      simp only [hx', Option.bind_some, if_true, hv]
      cases F x <;> simp [hv]
    · rw [if_neg hx']; exact (hother d' hd' hx').symm
  · rw [if_neg hv]
    apply List.map_congr_left
    intro d' hd'
    by_cases hx' : d'.net.name = some x
    · obtain rfl := heq d' hd' hx'
      have hv' : d'.hasVoltage = false := by simpa using hv
      unfold put
      cases d'.net.name.bind F <;> cases d'.net.name.bind (upd F x v) <;> simp [hv']
    · exact (hother d' hd' hx').symm

/-! ### Routes -/

theorem Route.end_unique {d : List Edge} {s x y : String} {es : List Edge} (h : Route d s es x) (h' : Route d s es y) : x = y := by
  generalize hes : es = es' at h'
  cases h with
  | nil =>
    cases h' with
    | nil => rfl
    | snoc _ _ _ => simp at hes
  | snoc _ _ _ =>
    cases h' with
    | nil => simp at hes
    | snoc _ _ _ =>
      have := List.append_inj_right' hes rfl
      simp only [List.cons.injEq, and_true] at this
      rw [this]

theorem Route.prefix {d : List Edge} {s x : String} {es : List Edge} (h : Route d s es x) :
    ∀ pre e post, es = pre ++ e :: post → e ∈ d ∧ Route d s pre e.u := by
  induction h with
  | nil => intro pre e post h; simp at h
  | @snoc es u e' h he hu ih =>
    intro pre e post heq
    rcases List.eq_nil_or_concat post with rfl | ⟨post', e'', rfl⟩
    · obtain ⟨h1, h2⟩ := List.append_inj' heq rfl
      simp only [List.cons.injEq, and_true] at h2
      subst h1 h2
      exact ⟨he, hu ▸ h⟩
    · have : es ++ [e'] = (pre ++ e :: post') ++ [e''] := by simpa using heq
      obtain ⟨h1, h2⟩ := List.append_inj' this rfl
      exact ih pre e post' h1

theorem RouteVoltage.unique {devs : List VoltDev} (h : (devs.filterMap (·.net.name)).Nodup) {sv : ℚ} {es : List Edge} {y z : ℚ}
    (h1 : RouteVoltage devs sv es y) (h2 : RouteVoltage devs sv es z) : y = z := by
  rcases h1 with ⟨h1, rfl⟩ | ⟨pre, e, post, nm, heq, ht, hp, hl⟩
  · rcases h2 with ⟨_, rfl⟩ | ⟨pre, e, post, nm, heq, ht, hp, hl⟩
    · rfl
    · exact absurd ht (h1 e (by simp [heq]) _)
  · rcases h2 with ⟨h2, rfl⟩ | ⟨pre', e', post', nm', heq', ht', hp', hl'⟩
    · exact absurd ht (h2 e (by simp [heq]) _)
    · rw [heq] at heq'
      rcases List.append_eq_append_iff.1 heq' with ⟨a, h1, h2⟩ | ⟨a, h1, h2⟩
      · cases a with
        | nil =>
          simp only [List.nil_append, List.cons.injEq] at h2
          obtain ⟨rfl, _⟩ := h2
          unfold Edge.Trafo at ht ht'
          rw [ht] at ht'
          simp only [Option.some.injEq, Prod.mk.injEq, true_and] at ht'
          subst ht'
          exact hl.unique h hl'
        | cons b a =>
          simp only [List.cons_append, List.cons.injEq] at h2
          exact absurd ht' (hp e' (by simp [h2.2]) _)
      · cases a with
        | nil =>
          simp only [List.nil_append, List.cons.injEq] at h2
          obtain ⟨rfl, _⟩ := h2
          unfold Edge.Trafo at ht ht'
          rw [ht] at ht'
          simp only [Option.some.injEq, Prod.mk.injEq, true_and] at ht'
          subst ht'
          exact hl.unique h hl'
        | cons b a =>
          simp only [List.cons_append, List.cons.injEq] at h2
          exact absurd ht (hp' e (by simp [h2.2]) _)

theorem newVoltage_edge {n : Network} {s : String} {devs : List VoltDev} (he : Energized n s devs) {sv y : ℚ} {es : List Edge}
    (hy : RouteVoltage devs sv es y) {e : Edge} (hm : e ∈ n.digraph) (heq : e.equip = n.graph.equipOf e.u e.v) :
    ∃ z, newVoltage n.graph devs e.u e.v y = .ok z ∧ RouteVoltage devs sv (es ++ [e]) z := by
  unfold newVoltage
  unfold Graph.equipOf at heq
  rw [← heq]
  have keep : (∀ nm, ¬ e.Trafo nm) → RouteVoltage devs sv (es ++ [e]) y := by
    intro hno
    rcases hy with ⟨h1, rfl⟩ | ⟨pre, e', post, nm, rfl, ht, hp, hl⟩
    · refine .inl ⟨fun e' he' => ?_, rfl⟩
      rcases List.mem_append.1 he' with h | h
      · exact h1 e' h
      · simp only [List.mem_singleton] at h; subst h; exact hno
    · refine .inr ⟨pre, e', post ++ [e], nm, by simp, ht, fun e'' he'' => ?_, hl⟩
      rcases List.mem_append.1 he'' with h | h
      · exact hp e'' h
      · simp only [List.mem_singleton] at h; subst h; exact hno
  cases hq : e.equip with
  | none => exact ⟨y, rfl, keep fun nm h => by unfold Edge.Trafo at h; simp [hq] at h⟩
  | some q =>
    obtain ⟨ty, nm⟩ := q
    simp only
    by_cases hty : ty = "PowerTransformer"
    · subst hty
      obtain ⟨x, z, rfl, hz⟩ := he.trafos e hm nm hq
      rw [if_pos rfl]
      exact ⟨z, (lowVoltage_iff he.names).2 hz, .inr ⟨es, e, [], x, by simp, hq, by simp, hz⟩⟩
    · rw [if_neg hty]
      exact ⟨y, rfl, keep fun nm' h => by unfold Edge.Trafo at h; simp [hq, hty] at h⟩

/-- the voltage of the node `x` according to its route -/
def VoltageAt (n : Network) (s : String) (devs : List VoltDev) (sv : ℚ) (x : String) (y : ℚ) : Prop :=
  ∃ es, Route n.digraph s es x ∧ RouteVoltage devs sv es y

theorem voltRec_spec {n : Network} {s : String} {devs : List VoltDev} (he : Energized n s devs) {sv : ℚ} {limit : Nat}
    (heq : ∀ e ∈ n.digraph, e.equip = n.graph.equipOf e.u e.v) :
    ∀ (k : Nat) (es : List Edge) (node prev : String) (v y : ℚ) (F : String → Option ℚ), Route n.digraph s es node →
      es.length + k = limit → newVoltage n.graph devs prev node v = .ok y → RouteVoltage devs sv es y →
      (∀ x z, F x = some z → VoltageAt n s devs sv x z) →
      (voltRec n k node v prev (devs.map (put F)) = .error .recursionError ∧
        ∃ es' x, Route n.digraph s es' x ∧ limit ≤ es'.length) ∨
      (∃ F', voltRec n k node v prev (devs.map (put F)) = .ok (devs.map (put F')) ∧
        (∀ x z, F' x = some z → VoltageAt n s devs sv x z) ∧ (∀ x, F x ≠ none → F' x ≠ none) ∧
        ∀ post x, Route n.digraph s (es ++ post) x → (es ++ post).length < limit ∧ F' x ≠ none) := by
  intro k
  induction k with
  | zero =>
    intro es node prev v y F hr hk hnew hy hF
    exact .inl ⟨rfl, es, node, hr, by omega⟩
  | succ k ih =>
    intro es node prev v y F hr hk hnew hy hF
    have hnode : ∃ d ∈ devs, d.net.name = some node := by
      cases hr with
      | nil => exact he.source
      | snoc _ hm _ => exact he.nodes _ hm
    unfold voltRec
    rw [newVoltage_put, hnew]
    simp only
    rw [assignVoltage_put he.names F hnode]
    simp only
    have hF1 : ∀ x z, upd F node y x = some z → VoltageAt n s devs sv x z := by
      intro x z hx
      unfold upd at hx
      split at hx
      · rename_i hxn; subst hxn
        simp only [Option.some.injEq] at hx; subst hx
        exact ⟨es, hr, hy⟩
      · exact hF x z hx
    -- the children
    have fold : ∀ (cs : List Edge) (G : String → Option ℚ), (∀ e ∈ cs, e ∈ n.digraph ∧ e.u = node) →
        (∀ x z, G x = some z → VoltageAt n s devs sv x z) →
        ((cs.map (·.v)).foldlM (fun devs c => voltRec n k c y node devs) (devs.map (put G)) = .error .recursionError ∧
          ∃ es' x, Route n.digraph s es' x ∧ limit ≤ es'.length) ∨
        (∃ F', (cs.map (·.v)).foldlM (fun devs c => voltRec n k c y node devs) (devs.map (put G)) = .ok (devs.map (put F')) ∧
          (∀ x z, F' x = some z → VoltageAt n s devs sv x z) ∧ (∀ x, G x ≠ none → F' x ≠ none) ∧
          ∀ e ∈ cs, ∀ post x, Route n.digraph s (es ++ e :: post) x → (es ++ e :: post).length < limit ∧ F' x ≠ none) := by
      intro cs
      induction cs with
      | nil => intro G _ hG; exact .inr ⟨G, rfl, hG, fun _ h => h, by simp⟩
      | cons e cs ih2 =>
        intro G hcs hG
        obtain ⟨hm, hu⟩ := hcs e (by simp)
        obtain ⟨z, hz, hz'⟩ := newVoltage_edge he hy hm (heq e hm)
        rw [hu] at hz
        simp only [List.map_cons, List.foldlM_cons]
        rcases ih (es ++ [e]) e.v node y z G (hr.snoc hm hu) (by simp; omega) hz hz' hG with ⟨h1, h2⟩ | ⟨F', h1, h2, h3, h4⟩
        · left; rw [h1]; exact ⟨rfl, h2⟩
        · rw [h1]
          rcases ih2 F' (fun e he => hcs e (by simp [he])) h2 with ⟨g1, g2⟩ | ⟨F'', g1, g2, g3, g4⟩
          · left; exact ⟨g1, g2⟩
          · right
            refine ⟨F'', g1, g2, fun x hx => g3 x (h3 x hx), fun e' he' post x hroute => ?_⟩
            rcases List.mem_cons.1 he' with rfl | he'
            · have hroute' : Route n.digraph s ((es ++ [e']) ++ post) x := by simpa using hroute
              have := h4 post x hroute'
              exact ⟨by simpa using this.1, g3 x this.2⟩
            · exact g4 e' he' post x hroute
    have hsucc : successors n.digraph node = (n.digraph.filter fun e => e.u = node).map (·.v) := rfl
    rw [hsucc]
    rcases fold (n.digraph.filter fun e => e.u = node) (upd F node y)
        (fun e he' => by simpa using he') hF1 with h | ⟨F', h1, h2, h3, h4⟩
    · exact .inl h
    · right
      refine ⟨F', h1, h2, fun x hx => h3 x ?_, fun post x hroute => ?_⟩
      · unfold upd; split
        · simp
        · exact hx
      · cases post with
        | nil =>
          rw [List.append_nil] at hroute
          rw [hroute.end_unique hr]
          exact ⟨by simp; omega, h3 node (by simp [upd])⟩
        | cons e post =>
          obtain ⟨hm, hpre⟩ := hroute.prefix es e post rfl
          exact h4 e (List.mem_filter.2 ⟨hm, by simpa using hpre.end_unique hr⟩) post x hroute

theorem newVoltage_source {n : Network} {s : String} {devs : List VoltDev} (he : Energized n s devs) (sv : ℚ) :
    newVoltage n.graph devs s s sv = .ok sv := by
  unfold newVoltage
  cases hf : n.graph.find s s with
  | none => rfl
  | some e =>
    simp only [Option.bind_some]
    have hm := List.mem_of_find?_eq_some hf
    have hj := List.find?_some hf
    have hj' : e.u = s ∧ e.v = s := by simpa [Edge.joins] using hj
    cases hq : e.equip with
    | none => rfl
    | some q =>
      obtain ⟨ty, nm⟩ := q
      simp only
      rw [if_neg]
      rintro rfl
      exact he.noSelf e hm hj'.1 hj'.2 nm hq

end Ditto.Net
