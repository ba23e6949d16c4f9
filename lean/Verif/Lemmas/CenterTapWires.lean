import Verif.Lemmas.CenterTap
import Verif.Lemmas.Voltages

/-! The wires of the lines between loads and transformers. -/
namespace Ditto.Net
open Ditto

/-! ### Names -/

theorem named_cons {α : Type} {name : α → Option String} (a : α) (l : List α) (nm : Option String) :
    named name (a :: l) nm = match named name l nm with
      | .ok o => .ok o
      | .error _ => if name a = nm then .ok a else .error .keyError := by
  unfold named
  by_cases h : name a = nm
  · rw [List.filter_cons_of_pos (by simpa using h), List.getLast?_cons]
    cases (l.filter fun o => name o = nm).getLast? <;> simp [h]
  · rw [List.filter_cons_of_neg (by simpa using h)]
    cases (l.filter fun o => name o = nm).getLast? <;> simp [h]

theorem named_error_of_any {α : Type} {name : α → Option String} {l : List α} {nm : Option String}
    (h : (l.any fun o => name o = nm) = false) : named name l nm = .error .keyError := by
  apply named_missing
  intro o ho hn
  rw [List.any_eq_false] at h
  exact h o ho (by simpa using hn)

theorem named_updateNamed {α : Type} {name : α → Option String} {f : α → α} (hf : ∀ o, name (f o) = name o) (nm : Option String)
    (l : List α) (x : Option String) :
    named name (updateNamed name nm f l) x = if x = nm then (named name l nm).map f else named name l x := by
  induction l with
  | nil => simp [updateNamed, named, Except.map]
  | cons a l ih =>
    by_cases hx : x = nm
    · subst hx
      rw [if_pos rfl] at ih ⊢
      unfold updateNamed
      rw [named_cons a l]
      split
      · rename_i hany
        obtain ⟨o, ho, hn⟩ := List.any_eq_true.1 hany
        obtain ⟨o', ho'⟩ := named_of_mem (name := name) ho
        rw [of_decide_eq_true hn] at ho'
        rw [named_cons, ih, ho']; rfl
      · rename_i hany
        have hany := Bool.eq_false_iff.2 hany
        split
        · rename_i hn
          rw [named_cons, named_error_of_any hany]
          simp [hf, hn, Except.map]
        · rename_i hn
          rw [named_cons, named_error_of_any hany]
          simp [hn, Except.map]
    · rw [if_neg hx] at ih ⊢
      unfold updateNamed
      rw [named_cons a l]
      split
      · rw [named_cons, ih]
      · split
        · rw [named_cons, hf]
          rename_i hn
          have : ¬ name a = x := by rw [hn]; exact fun h => hx h.symm
          simp [this]
        · rw [named_cons]

/-- the wires of the line -/
def wiresOf (devs : List TapDev) (x : Option String) : Py (List TapWire) := (named (·.net.name) devs x).map (·.wires)

theorem wiresOf_congr {devs devs' : List TapDev} (h : devs'.map (fun d => (d.net.name, d.wires)) = devs.map fun d => (d.net.name, d.wires))
    (x : Option String) : wiresOf devs' x = wiresOf devs x := by
  have hF : List.Forall₂ (fun d d' : TapDev => d'.net.name = d.net.name ∧ d'.wires = d.wires) devs devs' :=
    forall2_of_map_eq (g := fun d : TapDev => (d.net.name, d.wires)) (fun a b h => by simpa using h) h
  unfold wiresOf
  clear h
  induction hF with
  | nil => rfl
  | cons h _ ih =>
    rw [named_cons, named_cons]
    revert ih
    obtain ⟨h1, h2⟩ := h
    rw [h1]
    rename_i a _ _ _ _
    by_cases hx : a.net.name = x <;> simp only [hx, if_true, if_false] <;>
    generalize named (fun d : TapDev => d.net.name) _ x = r <;>
    generalize named (fun d : TapDev => d.net.name) _ x = r' <;>
    intro ih <;>
    cases r <;> cases r' <;> simp_all [Except.map]

theorem onLine_wires {f : List TapWire → Py (List TapWire)} {devs devs' : List TapDev} {nm : Option String}
    (h : onLine f devs nm = .ok devs') : ∃ ws ws', wiresOf devs nm = .ok ws ∧ f ws = .ok ws' ∧ wiresOf devs' nm = .ok ws' ∧
      ∀ x, x ≠ nm → wiresOf devs' x = wiresOf devs x := by
  unfold onLine at h
  split at h
  · simp at h
  · rename_i d hd
    split at h
    · split at h
      · simp at h
      · rename_i ws hws
        simp only [Except.ok.injEq] at h
        subst h
        refine ⟨d.wires, ws, by unfold wiresOf; rw [hd]; rfl, hws, ?_, fun x hx => ?_⟩
        · unfold wiresOf
          rw [named_updateNamed (name := fun d : TapDev => d.net.name) (f := fun d => { d with wires := ws }) (fun _ => rfl), if_pos rfl, hd]
          rfl
        · unfold wiresOf
          rw [named_updateNamed (name := fun d : TapDev => d.net.name) (f := fun d => { d with wires := ws }) (fun _ => rfl), if_neg hx]
    · simp at h

theorem onLines_wires {f : List TapWire → Py (List TapWire)} (hid : ∀ ws ws', f ws = .ok ws' → f ws' = .ok ws')
    (lines : List (Option String)) : ∀ {devs devs' : List TapDev}, lines.foldlM (onLine f) devs = .ok devs' → ∀ x,
      (x ∈ lines → ∃ ws ws', wiresOf devs x = .ok ws ∧ f ws = .ok ws' ∧ wiresOf devs' x = .ok ws') ∧
      (x ∉ lines → wiresOf devs' x = wiresOf devs x) := by
  induction lines with
  | nil =>
    intro devs devs' h x
    simp only [List.foldlM_nil, pure, Except.pure, Except.ok.injEq] at h
    subst h
    simp
  | cons nm lines ih =>
    intro devs devs' h x
    rw [List.foldlM_cons] at h
    cases h1 : onLine f devs nm with
    | error e => rw [h1] at h; simp [bind, Except.bind] at h
    | ok devs1 =>
      rw [h1] at h
      simp only [bind, Except.bind] at h
      obtain ⟨ws, ws', k1, k2, k3, k4⟩ := onLine_wires h1
      obtain ⟨i1, i2⟩ := ih h x
      constructor
      · intro hx
        by_cases hn : x = nm
        · subst hn
          refine ⟨ws, ws', k1, k2, ?_⟩
          by_cases hm : x ∈ lines
          · obtain ⟨us, us', j1, j2, j3⟩ := i1 hm
            rw [k3] at j1
            simp only [Except.ok.injEq] at j1
            subst j1
            rw [hid ws ws' k2] at j2
            simp only [Except.ok.injEq] at j2
            rw [j3, j2]
          · rw [i2 hm, k3]
        · have hm : x ∈ lines := (List.mem_cons.1 hx).resolve_left hn
          obtain ⟨us, us', j1, j2, j3⟩ := i1 hm
          exact ⟨us, us', by rw [← k4 x hn]; exact j1, j2, j3⟩
      · intro hx
        simp only [List.mem_cons, not_or] at hx
        rw [i2 hx.2, k4 x hx.1]

theorem onLoad_wires {f : List PhaseLoad → Py (List PhaseLoad)} {i : Nat} {devs devs' : List TapDev}
    (h : onLoad f i devs = .ok devs') (x : Option String) : wiresOf devs' x = wiresOf devs x := by
  obtain ⟨d, pls, hd, hp, rfl⟩ := onLoad_ok h
  apply wiresOf_congr
  rw [List.map_set]
  exact set_self (by rw [List.getElem?_map, hd]; rfl)

/-! ### Wires -/

/-- what becomes of the wires -/
def wireFix (ph : List (Option String)) (ws : List TapWire) : Py (List TapWire) :=
  ph.foldlM (fun ws p => addWire p ws) (dropWires ph ws)

theorem dropWires_idem (ph : List (Option String)) (ws : List TapWire) : dropWires ph (dropWires ph ws) = dropWires ph ws := by
  unfold dropWires
  rw [List.map_map]
  apply List.map_congr_left
  intro w _
  simp only [Function.comp_apply]
  split
  · simp
  · rfl

theorem addWire_idem {p : Option String} {ws ws' : List TapWire} (h : addWire p ws = .ok ws') : addWire p ws' = .ok ws' := by
  unfold addWire at h
  split at h
  · rename_i hm
    simp only [Except.ok.injEq] at h
    subst h
    unfold addWire
    rw [if_pos hm]
  · split at h
    · simp at h
    · simp only [Except.ok.injEq] at h
      subst h
      unfold addWire
      rw [if_pos (by simp)]

theorem dropWires_phase (ph : List (Option String)) (ws : List TapWire) : (dropWires ph ws).map (·.phase) = ws.map (·.phase) := by
  unfold dropWires
  rw [List.map_map]
  apply List.map_congr_left
  intro w _
  simp only [Function.comp_apply]
  split <;> rfl

theorem addWires {qs : List (Option String)} : ∀ {ws ws' : List TapWire},
    qs.foldlM (fun ws p => addWire p ws) ws = .ok ws' →
    ∃ new, ws' = ws ++ new ∧ (∀ w ∈ new, w.drop = false) ∧ ∀ p, p ∈ new.map (·.phase) ↔ p ∈ qs ∧ p ∉ ws.map (·.phase) := by
  induction qs with
  | nil =>
    intro ws ws' h
    simp only [List.foldlM_nil, pure, Except.pure, Except.ok.injEq] at h
    subst h
    exact ⟨[], by simp, by simp, by simp⟩
  | cons q qs ih =>
    intro ws ws' h
    rw [List.foldlM_cons] at h
    cases h1 : addWire q ws with
    | error e => rw [h1] at h; simp [bind, Except.bind] at h
    | ok ws1 =>
      rw [h1] at h
      simp only [bind, Except.bind] at h
      obtain ⟨new, rfl, hnew, hph⟩ := ih h
      unfold addWire at h1
      split at h1
      · rename_i hm
        simp only [Except.ok.injEq] at h1
        subst h1
        refine ⟨new, rfl, hnew, fun p => ?_⟩
        rw [hph]
        constructor
        · rintro ⟨h1, h2⟩; exact ⟨List.mem_cons_of_mem _ h1, h2⟩
        · rintro ⟨h1, h2⟩
          rcases List.mem_cons.1 h1 with rfl | h1
          · exact absurd hm h2
          · exact ⟨h1, h2⟩
      · rename_i hm
        split at h1
        · simp at h1
        · rename_i w wl
          simp only [Except.ok.injEq] at h1
          subst h1
          refine ⟨⟨q, false⟩ :: new, by simp, ?_, fun p => ?_⟩
          · intro w' hw'
            rcases List.mem_cons.1 hw' with rfl | hw'
            · rfl
            · exact hnew w' hw'
          · rw [List.map_cons, List.mem_cons, hph, List.map_append, List.mem_append, List.mem_cons]
            simp only [List.map_cons, List.map_nil, List.mem_singleton, not_or]
            constructor
            · rintro (rfl | ⟨h1, h2, h3⟩)
              · exact ⟨.inl rfl, hm⟩
              · exact ⟨.inr h1, h2⟩
            · rintro ⟨rfl | h1, h2⟩
              · exact .inl rfl
              · by_cases hpq : p = q
                · exact .inl hpq
                · exact .inr ⟨h1, h2, hpq⟩

theorem addWires_none {qs : List (Option String)} {ws : List TapWire} (h : ∀ q ∈ qs, q ∈ ws.map (·.phase)) :
    qs.foldlM (fun ws p => addWire p ws) ws = .ok ws := by
  induction qs with
  | nil => rfl
  | cons q qs ih =>
    rw [List.foldlM_cons]
    have : addWire q ws = .ok ws := by unfold addWire; rw [if_pos (h q (by simp))]
    rw [this]
    exact ih fun q hq => h q (List.mem_cons_of_mem _ hq)

theorem wireFix_rewired {ph : List (Option String)} {ws ws' : List TapWire} (h : wireFix ph ws = .ok ws') : Rewired ph ws ws' := by
  obtain ⟨new, rfl, hnew, hph⟩ := addWires h
  rw [dropWires_phase] at hph
  refine ⟨⟨_, new, rfl, dropWires_phase ph ws, hnew, hph⟩, fun w hw hd => ?_, fun w hw hp => ?_⟩
  · rcases List.mem_append.1 hw with hw | hw
    · unfold dropWires at hw
      obtain ⟨w0, _, rfl⟩ := List.mem_map.1 hw
      by_cases hc : w0.phase ∉ [some "N", some "N1", some "N2"] ∧ w0.phase ∉ ph
      · rw [if_pos hc] at hd; simp at hd
      · rw [if_neg hc]; rw [Classical.not_and_iff_not_or_not, not_not, not_not] at hc; exact hc
    · exact .inr ((hph w.phase).1 (List.mem_map.2 ⟨w, hw, rfl⟩)).1
  · refine List.mem_append_left _ (List.mem_map.2 ⟨w, hw, ?_⟩)
    rw [if_neg]
    rintro ⟨h1, h2⟩
    exact hp.elim h1 h2

theorem wireFix_idem {ph : List (Option String)} {ws ws' : List TapWire} (h : wireFix ph ws = .ok ws') : wireFix ph ws' = .ok ws' := by
  have hr := wireFix_rewired h
  obtain ⟨new, rfl, hnew, hph⟩ := addWires h
  rw [dropWires_phase] at hph
  have hd : dropWires ph (dropWires ph ws ++ new) = dropWires ph ws ++ new := by
    unfold dropWires
    rw [List.map_append]
    congr 1
    · exact dropWires_idem ph ws
    · conv_rhs => rw [← List.map_id new]
      apply List.map_congr_left
      intro w hw
      have := ((hph w.phase).1 (List.mem_map.2 ⟨w, hw, rfl⟩)).1
      rw [if_neg (fun h => h.2 this)]
      rfl
  unfold wireFix
  rw [hd]
  apply addWires_none
  intro q hq
  rw [List.map_append, List.mem_append, dropWires_phase]
  by_cases hm : q ∈ ws.map (·.phase)
  · exact .inl hm
  · exact .inr ((hph q).2 ⟨hq, hm⟩)

/-! ### Loads -/

theorem addPhases_wires {i : Nat} {lines : List (Option String)} (qs : List (Option String)) : ∀ {devs devs' : List TapDev},
    qs.foldlM (addPhase i lines) devs = .ok devs' → ∀ x,
    (x ∈ lines → ∀ ws, wiresOf devs x = .ok ws → ∃ ws', qs.foldlM (fun ws p => addWire p ws) ws = .ok ws' ∧ wiresOf devs' x = .ok ws') ∧
    (x ∉ lines → wiresOf devs' x = wiresOf devs x) := by
  induction qs with
  | nil =>
    intro devs devs' h x
    simp only [List.foldlM_nil, pure, Except.pure, Except.ok.injEq] at h ⊢
    subst h
    simp
  | cons q qs ih =>
    intro devs devs' h x
    rw [List.foldlM_cons] at h
    cases h1 : addPhase i lines devs q with
    | error e => rw [h1] at h; simp [bind, Except.bind] at h
    | ok devs1 =>
      rw [h1] at h
      simp only [bind, Except.bind] at h
      obtain ⟨i1, i2⟩ := ih h x
      unfold addPhase at h1
      split at h1
      · simp at h1
      · rename_i devs0 h0
        have e0 := onLoad_wires h0
        obtain ⟨k1, k2⟩ := onLines_wires (f := addWire q) (fun _ _ h => addWire_idem h) lines h1 x
        constructor
        · intro hx ws hws
          obtain ⟨us, us', j1, j2, j3⟩ := k1 hx
          rw [e0, hws] at j1
          simp only [Except.ok.injEq] at j1
          subst j1
          obtain ⟨ws', l1, l2⟩ := i1 hx us' j3
          refine ⟨ws', ?_, l2⟩
          rw [List.foldlM_cons, j2]
          exact l1
        · intro hx
          rw [i2 hx, k2 hx, e0]

theorem modify_tag_wires (devs : List TapDev) (i : Nat) (x : Option String) : wiresOf (devs.modify i TapDev.tag) x = wiresOf devs x := by
  apply wiresOf_congr
  apply List.ext_getElem?
  intro j
  rw [List.getElem?_map, List.getElem?_map, List.getElem?_modify]
  cases devs[j]? with
  | none => rfl
  | some d => simp only [Option.map_some]; split <;> rfl

theorem tapLoad_wires {devs devs' : List TapDev} {i : Nat} {t : Option String} {lines ph : List (Option String)}
    (h : tapLoad devs i t lines ph = .ok devs') (x : Option String) :
    (x ∈ lines → ∃ ws ws', wiresOf devs x = .ok ws ∧ wireFix ph ws = .ok ws' ∧ wiresOf devs' x = .ok ws') ∧
    (x ∉ lines → wiresOf devs' x = wiresOf devs x) := by
  unfold tapLoad at h
  split at h
  · simp at h
  · rename_i tr htr
    simp only at h
    have e1 : wiresOf (if tr.isCenterTap then devs.modify i TapDev.tag else devs) x = wiresOf devs x := by
      split
      · exact modify_tag_wires devs i x
      · rfl
    revert e1 h
    generalize (if tr.isCenterTap then devs.modify i TapDev.tag else devs) = devs1
    intro h e1
    split at h
    · simp at h
    · split at h
      · simp at h
      · simp at h
      · split at h
        · simp at h
        · rename_i devs2 h2
          split at h
          · simp at h
          · rename_i devs3 h3
            split at h
            · simp at h
            · rename_i devs4 h4
              have e2 := onLoad_wires h2 x
              obtain ⟨k1, k2⟩ := onLines_wires (f := fun ws => .ok (dropWires ph ws)) (fun ws ws' h => by
                simp only [Except.ok.injEq] at h ⊢
                rw [← h, dropWires_idem]) lines h3 x
              obtain ⟨l1, l2⟩ := addPhases_wires ph h4 x
              have e5 := onLoad_wires h x
              constructor
              · intro hx
                obtain ⟨ws, ws', j1, j2, j3⟩ := k1 hx
                simp only [Except.ok.injEq] at j2
                subst j2
                obtain ⟨ws'', m1, m2⟩ := l1 hx _ j3
                exact ⟨ws, ws'', by rw [← e1, ← e2]; exact j1, m1, by rw [e5]; exact m2⟩
              · intro hx
                rw [e5, l2 hx, k2 hx, e2, e1]

theorem tapLoads_wires (l : List (TapInfo × List (Option String))) : ∀ {devs devs' : List TapDev}, tapLoads l devs = .ok devs' →
    ∀ x ph, (∀ y ∈ l, x ∈ y.1.lines → y.2 = ph) →
    ((∃ y ∈ l, x ∈ y.1.lines) → ∃ ws ws', wiresOf devs x = .ok ws ∧ wireFix ph ws = .ok ws' ∧ wiresOf devs' x = .ok ws') ∧
    ((∀ y ∈ l, x ∉ y.1.lines) → wiresOf devs' x = wiresOf devs x) := by
  induction l with
  | nil =>
    intro devs devs' h x ph _
    simp only [tapLoads, Except.ok.injEq] at h
    subst h
    simp
  | cons y l ih =>
    obtain ⟨info, ph1⟩ := y
    intro devs devs' h x ph hph
    unfold tapLoads at h
    split at h
    · simp at h
    · rename_i devs1 h1
      obtain ⟨k1, k2⟩ := tapLoad_wires h1 x
      obtain ⟨i1, i2⟩ := ih h x ph fun y hy => hph y (List.mem_cons_of_mem _ hy)
      constructor
      · rintro ⟨y, hy, hx⟩
        by_cases h0 : x ∈ info.lines
        · obtain ⟨ws, ws', j1, j2, j3⟩ := k1 h0
          have hp : ph1 = ph := hph _ List.mem_cons_self h0
          subst hp
          refine ⟨ws, ws', j1, j2, ?_⟩
          by_cases hm : ∃ y ∈ l, x ∈ y.1.lines
          · obtain ⟨us, us', m1, m2, m3⟩ := i1 hm
            rw [j3] at m1
            simp only [Except.ok.injEq] at m1
            subst m1
            rw [wireFix_idem j2] at m2
            simp only [Except.ok.injEq] at m2
            rw [m3, m2]
          · rw [i2 fun y hy h => hm ⟨y, hy, h⟩, j3]
        · rcases List.mem_cons.1 hy with rfl | hy
          · exact absurd hx h0
          · obtain ⟨us, us', m1, m2, m3⟩ := i1 ⟨y, hy, hx⟩
            exact ⟨us, us', by rw [← k2 h0]; exact m1, m2, m3⟩
      · intro hno
        rw [i2 fun y hy => hno y (List.mem_cons_of_mem _ hy), k2 (hno _ List.mem_cons_self)]

/-! ### Lines and transformers -/

theorem exists_last_mem {α : Type} (p : α → Prop) {l : List α} (h : ∃ a ∈ l, p a) : ∃ pre a post, l = pre ++ a :: post ∧ p a ∧
    ∀ b ∈ post, ¬ p b := by
  induction l with
  | nil => simp at h
  | cons c l ih =>
    by_cases h' : ∃ a ∈ l, p a
    · obtain ⟨pre, a, post, rfl, h1, h2⟩ := ih h'
      exact ⟨c :: pre, a, post, rfl, h1, h2⟩
    · obtain ⟨a, ha, hp⟩ := h
      rcases List.mem_cons.1 ha with rfl | ha
      · exact ⟨[], a, l, rfl, hp, fun b hb hpb => h' ⟨b, hb, hpb⟩⟩
      · exact absurd ⟨a, ha, hp⟩ h'

/-- the object whose name is on an edge -/
theorem equip_object {objs : List NetObj} {s : String} {n : Network} (h : build objs s = .ok n) {a b ty : String} {nm : Option String}
    (he : n.graph.equipOf a b = some (ty, nm)) : ∃ o ∈ objs, TwoTerminal o a b ∧ o.name = nm := by
  obtain ⟨t, d, ot, hb, ht, heq, hs, hd⟩ := build_tree h
  obtain ⟨pre, o, post, rfl, h1, h2⟩ := exists_last_mem _ (hb.equip a b (by rw [he]; simp))
  obtain ⟨ty', h3, _⟩ := hb.equipLast a b pre o post rfl h1 h2
  rw [he] at h3
  simp only [Option.some.injEq, Prod.mk.injEq] at h3
  exact ⟨o, by simp, h1, h3.2.symm⟩

/-- a name is on one directed edge only -/
theorem edge_of_name {objs : List NetObj} {s : String} {n : Network} (h : build objs s = .ok n) (hnames : (objs.filterMap (·.name)).Nodup)
    {e e' : Edge} (he : e ∈ n.digraph) (he' : e' ∈ n.digraph) {ty ty' x : String} (hq : n.graph.equipOf e.u e.v = some (ty, some x))
    (hq' : n.graph.equipOf e'.u e'.v = some (ty', some x)) : e = e' := by
  obtain ⟨depth, ha⟩ := arbo_of_build h
  obtain ⟨o, ho, ht, hn⟩ := equip_object h hq
  obtain ⟨o', ho', ht', hn'⟩ := equip_object h hq'
  obtain rfl : o = o' := name_inj hnames ho ho' hn hn'
  have s1 := ha.step e he
  have s2 := ha.step e' he'
  have : e.v = e'.v := by
    rcases ht with ⟨h1, h2⟩ | ⟨h1, h2⟩ <;> rcases ht' with ⟨h3, h4⟩ | ⟨h3, h4⟩ <;>
      rw [h1, Option.some.injEq] at h3 <;> rw [h2, Option.some.injEq] at h4
    · exact h4
    · rw [h3, h4] at s1; omega
    · rw [h3, h4] at s1; omega
    · exact h3
  exact ha.uniq e he e' he' this

/-- two ways from a transformer that have a line in common come from the same transformer -/
theorem same_trafo {objs : List NetObj} {s : String} {n : Network} (h : build objs s = .ok n) (hnames : (objs.filterMap (·.name)).Nodup)
    {x : String} {y y' : String} {es es' : List Edge} {t t' : Option String} {lines lines' : List (Option String)}
    (hr : Route n.digraph s es y) (hr' : Route n.digraph s es' y') (ha : AboveOn n es t lines) (ha' : AboveOn n es' t' lines')
    (hx : some x ∈ lines) (hx' : some x ∈ lines') : t = t' := by
  have key : ∀ {y es t lines}, Route n.digraph s es y → AboveOn n es t lines → some x ∈ lines →
      ∃ e ∈ n.digraph, ∃ ty lines', n.graph.equipOf e.u e.v = some (ty, some x) ∧ tapUp n (some e.u) = some (.ok (t, lines')) := by
    clear hr hr' ha ha' hx hx'
    rintro y es t lines hr ⟨pre, e1, post, rfl, ht, hpost, rfl⟩ hx
    obtain ⟨e, he, hl⟩ := List.mem_filterMap.1 hx
    rw [List.mem_reverse] at he
    obtain ⟨a, b, rfl⟩ := List.append_of_mem he
    have hed : e ∈ n.digraph := hr.mem e (by simp)
    have hr1 : Route n.digraph s (pre ++ e1 :: a) e.u := 
      (hr.prefix (pre ++ e1 :: a) e b (by simp)).2
    obtain ⟨q, hq, hq2⟩ := Option.bind_eq_some_iff.1 hl
    obtain ⟨ty, nm⟩ := q
    simp only at hq2
    split at hq2
    · simp only [Option.some.injEq] at hq2
      subst hq2
      refine ⟨e, hed, ty, _, hq, (tapUp_route h ?_ hr1).1 t _ ⟨pre, e1, a, rfl, ht, fun e' he' => hpost e' (by simp [he']), rfl⟩⟩
      unfold diNodes
      exact List.mem_flatMap.2 ⟨e, hed, by simp⟩
    · simp at hq2
  obtain ⟨e, he, ty, l1, h1, h2⟩ := key hr ha hx
  obtain ⟨e', he', ty', l1', h1', h2'⟩ := key hr' ha' hx'
  obtain rfl := edge_of_name h hnames he he' h1 h1'
  rw [h2] at h2'
  simp only [Option.some.injEq, Except.ok.injEq, Prod.mk.injEq] at h2'
  exact h2'.1

end Ditto.Net
