import Verif.Spec.Tag
import Verif.Lemmas.CenterTap

/-! Tagging objects with their feeder. -/
namespace Ditto.Net
open Ditto

theorem any_diNodes {n : Network} {x : String} : n.digraph.any (fun e => e.u = x || e.v = x) = true ↔ x ∈ diNodes n.digraph := by
  unfold diNodes
  simp only [List.any_eq_true, Bool.or_eq_true, decide_eq_true_eq, List.mem_flatMap, List.mem_cons, List.not_mem_nil, or_false]
  constructor
  · rintro ⟨e, he, h | h⟩
    · exact ⟨e, he, .inl h.symm⟩
    · exact ⟨e, he, .inr h.symm⟩
  · rintro ⟨e, he, h | h⟩
    · exact ⟨e, he, .inl h.symm⟩
    · exact ⟨e, he, .inr h.symm⟩

theorem edge_diNodes {n : Network} {e : Edge} (he : e ∈ n.digraph) : e.u ∈ diNodes n.digraph := by
  unfold diNodes
  exact List.mem_flatMap.2 ⟨e, he, by simp⟩

/-- the walk always ends -/
theorem tagUp_ends {n : Network} {s : String} {depth : String → Nat} (ha : Arbo n.digraph s depth) (mp : String → Option String)
    (devs : List TagDev) {es : List Edge} {x : String} (hr : Route n.digraph s es x) :
    ∀ k, es.length < k → tagUp n mp devs k x ≠ none := by
  induction hr with
  | nil =>
    intro k hk
    cases k with
    | zero => omega
    | succ k =>
      unfold tagUp
      rw [find_root ha]
      split <;> simp
  | @snoc es u e hr he hu ih =>
    intro k hk
    cases k with
    | zero => omega
    | succ k =>
      unfold tagUp
      rw [find_pred ha he]
      split
      · simp only
        split
        · simp
        · split
          · simp
          · rw [hu]
            exact ih k (by simp at hk; omega)
      · simp

/-- what the walk finds, if all predecessors are objects and the mapped ones have their feeder -/
theorem tagUp_route {n : Network} {s : String} {depth : String → Nat} (ha : Arbo n.digraph s depth) {mp : String → Option String}
    {devs : List TagDev} {Sub : String → String → Option String}
    (H : ∀ e ∈ n.digraph, ∃ p, named (·.net.name) devs (some e.u) = .ok p ∧
      ∀ f, mp e.u = some f → p.hasFeeder = true ∧ p.feeder = some f ∧ f ≠ "" ∧ p.substation = Sub e.u f)
    {es : List Edge} {x : String} (hr : Route n.digraph s es x) :
    ∀ k, es.length < k → x ∈ diNodes n.digraph →
      (∀ pre e post f, es = pre ++ e :: post → mp e.u = some f → (∀ e' ∈ post, mp e'.u = none) →
        ∃ p, tagUp n mp devs k x = some (.ok (some p)) ∧ p.feeder = some f ∧ p.substation = Sub e.u f) ∧
      ((∀ e ∈ es, mp e.u = none) → tagUp n mp devs k x = some (.ok none)) := by
  induction hr with
  | nil =>
    intro k hk hx
    cases k with
    | zero => omega
    | succ k =>
      refine ⟨fun pre e post f h => by simp at h, fun _ => ?_⟩
      unfold tagUp
      rw [if_pos (any_diNodes.2 hx), find_root ha]
  | @snoc es u e hr he hu ih =>
    intro k hk hx
    cases k with
    | zero => omega
    | succ k =>
      obtain ⟨p, hp, hf⟩ := H e he
      have hstep : tagUp n mp devs (k + 1) e.v =
          if p.hasFeeder && isSet p.feeder && (mp e.u).isSome then some (.ok (some p)) else tagUp n mp devs k e.u := by
        rw [tagUp, if_pos (any_diNodes.2 hx), find_pred ha he]
        simp only [hp]
      have ih' := ih k (by simp at hk; omega) (hu ▸ edge_diNodes he)
      refine ⟨fun pre e0 post f heq hm hpost => ?_, fun hnone => ?_⟩
      · rcases List.eq_nil_or_concat post with rfl | ⟨post', e'', rfl⟩
        · obtain ⟨h1, h2⟩ := List.append_inj' heq rfl
          simp only [List.cons.injEq, and_true] at h2
          subst h2
          obtain ⟨h3, h4, h5, h6⟩ := hf f hm
          refine ⟨p, ?_, h4, h6⟩
          rw [hstep, if_pos]
          simp [h3, h4, isSet, h5, hm]
        · have heq' : es ++ [e] = (pre ++ e0 :: post') ++ [e''] := by rw [heq]; simp
          obtain ⟨h1, h2⟩ := List.append_inj' heq' rfl
          simp only [List.cons.injEq, and_true] at h2
          subst h2
          obtain ⟨q, hq, hq2⟩ := ih'.1 pre e0 post' f h1 hm (fun e' he' => hpost e' (by simp [he']))
          refine ⟨q, ?_, hq2⟩
          rw [hstep, if_neg, hu, hq]
          simp [hpost e (by simp)]
      · rw [hstep, if_neg, hu]
        · exact ih'.2 fun e' he' => hnone e' (by simp [he'])
        · simp [hnone e (by simp)]

/-! ### The first loop -/

theorem setOwn_net (mp subs : String → Option String) (d : TagDev) : (d.setOwn mp subs).net = d.net := by
  unfold TagDev.setOwn
  split <;> rfl

theorem tagFirst_net (mp subs : String → Option String) (d : TagDev) : (tagFirst mp subs d).net = d.net := by
  unfold tagFirst
  split
  · split
    · exact setOwn_net _ _ _
    · exact setOwn_net _ _ _
  · rfl

theorem tagFirst_hasFeeder (mp subs : String → Option String) (d : TagDev) : (tagFirst mp subs d).hasFeeder = d.hasFeeder := by
  unfold TagDev.hasFeeder; rw [tagFirst_net]

theorem tagFirst_anchor (mp subs : String → Option String) (d : TagDev) : (tagFirst mp subs d).anchor = d.anchor := by
  unfold TagDev.anchor; rw [tagFirst_net]

theorem tagFirst_own {mp subs : String → Option String} {d : TagDev} (h : d.hasFeeder = true) {f : String} (hf : d.anchor.bind mp = some f) :
    (tagFirst mp subs d).feeder = some f ∧ (tagFirst mp subs d).substation = (subs f).or d.substation := by
  unfold tagFirst
  rw [if_pos h]
  have : d.setOwn mp subs = { d with feeder := some f, substation := (subs f).or d.substation } := by
    unfold TagDev.setOwn
    rw [hf]
  rw [this]
  split <;> exact ⟨rfl, rfl⟩

theorem tagFirst_unmapped {mp subs : String → Option String} {d : TagDev} (hf : d.anchor.bind mp = none) :
    (tagFirst mp subs d).feeder = d.feeder ∧ (tagFirst mp subs d).substation = d.substation := by
  have : d.setOwn mp subs = d := by
    unfold TagDev.setOwn
    rw [hf]
  unfold tagFirst
  rw [this]
  split
  · split <;> exact ⟨rfl, rfl⟩
  · exact ⟨rfl, rfl⟩

theorem tagFirst_series {mp subs : String → Option String} {d : TagDev} (h : d.net.cls ∈ oneTerminalClasses) :
    (tagFirst mp subs d).series = d.series.map fun _ => ((tagFirst mp subs d).feeder, (tagFirst mp subs d).substation) := by
  have hh : d.hasFeeder = true := by simp [TagDev.hasFeeder, h]
  have hs : (d.setOwn mp subs).series = d.series := by
    unfold TagDev.setOwn
    split <;> rfl
  unfold tagFirst
  rw [if_pos hh, if_pos h]
  unfold TagDev.setSeries
  simp only [hs]

/-! ### The second loop -/

/-- effect of the second loop -/
structure Second (n : Network) (s : String) (mp : String → Option String) (Sub : String → String → Option String) (d d' : TagDev) : Prop where
  net : d'.net = d.net
  series : d'.series = d.series
  other : d.hasFeeder = false → d' = d
  own : d.anchor.bind mp ≠ none → d' = d
  above : d.hasFeeder = true → ∀ a u f, d.anchor = some a → mp a = none → NearestMapped n s mp a u → mp u = some f →
    d'.feeder = some f ∧ d'.substation = Sub u f
  unmapped : ∀ a, d.anchor = some a → mp a = none → NoneMapped n s mp a → d' = d

theorem forall₂_self {α : Type} {R : α → α → Prop} (h : ∀ a, R a a) : ∀ l : List α, List.Forall₂ R l l
  | [] => .nil
  | a :: l => .cons (h a) (forall₂_self h l)

theorem forall₂_append {α β : Type} {R : α → β → Prop} : ∀ {l1 l2 : List α} {l1' l2' : List β}, List.Forall₂ R l1 l1' → List.Forall₂ R l2 l2' →
    List.Forall₂ R (l1 ++ l2) (l1' ++ l2')
  | [], _, [], _, _, h => h
  | _ :: _, _, _ :: _, _, .cons h1 h2, h => .cons h1 (forall₂_append h2 h)

theorem forall₂_imp {α β : Type} {R S : α → β → Prop} (h : ∀ a b, R a b → S a b) : ∀ {l : List α} {l' : List β}, List.Forall₂ R l l' →
    List.Forall₂ S l l'
  | [], [], .nil => .nil
  | _ :: _, _ :: _, .cons h1 h2 => .cons (h _ _ h1) (forall₂_imp h h2)

theorem tagSecond_spec {objs : List NetObj} {s : String} {n : Network} (hb : build objs s = .ok n) {mp : String → Option String}
    {Sub : String → String → Option String} {devs : List TagDev}
    (H : ∀ e ∈ n.digraph, ∃ p, named (·.net.name) devs (some e.u) = .ok p ∧
      ∀ f, mp e.u = some f → p.hasFeeder = true ∧ p.anchor = some e.u ∧ p.feeder = some f ∧ f ≠ "" ∧ p.substation = Sub e.u f)
    (hin : ∀ d ∈ devs, d.hasFeeder = true → d.anchor.bind mp = none → ∃ a, d.anchor = some a ∧ a ∈ diNodes n.digraph) :
    ∀ (rest done pre : List TagDev), pre ++ rest = devs → List.Forall₂ (Second n s mp Sub) pre done →
      ∃ devs', tagSecond n mp done rest = some ⟨devs', none⟩ ∧ List.Forall₂ (Second n s mp Sub) devs devs' := by
  obtain ⟨depth, ha⟩ := arbo_of_build hb
  intro rest
  induction rest with
  | nil =>
    intro done pre hpre hd
    simp only [List.append_nil] at hpre
    subst hpre
    exact ⟨done, rfl, hd⟩
  | cons d rest ih =>
    intro done pre hpre hd
    have go : ∀ d', Second n s mp Sub d d' →
        ∃ devs', tagSecond n mp (done ++ [d']) rest = some ⟨devs', none⟩ ∧ List.Forall₂ (Second n s mp Sub) devs devs' := by
      intro d' hdd
      exact ih (done ++ [d']) (pre ++ [d]) (by simpa using hpre) (forall₂_append hd (.cons hdd .nil))
    unfold tagSecond
    by_cases hc : d.hasFeeder && (d.anchor.bind mp).isNone
    · rw [if_pos hc]
      simp only [Bool.and_eq_true, Option.isNone_iff_eq_none] at hc
      obtain ⟨a, haa, hax⟩ := hin d (by rw [← hpre]; simp) hc.1 hc.2
      have hma : mp a = none := by rw [haa] at hc; simpa using hc.2
      simp only [haa]
      have hcur : List.Forall₂ (fun x y : TagDev => y.net = x.net ∧ (x.anchor.bind mp ≠ none → y = x)) devs (done ++ d :: rest) := by
        rw [← hpre]
        exact forall₂_append (forall₂_imp (fun x y h => ⟨h.net, h.own⟩) hd) (forall₂_self (fun x => ⟨rfl, fun _ => rfl⟩) _)
      have H' : ∀ e ∈ n.digraph, ∃ p, named (·.net.name) (done ++ d :: rest) (some e.u) = .ok p ∧
          ∀ f, mp e.u = some f → p.hasFeeder = true ∧ p.feeder = some f ∧ f ≠ "" ∧ p.substation = Sub e.u f := by
        intro e he
        obtain ⟨p, hp, hpf⟩ := H e he
        obtain ⟨p', hp', h1, h2⟩ := named_rel hcur (fun a b h => by rw [h.1]) hp
        refine ⟨p', hp', fun f hf => ?_⟩
        obtain ⟨q1, q2, q3, q4, q5⟩ := hpf f hf
        have := h2 (by rw [q2]; simp [hf])
        subst this
        exact ⟨q1, q3, q4, q5⟩
      obtain ⟨es, hes, huniq⟩ := C18_route objs s n hb a hax
      have hlen := hes.length_le ha
      obtain ⟨h1, h2⟩ := tagUp_route ha H' hes (n.digraph.length + 1) (by omega) hax
      by_cases hnone : ∀ e ∈ es, mp e.u = none
      · rw [h2 hnone]
        simp only
        refine go d ⟨rfl, rfl, fun _ => rfl, fun _ => rfl, fun _ a' u f ha' _ hnear hu => ?_, fun _ _ _ _ => rfl⟩
        exfalso
        rw [haa] at ha'
        simp only [Option.some.injEq] at ha'
        subst ha'
        obtain ⟨pr, e, po, hr, rfl, hmu, _⟩ := hnear
        exact hmu (hnone e (by rw [← huniq _ hr]; simp))
      · obtain ⟨pr, e, po, f, heq, hme, hpo⟩ : ∃ pr e po f, es = pr ++ e :: po ∧ mp e.u = some f ∧ ∀ e' ∈ po, mp e'.u = none := by
          clear h1 h2 hlen hes huniq
          induction es using List.reverseRecOn with
          | nil => simp at hnone
          | append_singleton es e ihes =>
            cases hm : mp e.u with
            | some f => exact ⟨es, e, [], f, rfl, hm, by simp⟩
            | none =>
              obtain ⟨pr, e1, po, f, heq, h1, h2⟩ := ihes fun h => hnone fun e' he' => by
                rcases List.mem_append.1 he' with he' | he'
                · exact h e' he'
                · simp only [List.mem_singleton] at he'; subst he'; exact hm
              refine ⟨pr, e1, po ++ [e], f, by simp [heq], h1, fun e' he' => ?_⟩
              rcases List.mem_append.1 he' with he' | he'
              · exact h2 e' he'
              · simp only [List.mem_singleton] at he'; subst he'; exact hm
        obtain ⟨p, hp, hpf, hps⟩ := h1 pr e po f heq hme hpo
        rw [hp]
        simp only
        refine go _ ⟨rfl, rfl, fun h => absurd hc.1 (by simp [h]), fun h => absurd hc.2 h, fun _ a' u f' ha' _ hnear hu => ?_, fun a' ha' _ hn => ?_⟩
        · rw [haa] at ha'
          simp only [Option.some.injEq] at ha'
          subst ha'
          obtain ⟨pr', e', po', hr, rfl, hmu, hpo'⟩ := hnear
          have heq' := huniq _ hr
          obtain ⟨p', hp', hpf', hps'⟩ := h1 pr' e' po' f' heq'.symm hu hpo'
          rw [hp] at hp'
          simp only [Option.some.injEq, Except.ok.injEq] at hp'
          subst hp'
          exact ⟨hpf', hps'⟩
        · exfalso
          rw [haa] at ha'
          simp only [Option.some.injEq] at ha'
          subst ha'
          obtain ⟨es', hr, hall⟩ := hn
          have := hall e (by rw [huniq _ hr, heq]; simp)
          rw [hme] at this
          simp at this
    · rw [if_neg hc]
      refine go d ⟨rfl, rfl, fun _ => rfl, fun _ => rfl, fun h a u f h1 h2 => ?_, fun _ _ _ _ => rfl⟩
      exfalso
      apply hc
      simp [h, h1, h2]

theorem tagSecond_ends {objs : List NetObj} {s : String} {n : Network} (hb : build objs s = .ok n) (mp : String → Option String) :
    ∀ (rest done : List TagDev), tagSecond n mp done rest ≠ none := by
  obtain ⟨depth, ha⟩ := arbo_of_build hb
  intro rest
  induction rest with
  | nil => intro done; simp [tagSecond]
  | cons d rest ih =>
    intro done
    unfold tagSecond
    split
    · split
      · simp
      · rename_i a _
        have hne : tagUp n mp (done ++ d :: rest) (n.digraph.length + 1) a ≠ none := by
          by_cases hax : a ∈ diNodes n.digraph
          · obtain ⟨es, hes, _⟩ := C18_route objs s n hb a hax
            have hlen := hes.length_le ha
            exact tagUp_ends ha mp _ hes _ (by omega)
          · unfold tagUp
            rw [if_neg fun h => hax (any_diNodes.1 h)]
            simp
        split
        · rename_i h; exact absurd h hne
        · simp
        · exact ih _
        · exact ih _
    · exact ih _

end Ditto.Net
