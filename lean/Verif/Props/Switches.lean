import Verif.Spec.OpenDevice
import Verif.Props.Network
import Mathlib.Data.List.Pairwise

/-! C19: `remove_open_switches`. -/
namespace Ditto.Net
open Ditto Ditto.Search Ditto.Spec

/-- an edge of a removed object -/
def Hit (o : NetObj) (e : Edge) : Prop := removable o = true ∧ ∃ f t, o.fromEl = some f ∧ o.toEl = some t ∧ e.joins f t

theorem removable_ends {o : NetObj} (h : removable o = true) : ∃ f t, o.fromEl = some f ∧ o.toEl = some t := by
  unfold removable at h
  simp only [Bool.and_eq_true] at h
  obtain ⟨⟨⟨⟨_, hf⟩, ht⟩, _⟩, _⟩ := h
  rw [Option.isSome_iff_exists] at hf ht
  obtain ⟨f, hf⟩ := hf
  obtain ⟨t, ht⟩ := ht
  exact ⟨f, t, hf, ht⟩

theorem removeStep_spec {n n' : Network} {o : NetObj} (h : removeStep n o = .ok n') :
    n'.graph.nodes = n.graph.nodes ∧ (∀ e, e ∈ n'.graph.edges ↔ e ∈ n.graph.edges ∧ ¬ Hit o e) ∧
    (∀ e, e ∈ n'.digraph ↔ e ∈ n.digraph ∧ ¬ Hit o e) ∧
    (removable o = true → ∃ e ∈ n.graph.edges, Hit o e) := by
  unfold removeStep at h
  split at h
  · rename_i hr
    obtain ⟨f, t, hf, ht⟩ := removable_ends hr
    have hhit : ∀ e, Hit o e ↔ e.joins f t := by
      intro e
      constructor
      · rintro ⟨_, f', t', hf', ht', hj⟩
        rw [hf] at hf'; rw [ht] at ht'
        simp only [Option.some.injEq] at hf' ht'
        subst hf'; subst ht'; exact hj
      · intro hj; exact ⟨hr, f, t, hf, ht, hj⟩
    rw [hf, ht] at h
    simp only at h
    split at h
    · rename_i hany
      simp only [Except.ok.injEq] at h
      subst h
      refine ⟨rfl, fun e => ?_, fun e => ?_, fun _ => ?_⟩
      · rw [hhit]; simp [List.mem_filter]
      · rw [hhit]; simp [List.mem_filter]
      · rw [List.any_eq_true] at hany
        obtain ⟨e, he, hj⟩ := hany
        exact ⟨e, he, (hhit e).2 (by simpa using hj)⟩
    · simp at h
  · rename_i hr
    simp only [Except.ok.injEq] at h
    subst h
    have : ∀ e, ¬ Hit o e := fun e hh => hr hh.1
    exact ⟨rfl, fun e => by simp [this e], fun e => by simp [this e], fun h => absurd h hr⟩

theorem removeLoop_spec (objs : List NetObj) : ∀ (n n' : Network), removeOpenSwitches n objs = .ok n' →
    n'.graph.nodes = n.graph.nodes ∧ (∀ e, e ∈ n'.graph.edges ↔ e ∈ n.graph.edges ∧ ¬ ∃ o ∈ objs, Hit o e) ∧
    (∀ e, e ∈ n'.digraph ↔ e ∈ n.digraph ∧ ¬ ∃ o ∈ objs, Hit o e) ∧
    (∀ o ∈ objs, removable o = true → ∃ e ∈ n.graph.edges, Hit o e) := by
  unfold removeOpenSwitches
  induction objs with
  | nil => intro n n' h; have := foldlM_nil_ok h; subst this; simp
  | cons o objs ih =>
    intro n n' h
    obtain ⟨n1, h1, h2⟩ := foldlM_cons_ok h
    obtain ⟨a1, a2, a3, a4⟩ := removeStep_spec h1
    obtain ⟨b1, b2, b3, b4⟩ := ih n1 n' h2
    refine ⟨b1.trans a1, fun e => ?_, fun e => ?_, fun o' ho' hr => ?_⟩
    · rw [b2, a2]
      simp only [List.mem_cons, exists_eq_or_imp, not_or, and_assoc]
    · rw [b3, a3]
      simp only [List.mem_cons, exists_eq_or_imp, not_or, and_assoc]
    · rcases List.mem_cons.1 ho' with rfl | ho'
      · exact a4 hr
      · obtain ⟨e, he, hh⟩ := b4 o' ho' hr
        exact ⟨e, ((a2 e).1 he).1, hh⟩

/-- C19, what it does: exactly the edges between the ends of a line are removed that is a switch, or whose `is_breaker` is not
`None`, and that has wires, none of them closed. Nodes are kept. -/
theorem C19_effect (n n' : Network) (objs : List NetObj) (h : removeOpenSwitches n objs = .ok n') :
    n'.graph.nodes = n.graph.nodes ∧
    (∀ e, e ∈ n'.graph.edges ↔ e ∈ n.graph.edges ∧ ¬ ∃ o ∈ objs, o.isLine = true ∧
      (o.isSwitch = some true ∨ o.isBreaker ≠ none) ∧ o.wires ≠ [] ∧ some false ∉ o.wires ∧ TwoTerminal o e.u e.v) ∧
    ∀ e, e ∈ n'.digraph ↔ e ∈ n.digraph ∧ ¬ ∃ o ∈ objs, o.isLine = true ∧
      (o.isSwitch = some true ∨ o.isBreaker ≠ none) ∧ o.wires ≠ [] ∧ some false ∉ o.wires ∧ TwoTerminal o e.u e.v := by
  obtain ⟨h1, h2, h3, _⟩ := removeLoop_spec objs n n' h
  have key : ∀ (o : NetObj) (e : Edge), Hit o e ↔ o.isLine = true ∧
      (o.isSwitch = some true ∨ o.isBreaker ≠ none) ∧ o.wires ≠ [] ∧ some false ∉ o.wires ∧ TwoTerminal o e.u e.v := by
    intro o e
    unfold Hit removable TwoTerminal Edge.joins
    simp only [Bool.and_eq_true, Bool.or_eq_true, beq_iff_eq, Option.isSome_iff_ne_none, Bool.not_eq_eq_eq_not, Bool.not_true,
      List.isEmpty_eq_false_iff, List.all_eq_true, bne_iff_ne]
    constructor
    · rintro ⟨⟨⟨⟨⟨⟨hl, hs⟩, _⟩, _⟩, hw⟩, hall⟩, f, t, hf, ht, hj⟩
      refine ⟨hl, hs, hw, fun hm => hall _ hm rfl, ?_⟩
      rw [hf, ht]
      rcases hj with ⟨rfl, rfl⟩ | ⟨rfl, rfl⟩ <;> simp
    · rintro ⟨hl, hs, hw, hm, ht⟩
      have hne : o.fromEl ≠ none ∧ o.toEl ≠ none := by
        rcases ht with ⟨a, b⟩ | ⟨a, b⟩ <;> rw [a, b] <;> simp
      refine ⟨⟨⟨⟨⟨⟨hl, hs⟩, hne.1⟩, hne.2⟩, hw⟩, fun w hw' => ?_⟩, ?_⟩
      · rintro rfl; exact hm hw'
      · rcases ht with ⟨a, b⟩ | ⟨a, b⟩
        · exact ⟨_, _, a, b, .inl ⟨rfl, rfl⟩⟩
        · exact ⟨_, _, a, b, .inr ⟨rfl, rfl⟩⟩
  simp only [key] at h2 h3
  exact ⟨h1, h2, h3⟩

/-- C19: it raises (`NetworkXError`) iff two removed objects have the same ends. -/
theorem C19_ok_iff (objs : List NetObj) (s : String) (n : Network) (hn : build objs s = .ok n) :
    (∃ n', removeOpenSwitches n objs = .ok n') ↔
      objs.Pairwise (fun o o' => removable o = true → removable o' = true → ∀ a b, TwoTerminal o a b → ¬ TwoTerminal o' a b) := by
  obtain ⟨t, d, ot, hb, ht, heq, hs, hd⟩ := build_tree hn
  have hadj : ∀ o ∈ objs, removable o = true → ∃ e ∈ n.graph.edges, Hit o e := by
    intro o ho hr
    obtain ⟨f, t, hf, ht⟩ := removable_ends hr
    obtain ⟨e, he, hj⟩ := (hb.adj f t).2 ⟨o, ho, .inl (.inl ⟨hf, ht⟩)⟩
    exact ⟨e, he, hr, f, t, hf, ht, hj⟩
  have hsame : ∀ (o o' : NetObj) (e : Edge), Hit o e → (Hit o' e ↔ removable o' = true ∧ ∃ a b, TwoTerminal o a b ∧ TwoTerminal o' a b) := by
    rintro o o' e ⟨hr, f, t, hf, ht, hj⟩
    constructor
    · rintro ⟨hr', f', t', hf', ht', hj'⟩
      refine ⟨hr', f, t, .inl ⟨hf, ht⟩, ?_⟩
      rcases Edge.joins_same hj hj' with ⟨rfl, rfl⟩ | ⟨rfl, rfl⟩
      · exact .inl ⟨hf', ht'⟩
      · exact .inr ⟨hf', ht'⟩
    · rintro ⟨hr', a, b, h1, h2⟩
      obtain ⟨f', t', hf', ht'⟩ := removable_ends hr'
      refine ⟨hr', f', t', hf', ht', ?_⟩
      have : ∀ x y : String, o.fromEl = some x → x = f := fun x y hx => by rw [hf] at hx; simpa using hx.symm
      unfold TwoTerminal at h1 h2
      rw [hf, ht] at h1
      rw [hf', ht'] at h2
      simp only [Option.some.injEq] at h1 h2
      rcases h1 with ⟨rfl, rfl⟩ | ⟨rfl, rfl⟩ <;> rcases h2 with ⟨rfl, rfl⟩ | ⟨rfl, rfl⟩
      · exact hj
      · exact (e.joins_comm _ _).1 hj
      · exact (e.joins_comm _ _).1 hj
      · exact hj
  clear hn heq hb ht hd hs
  generalize objs = l at hadj
  unfold removeOpenSwitches
  induction l generalizing n with
  | nil => exact ⟨fun _ => .nil, fun _ => ⟨n, rfl⟩⟩
  | cons o l ih =>
    rw [List.pairwise_cons]
    constructor
    · rintro ⟨n', hn'⟩
      obtain ⟨n1, h1, h2⟩ := foldlM_cons_ok hn'
      obtain ⟨a1, a2, a3, a4⟩ := removeStep_spec h1
      obtain ⟨b1, b2, b3, b4⟩ := removeLoop_spec l n1 n' h2
      refine ⟨fun o' ho' hr hr' a b hab hab' => ?_, (ih n1 b4).1 ⟨n', h2⟩⟩
      obtain ⟨e, he, hh⟩ := b4 o' ho' hr'
      have := ((a2 e).1 he).2
      exact this ((hsame o' o e hh).2 ⟨hr, a, b, hab', hab⟩)
    · rintro ⟨h1, h2⟩
      obtain ⟨n1, hn1⟩ : ∃ n1, removeStep n o = .ok n1 := by
        unfold removeStep
        split
        · rename_i hr
          obtain ⟨e, he, _, f, t, hf, ht, hj⟩ := hadj o (by simp) hr
          rw [hf, ht]
          simp only
          rw [if_pos]
          · exact ⟨_, rfl⟩
          · rw [List.any_eq_true]; exact ⟨e, he, by simpa using hj⟩
        · exact ⟨_, rfl⟩
      obtain ⟨a1, a2, a3, a4⟩ := removeStep_spec hn1
      obtain ⟨n', hn'⟩ := (ih n1 (fun o' ho' hr' => by
        obtain ⟨e, he, hh⟩ := hadj o' (by simp [ho']) hr'
        refine ⟨e, (a2 e).2 ⟨he, fun hh' => ?_⟩, hh⟩
        obtain ⟨hr, a, b, hab', hab⟩ := (hsame o' o e hh).1 hh'
        exact h1 o' ho' hr hr' a b hab hab')).2 h2
      exact ⟨n', by rw [List.foldlM_cons, hn1]; exact hn'⟩

/-- C19, on models where `is_breaker` is never `False` for lines that are not switches, `is_open` is set on the wires of the
switches and breakers, and no other object connects the ends of an open one: then it never raises, and what is left are
exactly the connections by the objects that are not open. (Missing: see the violations below.) -/
theorem C19_exact_partial (objs : List NetObj) (s : String) (n : Network) (hn : build objs s = .ok n)
    (hbreaker : ∀ o ∈ objs, o.isLine = true → o.isBreaker = some false → o.isSwitch = some true)
    (hset : ∀ o ∈ objs, o.isLine = true → (o.isSwitch = some true ∨ o.isBreaker = some true) → none ∉ o.wires)
    (hline : ∀ o ∈ objs, o.isLine = true → o.connecting = none)
    (hpar : objs.Pairwise fun o o' => (OpenDevice o ∨ OpenDevice o') → ∀ a b, Joins o a b → ¬ Joins o' a b) :
    ∃ n', removeOpenSwitches n objs = .ok n' ∧
      (∀ a b, n'.graph.Adj a b ↔ Connects (objs.filter fun o => ¬ OpenDevice o) a b) ∧
      ∀ a b, Directed n' a b ↔ Directed n a b ∧ Connects (objs.filter fun o => ¬ OpenDevice o) a b := by
  have hopen : ∀ o ∈ objs, removable o = true ↔ OpenDevice o ∧ ∃ f t, o.fromEl = some f ∧ o.toEl = some t := by
    intro o ho
    constructor
    · intro hr
      obtain ⟨f, t, hf, ht⟩ := removable_ends hr
      refine ⟨?_, f, t, hf, ht⟩
      unfold removable at hr
      simp only [Bool.and_eq_true, Bool.or_eq_true, beq_iff_eq, Option.isSome_iff_ne_none, Bool.not_eq_eq_eq_not, Bool.not_true,
        List.isEmpty_eq_false_iff, List.all_eq_true, bne_iff_ne] at hr
      obtain ⟨⟨⟨⟨⟨hl, hs⟩, _⟩, _⟩, hw⟩, hall⟩ := hr
      have hs' : o.isSwitch = some true ∨ o.isBreaker = some true := by
        rcases hs with hs | hs
        · exact .inl hs
        · cases hbk : o.isBreaker with
          | none => exact absurd hbk hs
          | some b =>
            cases b with
            | true => exact .inr rfl
            | false => exact .inl (hbreaker o ho hl hbk)
      refine ⟨hl, hs', hw, fun w hw' => ?_⟩
      cases hw'' : w with
      | none => exact absurd (hw'' ▸ hw') (hset o ho hl hs')
      | some b =>
        cases b with
        | true => rfl
        | false => exact absurd hw'' (hall w hw')
    · rintro ⟨⟨hl, hs, hw, hall⟩, f, t, hf, ht⟩
      unfold removable
      simp only [Bool.and_eq_true, Bool.or_eq_true, beq_iff_eq, Option.isSome_iff_ne_none, Bool.not_eq_eq_eq_not, Bool.not_true,
        List.isEmpty_eq_false_iff, List.all_eq_true, bne_iff_ne]
      refine ⟨⟨⟨⟨⟨hl, ?_⟩, by rw [hf]; simp⟩, by rw [ht]; simp⟩, hw⟩, fun w hw' => by rw [hall w hw']; simp⟩
      rcases hs with hs | hs
      · exact .inl hs
      · exact .inr (by rw [hs]; simp)
  have htt : ∀ o a b, TwoTerminal o a b → Joins o a b := by
    rintro o a b (⟨h1, h2⟩ | ⟨h1, h2⟩)
    · exact .inl (.inl ⟨h1, h2⟩)
    · exact .inr (.inl ⟨h1, h2⟩)
  obtain ⟨n', hn'⟩ := (C19_ok_iff objs s n hn).2 (by
    refine hpar.imp_of_mem ?_
    intro o o' ho ho' h hr hr' a b hab hab'
    exact h (.inl ((hopen o ho).1 hr).1) a b (htt _ _ _ hab) (htt _ _ _ hab'))
  refine ⟨n', hn', ?_⟩
  obtain ⟨h1, h2, h3, _⟩ := removeLoop_spec objs n n' hn'
  obtain ⟨t, d, ot, hb, ht, heq, hs, hd⟩ := build_tree hn
  -- an edge survives iff an object that is not open connects its ends
  have key : ∀ a b (e : Edge), e.joins a b → Connects objs a b →
      ((¬ ∃ o ∈ objs, Hit o e) ↔ Connects (objs.filter fun o => ¬ OpenDevice o) a b) := by
    intro a b e hj hc
    constructor
    · intro hno
      obtain ⟨o, ho, hd⟩ := hc
      refine ⟨o, List.mem_filter.2 ⟨ho, ?_⟩, hd⟩
      simp only [decide_not, Bool.not_eq_eq_eq_not, Bool.not_true, decide_eq_false_iff_not]
      intro hop
      have hcn := hline o ho hop.1
      have hft : ∃ f t, o.fromEl = some f ∧ o.toEl = some t ∧ e.joins f t := by
        rcases hd with (⟨x, y⟩ | ⟨x, y⟩) | (⟨x, y⟩ | ⟨x, y⟩)
        · exact ⟨_, _, x, y, hj⟩
        · rw [hcn] at x; simp at x
        · exact ⟨_, _, x, y, (e.joins_comm _ _).1 hj⟩
        · rw [hcn] at x; simp at x
      obtain ⟨f, t, hf, ht, hj'⟩ := hft
      exact hno ⟨o, ho, (hopen o ho).2 ⟨hop, f, t, hf, ht⟩, f, t, hf, ht, hj'⟩
    · rintro ⟨o, ho, hd⟩ ⟨o', ho', hr', f, t, hf, ht, hj'⟩
      obtain ⟨ho, hno⟩ := List.mem_filter.1 ho
      simp only [decide_not, Bool.not_eq_eq_eq_not, Bool.not_true, decide_eq_false_iff_not] at hno
      have hop' := ((hopen o' ho').1 hr').1
      have hjo' : Joins o' a b := by
        rcases Edge.joins_same hj hj' with ⟨rfl, rfl⟩ | ⟨rfl, rfl⟩
        · exact .inl (.inl ⟨hf, ht⟩)
        · exact .inr (.inl ⟨hf, ht⟩)
      have hne : o ≠ o' := by rintro rfl; exact hno hop'
      have hsym : ∀ x ∈ objs, ∀ y ∈ objs, x ≠ y → (OpenDevice x ∨ OpenDevice y) → ∀ a b, Joins x a b → ¬ Joins y a b := by
        have : Std.Symm fun o o' : NetObj => (OpenDevice o ∨ OpenDevice o') → ∀ a b, Joins o a b → ¬ Joins o' a b :=
          ⟨fun x y h ho a b hx hy => h ho.symm a b hy hx⟩
        intro x hx y hy hxy
        exact hpar.forall hx hy hxy
      exact hsym o ho o' ho' hne (.inr hop') a b hd hjo'
  refine ⟨fun a b => ?_, fun a b => ?_⟩
  · constructor
    · rintro ⟨e, he, hj⟩
      obtain ⟨he, hno⟩ := (h2 e).1 he
      exact (key a b e hj ((hb.adj a b).1 ⟨e, he, hj⟩)).1 hno
    · intro hc
      have hc' : Connects objs a b := by
        obtain ⟨o, ho, hd⟩ := hc
        exact ⟨o, (List.mem_filter.1 ho).1, hd⟩
      obtain ⟨e, he, hj⟩ := (hb.adj a b).2 hc'
      exact ⟨e, (h2 e).2 ⟨he, (key a b e hj hc').2 hc⟩, hj⟩
  · have hcd : ∀ a b, Directed n a b → Connects objs a b := fun a b h => ((C16_arborescence objs s n hn).1 a b h).1
    constructor
    · rintro ⟨e, he, rfl, rfl⟩
      obtain ⟨he, hno⟩ := (h3 e).1 he
      have hdir : Directed n e.u e.v := ⟨e, he, rfl, rfl⟩
      exact ⟨hdir, (key e.u e.v e (.inl ⟨rfl, rfl⟩) (hcd _ _ hdir)).1 hno⟩
    · rintro ⟨hdir, hc⟩
      have hc' := hcd a b hdir
      obtain ⟨e, he, rfl, rfl⟩ := hdir
      exact ⟨e, (h3 e).2 ⟨he, (key e.u e.v e (.inl ⟨rfl, rfl⟩) hc').2 hc⟩, rfl, rfl⟩

/-- a ring of four buses with an open switch; the breaker of the ring is closed -/
def exSwitches : List NetObj := [
  { cls := "PowerSource", name := some "src", connecting := some "a" },
  { cls := "Line", name := some "l1", fromEl := some "a", toEl := some "b", isLine := true, wires := [none, none] },
  { cls := "Line", name := some "br", fromEl := some "b", toEl := some "c", isLine := true, isBreaker := some true,
    wires := [some true, some false] },
  { cls := "Line", name := some "sw", fromEl := some "c", toEl := some "d", isLine := true, isSwitch := some true,
    wires := [some true, some true] },
  { cls := "Line", name := some "l2", fromEl := some "a", toEl := some "d", isLine := true, isSwitch := some false }]

example : ∃ n n', build exSwitches "src" = .ok n ∧ removeOpenSwitches n exSwitches = .ok n' ∧
    n'.graph.edges.map (fun e => (e.u, e.v)) = [("a", "src"), ("a", "b"), ("b", "c"), ("a", "d")] :=
  ⟨_, _, by rfl, by rfl, by decide +kernel⟩

example : (∀ o ∈ exSwitches, o.isLine = true → o.isBreaker = some false → o.isSwitch = some true) ∧
    (∀ o ∈ exSwitches, o.isLine = true → (o.isSwitch = some true ∨ o.isBreaker = some true) → none ∉ o.wires) ∧
    (∀ o ∈ exSwitches, o.isLine = true → o.connecting = none) ∧
    exSwitches.Pairwise fun o o' => (OpenDevice o ∨ OpenDevice o') → ∀ a b, Joins o a b → ¬ Joins o' a b := by
  refine ⟨by decide, by decide, by decide, ?_⟩
  have h : ∀ o ∈ exSwitches, ∀ o' ∈ exSwitches, o ≠ o' → (OpenDevice o ∨ OpenDevice o') → ∀ a b, Joins o a b → ¬ Joins o' a b := by
    intro o ho o' ho' hne hop a b h1 h2
    simp only [exSwitches, List.mem_cons, List.not_mem_nil, or_false] at ho ho'
    rcases ho with rfl | rfl | rfl | rfl | rfl <;> rcases ho' with rfl | rfl | rfl | rfl | rfl <;>
      simp [Joins, Declares, OpenDevice] at hne hop h1 h2
    all_goals
      first
      | (rcases h1 with ⟨rfl, rfl⟩ | ⟨rfl, rfl⟩ <;> simp at h2)
  exact (by decide : exSwitches.Nodup).imp_of_mem fun hx hy hne => h _ hx _ hy hne

/-- lines between a and b: an ordinary one with `is_breaker = False`, an ordinary one, two open switches -/
def exNoBreaker : NetObj :=
  { cls := "Line", name := some "l1", fromEl := some "a", toEl := some "b", isLine := true, isSwitch := some false,
    isBreaker := some false, wires := [none] }
def exPlain : NetObj := { cls := "Line", name := some "l1", fromEl := some "a", toEl := some "b", isLine := true }
def exOpen1 : NetObj :=
  { cls := "Line", name := some "s1", fromEl := some "a", toEl := some "b", isLine := true, isSwitch := some true,
    wires := [some true] }
def exOpen2 : NetObj :=
  { cls := "Line", name := some "s2", fromEl := some "b", toEl := some "a", isLine := true, isSwitch := some true,
    wires := [some true] }

/-- C19 is violated: a line that is neither a switch nor a breaker is removed if `is_breaker` is `False`, not `None`. -/
theorem C19_flags_violated : ∃ n n', build [exNoBreaker] "a" = .ok n ∧ removeOpenSwitches n [exNoBreaker] = .ok n' ∧
    ¬ OpenDevice exNoBreaker ∧ n.graph.Adj "a" "b" ∧ n'.graph.edges = [] :=
  ⟨_, _, by rfl, by rfl, by decide, ⟨_, List.mem_cons_self, .inl ⟨rfl, rfl⟩⟩, by decide +kernel⟩

/-- C19 is violated: an ordinary line in parallel with an open switch is removed too. -/
theorem C19_parallel_violated : ∃ n n', build [exOpen1, exPlain] "a" = .ok n ∧
    removeOpenSwitches n [exOpen1, exPlain] = .ok n' ∧
    ¬ OpenDevice exPlain ∧ TwoTerminal exPlain "a" "b" ∧ n.graph.Adj "a" "b" ∧ n'.graph.edges = [] :=
  ⟨_, _, by rfl, by rfl, by decide, .inl ⟨rfl, rfl⟩, ⟨_, List.mem_cons_self, .inl ⟨rfl, rfl⟩⟩, by decide +kernel⟩

/-- C19 is violated: two open switches in parallel raise `NetworkXError`. -/
theorem C19_two_violated : ∃ n, build [exOpen1, exOpen2] "a" = .ok n ∧
    removeOpenSwitches n [exOpen1, exOpen2] = .error .networkXError := ⟨_, by rfl, by decide +kernel⟩

end Ditto.Net
