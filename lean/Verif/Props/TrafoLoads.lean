import Verif.Model.TrafoLoads
import Verif.Spec.TrafoLoads
import Verif.Lemmas.CenterTap

/-! C38: `get_transformer_load_mapping`. -/
namespace Ditto.Net
open Ditto

/-- what the walk finds in terms of that of `center_tap_load_preprocessing` -/
def ofTap : Py (Option String × List (Option String)) → Option (Option String)
  | .error _ => none
  | .ok (t, _) => some t

theorem mapWalk_eq (n : Network) (k : Nat) : ∀ x acc, mapWalk n k x = (tapWalk n k x acc).map ofTap := by
  induction k with
  | zero => intro x acc; rfl
  | succ k ih =>
    intro x acc
    unfold mapWalk tapWalk
    cases n.digraph.find? (fun e => e.v = x) with
    | none => rfl
    | some e =>
      simp only
      cases n.graph.equipOf e.u e.v with
      | none => exact ih _ _
      | some q =>
        obtain ⟨ty, nm⟩ := q
        simp only
        split
        · rfl
        · split <;> exact ih _ _

theorem mapUp_eq (n : Network) (o : NetObj) : mapUp n o = (tapUp n o.connecting).map ofTap := by
  unfold mapUp tapUp
  cases o.connecting with
  | none => rfl
  | some x =>
    simp only
    split
    · exact mapWalk_eq _ _ _ _
    · rfl

theorem feeds_above {n : Network} {s : String} {t : Option String} {o : NetObj} : FeedsLoad n s t o ↔
    ∃ x es lines, o.connecting = some x ∧ Route n.digraph s es x ∧ AboveOn n es t lines := by
  constructor
  · rintro ⟨x, es, pre, e, post, h1, h2, h3, h4, h5⟩
    exact ⟨x, es, _, h1, h2, pre, e, post, h3, h4, h5, rfl⟩
  · rintro ⟨x, es, lines, h1, h2, pre, e, post, h3, h4, h5, _⟩
    exact ⟨x, es, pre, e, post, h1, h2, h3, h4, h5⟩

/-- the walk finds the transformer that feeds the load -/
theorem mapUp_spec {objs : List NetObj} {s : String} {n : Network} (hb : build objs s = .ok n) (o : NetObj) :
    ∃ r, mapUp n o = some r ∧ ∀ t, r = some t ↔ FeedsLoad n s t o := by
  rw [mapUp_eq]
  have hne := tapUp_ends hb o.connecting
  cases hu : tapUp n o.connecting with
  | none => exact absurd hu hne
  | some p =>
    refine ⟨ofTap p, rfl, fun t => ?_⟩
    rw [feeds_above]
    constructor
    · intro h
      cases p with
      | error e => simp [ofTap] at h
      | ok q =>
        obtain ⟨t', lines⟩ := q
        simp only [ofTap, Option.some.injEq] at h
        subst h
        obtain ⟨x, es, h1, h2, h3⟩ := tapUp_ok hb hu
        exact ⟨x, es, lines, h1, h2, h3⟩
    · rintro ⟨x, es, lines, h1, h2, h3⟩
      have hx : x ∈ diNodes n.digraph := by
        obtain ⟨pre, e, post, rfl, _⟩ := h3
        generalize hl : pre ++ e :: post = l at h2
        cases h2 with
        | nil => simp at hl
        | snoc h1 h2 h3 => unfold diNodes; exact List.mem_flatMap.2 ⟨_, h2, by simp⟩
      have := (tapUp_route hb hx h2).1 t lines h3
      rw [← h1, hu] at this
      simp only [Option.some.injEq] at this
      subst this
      rfl

/-- the entries of the dictionary `m`: `F t` for the transformers `t` where this is not empty -/
def IsDict (m : TrafoDict) (F : Option String → List (Option String)) : Prop :=
  (m.map (·.1)).Nodup ∧ ∀ t l, (t, l) ∈ m ↔ l ≠ [] ∧ l = F t

theorem addMapped_dict {m : TrafoDict} {F : Option String → List (Option String)} (h : IsDict m F) (t nm : Option String) :
    IsDict (addMapped m t nm) fun t' => if t' = t then F t' ++ [nm] else F t' := by
  obtain ⟨h1, h2⟩ := h
  unfold addMapped
  split
  · rename_i hm
    refine ⟨?_, fun t' l => ?_⟩
    · rw [List.map_map]
      have : (Prod.fst ∘ fun p : Option String × List (Option String) => if p.1 = t then (p.1, p.2 ++ [nm]) else p) = Prod.fst := by
        funext p; simp only [Function.comp_apply]; split <;> rfl
      rw [this]; exact h1
    · obtain ⟨⟨t0, l0⟩, hp, rfl⟩ := List.mem_map.1 hm
      have h0 := (h2 _ _).1 hp
      rw [List.mem_map]
      by_cases ht : t' = t0
      · subst ht
        simp only [if_true]
        constructor
        · rintro ⟨⟨t1, l1⟩, hp1, he⟩
          have h1' := (h2 _ _).1 hp1
          simp only at he
          split at he
          · rename_i htt
            subst htt
            simp only [Prod.mk.injEq, true_and] at he
            rw [← he, h1'.2]; simp
          · rename_i htt
            simp only [Prod.mk.injEq] at he
            exact absurd he.1 htt
        · rintro ⟨_, rfl⟩
          exact ⟨(t', l0), hp, by simp [h0.2]⟩
      · simp only [if_neg ht]
        rw [← h2]
        constructor
        · rintro ⟨⟨t1, l1⟩, hp1, he⟩
          simp only at he
          split at he
          · rename_i htt
            simp only [Prod.mk.injEq] at he
            exact absurd (he.1.symm.trans htt) ht
          · rw [← he]; exact hp1
        · intro hp1
          exact ⟨(t', l), hp1, by simp [ht]⟩
  · rename_i hm
    have hF : F t = [] := by
      by_contra hne
      exact hm (List.mem_map.2 ⟨(t, F t), (h2 _ _).2 ⟨hne, rfl⟩, rfl⟩)
    refine ⟨?_, fun t' l => ?_⟩
    · rw [List.map_append]
      simp only [List.map_cons, List.map_nil]
      rw [List.nodup_append]
      exact ⟨h1, by simp, fun a ha b hb => by simp only [List.mem_singleton] at hb; subst hb; rintro rfl; exact hm ha⟩
    · rw [List.mem_append, h2]
      simp only [List.mem_singleton, Prod.mk.injEq]
      by_cases ht : t' = t
      · subst ht
        simp only [if_true, true_and, hF, List.nil_append]
        constructor
        · rintro (⟨h, h'⟩ | rfl)
          · exact absurd h' h
          · simp
        · rintro ⟨_, rfl⟩; exact .inr rfl
      · simp [ht]

open Classical in
theorem mapLoads_spec {objs : List NetObj} {s : String} {n : Network} (hb : build objs s = .ok n) (os : List NetObj) :
    ∀ {m : TrafoDict} {F : Option String → List (Option String)}, IsDict m F → ∃ m', mapLoads n os m = some m' ∧
      IsDict m' fun t => F t ++ (os.filter fun o => FeedsLoad n s t o).map (·.name) := by
  induction os with
  | nil => intro m F h; exact ⟨m, rfl, by simpa using h⟩
  | cons o os ih =>
    intro m F h
    obtain ⟨r, hr, hspec⟩ := mapUp_spec hb o
    unfold mapLoads
    rw [hr]
    cases r with
    | none =>
      simp only
      obtain ⟨m', h1, h2⟩ := ih h
      refine ⟨m', h1, ?_⟩
      have hno : ∀ t, ¬ FeedsLoad n s t o := fun t ht => by simpa using (hspec t).2 ht
      convert h2 using 3 with t
      rw [List.filter_cons_of_neg (by simpa using hno t)]
    | some t0 =>
      simp only
      obtain ⟨m', h1, h2⟩ := ih (addMapped_dict h t0 o.name)
      refine ⟨m', h1, ?_⟩
      convert h2 using 2 with t
      by_cases ht : t = t0
      · subst ht
        rw [List.filter_cons_of_pos (by simpa using (hspec t).1 rfl)]
        simp
      · rw [List.filter_cons_of_neg, if_neg ht]
        simp only [decide_eq_true_eq]
        intro hf
        have := (hspec t).2 hf
        simp only [Option.some.injEq] at this
        exact ht this.symm

open Classical in
/-- C38: the mapping is always found. It has one entry for every transformer that feeds a load without another transformer in between: the
names of these loads in the order of the model. -/
theorem C38_mapping (objs : List NetObj) (s : String) (n : Network) (hb : build objs s = .ok n) : ∃ m, trafoLoads n objs = some m ∧
    (m.map (·.1)).Nodup ∧
    ∀ t l, (t, l) ∈ m ↔ l ≠ [] ∧ l = (objs.filter fun o => o.cls = "Load" ∧ FeedsLoad n s t o).map (·.name) := by
  obtain ⟨m, h1, h2, h3⟩ := mapLoads_spec hb (objs.filter fun o => o.cls = "Load") (m := []) (F := fun _ => []) ⟨by simp, by simp⟩
  refine ⟨m, h1, h2, fun t l => ?_⟩
  rw [h3]
  simp only [List.nil_append, List.filter_filter]
  have : ∀ o : NetObj, (decide (FeedsLoad n s t o) && decide (o.cls = "Load")) = decide (o.cls = "Load" ∧ FeedsLoad n s t o) := by
    intro o; rw [Bool.and_comm, Bool.decide_and]
  simp only [this]

/-- C38: no load is below two transformers. -/
theorem C38_unique (objs : List NetObj) (s : String) (n : Network) (hb : build objs s = .ok n) (o : NetObj) (t t' : Option String)
    (h : FeedsLoad n s t o) (h' : FeedsLoad n s t' o) : t = t' := by
  obtain ⟨r, _, hr⟩ := mapUp_spec hb o
  have h1 := (hr t).2 h
  have h2 := (hr t').2 h'
  rw [h1] at h2
  simpa using h2

/-! ### Examples -/

/-- line from `src` to `a`, transformers from `a` to `b` and from `b` to `c`, with loads at all nodes and one at an unknown node -/
def exMapped : List NetObj :=
  [{ cls := "Line", name := some "l1", fromEl := some "src", toEl := some "a", isLine := true },
   { cls := "PowerTransformer", name := some "t1", fromEl := some "a", toEl := some "b" },
   { cls := "PowerTransformer", name := some "t2", fromEl := some "b", toEl := some "c" },
   { cls := "Line", name := some "l2", fromEl := some "b", toEl := some "d", isLine := true },
   { cls := "Load", name := some "x", connecting := some "d" },
   { cls := "Load", name := some "y", connecting := some "c" },
   { cls := "Load", name := some "z", connecting := some "b" },
   { cls := "Capacitor", name := some "cap", connecting := some "b" },
   { cls := "Load", name := some "w", connecting := some "a" }]

example : (match build exMapped "src" with
    | .error _ => none
    | .ok n => trafoLoads n exMapped) = some [(some "t1", [some "x", some "z"]), (some "t2", [some "y"])] := by decide +kernel

end Ditto.Net
