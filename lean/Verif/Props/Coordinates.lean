import Verif.Lemmas.Coordinates
import Verif.Lemmas.Fold
import Verif.Spec.Walk
import Mathlib.Tactic.Linarith
import Mathlib.Tactic.FieldSimp
import Mathlib.Algebra.Order.BigOperators.Group.List

/-! C31: `set_missing_coords_recur`. -/
namespace Ditto.Net
open Ditto Ditto.Spec

/-- a node of the network whose object has no coordinates -/
def Missing (g : Graph) (o : CoordObj) : Prop :=
  o.hasPositions = true ∧ o.unset = true ∧ ∃ x ∈ g.nodes, o.name = some x

/-- The fill terminates on every network, with a result or an exception: after more rounds than there are nodes without coordinates
it has ended. -/
theorem C31_terminates (g : Graph) (objs : List CoordObj) :
    ∃ r, ∀ rounds, (recurNodes g objs).length < rounds → fillCoords g rounds objs = some r :=
  fillLoop_terminates g _ _ _ (Nat.lt_succ_self _)

theorem filled_initial {g : Graph} {objs : List CoordObj} (h : Placed g objs) :
    Filled g objs (fun _ => none) (recurNodes g objs) :=
  ⟨by simp, by simp, recurNodes_nodup h.names, by simp, by simp⟩

theorem place_initial (objs : List CoordObj) : objs.map (place fun _ => none) = objs := by
  conv_rhs => rw [← List.map_id objs]
  apply List.map_congr_left
  intro o _
  unfold place
  cases o.name <;> rfl

/-- The outcome of the fill, given by the values of the filled nodes -/
theorem fill_result {g : Graph} {objs : List CoordObj} (h : Placed g objs) :
    ∃ F is, (∀ rounds, (recurNodes g objs).length < rounds → fillCoords g rounds objs = some (.ok (objs.map (place F)))) ∧
      Filled g objs F is ∧ ∀ i ∈ is, ∀ y ∈ g.neighbors i, ¬ ∃ q, At (objs.map (place F)) y q := by
  obtain ⟨F, is, h1, h2, h3⟩ := fillLoop_spec h _ _ _ (filled_initial h) (Nat.lt_succ_self _)
  refine ⟨F, is, fun rounds hr => ?_, h2, h3⟩
  obtain ⟨r, hr'⟩ := C31_terminates g objs
  rw [place_initial] at h1
  have h1' : fillCoords g ((recurNodes g objs).length.succ) objs = _ := h1
  rw [hr' _ (Nat.lt_succ_self _)] at h1'
  rw [hr' rounds hr, h1']

/-- What the fill does: objects that have coordinates or are not in the network keep everything. A node without coordinates keeps
everything if at the end none of its neighbours is located; otherwise it gets the average of some of its neighbours, among them all
those located at the beginning, with the coordinates these have at the end. -/
theorem C31_effect (g : Graph) (objs : List CoordObj) (h : Placed g objs) :
    ∃ objs', (∀ rounds, (recurNodes g objs).length < rounds → fillCoords g rounds objs = some (.ok objs')) ∧
      List.Forall₂ (fun o o' =>
        (¬ Missing g o ∧ o' = o) ∨
        (Missing g o ∧ o' = o ∧ ∀ x y, o.name = some x → g.Adj x y → ¬ ∃ q, At objs' y q) ∨
        (Missing g o ∧ ∃ x S ps p, o.name = some x ∧ S.Sublist (g.neighbors x) ∧ (∀ y, g.Adj x y → (∃ q, At objs y q) → y ∈ S) ∧
          List.Forall₂ (At objs') S ps ∧ IsAverage p ps ∧ o' = { o with positions := some [(some p.1, some p.2)] })) objs objs' := by
  obtain ⟨F, is, h1, h2, h3⟩ := fill_result h
  refine ⟨_, h1, ?_⟩
  rw [List.forall₂_map_right_iff]
  refine List.forall₂_same.2 fun o ho => ?_
  by_cases hm : Missing g o
  · right
    obtain ⟨hp, hu, x, hx, hn⟩ := id hm
    have hr : x ∈ recurNodes g objs := mem_recurNodes.2 ⟨o, ho, hn, hx, hp, hu⟩
    cases hF : F x with
    | none =>
      left
      refine ⟨hm, place_none hn hF, ?_⟩
      intro x' y hx' hy
      rw [hn, Option.some.injEq] at hx'
      subst hx'
      exact h3 x ((h2.pending x).2 ⟨hr, hF⟩) y (mem_neighbors.2 hy)
    | some p =>
      right
      obtain ⟨S, ps, a1, a2, a3, a4⟩ := h2.average x p hF
      refine ⟨hm, x, S, ps, p, hn, a1, fun y hy => a2 y (mem_neighbors.2 hy), a3, a4, ?_⟩
      rw [place_some hn hF, ← hp]
  · left
    refine ⟨hm, ?_⟩
    cases hn : o.name with
    | none => unfold place; simp [hn]
    | some x =>
      cases hF : F x with
      | none => exact place_none hn hF
      | some p =>
        exfalso
        obtain ⟨o', ho', hn', hx, hp, hu⟩ := mem_recurNodes.1 (h2.done x p hF).1
        obtain rfl := inj_name h.names ho' ho hn' hn
        exact hm ⟨hp, hu, x, hx, hn'⟩

/-! ### Boxes -/

/-- the point is in the box -/
def InBox (lo hi p : ℚ × ℚ) : Prop := lo.1 ≤ p.1 ∧ p.1 ≤ hi.1 ∧ lo.2 ≤ p.2 ∧ p.2 ≤ hi.2

theorem average_bounds (lo hi : ℚ) (qs : List ℚ) (hne : qs ≠ []) (h : ∀ q ∈ qs, lo ≤ q ∧ q ≤ hi) :
    lo ≤ qs.sum / qs.length ∧ qs.sum / qs.length ≤ hi := by
  have hpos : (0 : ℚ) < qs.length := by
    have : 0 < qs.length := List.length_pos_iff.2 hne
    exact_mod_cast this
  have key : lo * qs.length ≤ qs.sum ∧ qs.sum ≤ hi * qs.length := by
    clear hne hpos
    induction qs with
    | nil => simp
    | cons q qs ih =>
      obtain ⟨h1, h2⟩ := ih fun x hx => h x (by simp [hx])
      obtain ⟨h3, h4⟩ := h q (by simp)
      simp only [List.sum_cons, List.length_cons, Nat.cast_add, Nat.cast_one, mul_add, mul_one]
      constructor <;> linarith
  exact ⟨(le_div_iff₀ hpos).2 key.1, (div_le_iff₀ hpos).2 key.2⟩

theorem inBox_convex (lo hi : ℚ × ℚ) : Convex (InBox lo hi) := by
  rintro p ps ⟨hne, h1, h2⟩ h
  have e1 := average_bounds lo.1 hi.1 (ps.map (·.1)) (by simpa using hne) (by
    intro q hq
    obtain ⟨r, hr, rfl⟩ := List.mem_map.1 hq
    exact ⟨(h r hr).1, (h r hr).2.1⟩)
  have e2 := average_bounds lo.2 hi.2 (ps.map (·.2)) (by simpa using hne) (by
    intro q hq
    obtain ⟨r, hr, rfl⟩ := List.mem_map.1 hq
    exact ⟨(h r hr).2.2.1, (h r hr).2.2.2⟩)
  rw [List.length_map] at e1 e2
  rw [← h1] at e1
  rw [← h2] at e2
  exact ⟨e1.1, e1.2, e2.1, e2.2⟩

/-- Filled nodes lie in every box that contains the nodes located at the beginning. -/
theorem C31_box (g : Graph) (objs : List CoordObj) (h : Placed g objs) (lo hi : ℚ × ℚ)
    (hbox : ∀ x p, At objs x p → InBox lo hi p) :
    ∃ objs', (∀ rounds, (recurNodes g objs).length < rounds → fillCoords g rounds objs = some (.ok objs')) ∧
      ∀ x p, At objs' x p → InBox lo hi p := by
  obtain ⟨F, is, h1, h2, h3⟩ := fill_result h
  refine ⟨_, h1, ?_⟩
  rintro x p ⟨o1, ho1, hn, hl⟩
  obtain ⟨o, ho, rfl⟩ := List.mem_map.1 ho1
  rw [place_name] at hn
  cases hF : F x with
  | none => rw [place_none hn hF] at hl; exact hbox x p ⟨o, ho, hn, hl⟩
  | some q =>
    rw [place_some hn hF] at hl
    obtain ⟨_, rest, hps, _⟩ := hl
    simp only [Option.some.injEq, List.cons.injEq, Prod.mk.injEq] at hps
    have : q = p := Prod.ext hps.1.1 hps.1.2
    subst this
    exact h2.convex _ (inBox_convex lo hi) hbox x q hF

/-- If the nodes located at the beginning lie in a box that meets neither the equator nor the zero meridian, then every node of the
network that is connected with one of them is located at the end. -/
theorem C31_all_partial (g : Graph) (objs : List CoordObj) (h : Placed g objs) (hcl : ∀ a b, g.Adj a b → a ∈ g.nodes)
    (lo hi : ℚ × ℚ) (h1 : 0 < lo.1 ∨ hi.1 < 0) (h2 : 0 < lo.2 ∨ hi.2 < 0) (hbox : ∀ x p, At objs x p → InBox lo hi p) :
    ∃ objs', (∀ rounds, (recurNodes g objs).length < rounds → fillCoords g rounds objs = some (.ok objs')) ∧
      ∀ x p y, At objs x p → Reach g.Adj x y → ∃ q, At objs' y q ∧ InBox lo hi q := by
  obtain ⟨F, is, g1, g2, g3⟩ := fill_result h
  obtain ⟨objs', g1', hb⟩ := C31_box g objs h lo hi hbox
  have heq : objs' = objs.map (place F) := by
    have a := g1 _ (Nat.lt_succ_self _)
    rw [g1' _ (Nat.lt_succ_self _)] at a
    simpa using a
  subst heq
  refine ⟨_, g1, ?_⟩
  intro x p y hx hr
  suffices hs : ∃ q, At (objs.map (place F)) y q by
    obtain ⟨q, hq⟩ := hs
    exact ⟨q, hq, hb y q hq⟩
  induction hr with
  | refl => exact ⟨p, at_initial h g2 hx⟩
  | @tail y z _ hyz ih =>
    obtain ⟨q, hq⟩ := ih
    have hzy := hyz.symm
    obtain ⟨o, ho, hn, hp⟩ := h.nodes z ⟨y, hzy⟩
    cases hF : F z with
    | some r =>
      have hin : InBox lo hi r := g2.convex _ (inBox_convex lo hi) hbox z r hF
      refine ⟨r, place F o, List.mem_map_of_mem ho, by rw [place_name]; exact hn, ?_⟩
      rw [place_some hn hF]
      obtain ⟨b1, b2, b3, b4⟩ := hin
      refine ⟨rfl, [], rfl, ?_, ?_⟩
      · rintro h0; rw [h0] at b1 b2; rcases h1 with h1 | h1 <;> linarith
      · rintro h0; rw [h0] at b3 b4; rcases h2 with h2 | h2 <;> linarith
    | none =>
      cases hu : o.unset with
      | false =>
        obtain ⟨r, hr⟩ := (unset_iff h ho hp).1 hu
        exact ⟨r, at_initial h g2 ⟨o, ho, hn, hr⟩⟩
      | true =>
        exfalso
        have hz : z ∈ recurNodes g objs := mem_recurNodes.2 ⟨o, ho, hn, hcl z y hzy, hp, hu⟩
        exact g3 z ((g2.pending z).2 ⟨hz, hF⟩) y (mem_neighbors.2 hzy) ⟨q, hq⟩

/-! ### Cases -/

def exPathGraph : Graph := ⟨["a", "b", "c", "d"], [⟨"a", "b", none, none⟩, ⟨"b", "c", none, none⟩, ⟨"c", "d", none, none⟩]⟩

def exCoords (p q : ℚ × ℚ) : List CoordObj := [
  ⟨some "a", true, some [(some p.1, some p.2)]⟩, ⟨some "b", true, some []⟩, ⟨some "c", true, none⟩,
  ⟨some "d", true, some [(some q.1, some q.2)]⟩]

theorem exCoords_placed (p q : ℚ × ℚ) : Placed exPathGraph (exCoords p q) where
  names := by simp [exCoords]
  nodes := by
    rintro x ⟨y, e, he, hj⟩
    have : x ∈ ["a", "b", "c", "d"] := by
      unfold Edge.joins at hj
      simp only [exPathGraph, List.mem_cons, List.not_mem_nil, or_false] at he
      rcases he with rfl | rfl | rfl <;> rcases hj with ⟨rfl, _⟩ | ⟨_, rfl⟩ <;> simp
    simp only [List.mem_cons, List.not_mem_nil, or_false] at this
    rcases this with rfl | rfl | rfl | rfl <;> simp [exCoords]
  numbers := by
    intro o ho ps p' hps hm
    simp only [exCoords, List.mem_cons, List.not_mem_nil, or_false] at ho
    rcases ho with rfl | rfl | rfl | rfl <;> simp only [Option.some.injEq, reduceCtorEq] at hps <;> subst hps <;>
      simp only [List.mem_singleton, List.not_mem_nil] at hm <;> subst hm <;> simp

example : Placed exPathGraph (exCoords (1, 2) (3, 4)) ∧ (recurNodes exPathGraph (exCoords (1, 2) (3, 4))).length = 2 ∧
    fillCoords exPathGraph 3 (exCoords (1, 2) (3, 4)) = some (.ok [
      ⟨some "a", true, some [(some 1, some 2)]⟩, ⟨some "b", true, some [(some 1, some 2)]⟩,
      ⟨some "c", true, some [(some 2, some 3)]⟩, ⟨some "d", true, some [(some 3, some 4)]⟩]) :=
  ⟨exCoords_placed _ _, by decide +kernel, by decide +kernel⟩

/-- a star with four nodes -/
def exStar : Graph := ⟨["a", "b", "c", "d"], [⟨"a", "b", none, none⟩, ⟨"c", "b", none, none⟩, ⟨"b", "d", none, none⟩]⟩

def exEquator : List CoordObj := [
  ⟨some "a", true, some [(some 1, some 2)]⟩, ⟨some "b", true, some []⟩, ⟨some "c", true, some [(some (-1), some 2)]⟩,
  ⟨some "d", true, some []⟩]

/-- The property is violated at the equator: the average 0 counts as no coordinate, so that the node behind it gets none. -/
theorem C31_equator_violated : fillCoords exStar 3 exEquator = some (.ok [
    ⟨some "a", true, some [(some 1, some 2)]⟩, ⟨some "b", true, some [(some 0, some 2)]⟩,
    ⟨some "c", true, some [(some (-1), some 2)]⟩, ⟨some "d", true, some []⟩]) := by decide +kernel

/-- The property is violated if names are shared: the located node is overwritten, since another object has its name. -/
theorem C31_names_violated : fillCoords exPathGraph 2 [⟨some "a", true, none⟩, ⟨some "a", true, some [(some 5, some 5)]⟩,
      ⟨some "b", true, some [(some 1, some 1)]⟩] = some (.ok
    [⟨some "a", true, none⟩, ⟨some "a", true, some [(some 1, some 1)]⟩, ⟨some "b", true, some [(some 1, some 1)]⟩]) := by
  decide +kernel

end Ditto.Net
