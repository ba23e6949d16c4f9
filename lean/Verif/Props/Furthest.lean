import Verif.Spec.Furthest
import Mathlib.Tactic.Linarith

/-! C131: the node that is furthest from the source. -/
namespace Ditto.Furthest
open Ditto Ditto.Furthest.Spec

theorem foldl_max_spec (ds : List ℚ) (d : ℚ) : (ds.foldl max d ∈ d :: ds) ∧ ∀ y ∈ d :: ds, y ≤ ds.foldl max d := by
  induction ds generalizing d with
  | nil => simp
  | cons a ds ih =>
    obtain ⟨h1, h2⟩ := ih (max d a)
    rw [List.foldl_cons]
    constructor
    · rcases List.mem_cons.1 h1 with h | h
      · rw [h]
        rcases max_choice d a with h' | h' <;> rw [h'] <;> simp
      · exact .tail _ (.tail _ h)
    · intro y hy
      rcases List.mem_cons.1 hy with rfl | hy
      · exact le_trans (le_max_left _ _) (h2 _ (.head _))
      · rcases List.mem_cons.1 hy with rfl | hy
        · exact le_trans (le_max_right _ _) (h2 _ (.head _))
        · exact h2 y (.tail _ hy)

theorem maxMiles_eq {ds : List ℚ} {m : ℚ} (hm : m ∈ ds) (h : ∀ y ∈ ds, y ≤ m) : maxMiles ds = .ok (m * (621371 / 1000000000)) := by
  cases ds with
  | nil => cases hm
  | cons d ds =>
    obtain ⟨h1, h2⟩ := foldl_max_spec ds d
    unfold maxMiles
    dsimp only
    rw [le_antisymm (h _ h1) (h2 m hm)]

theorem distances_eq {dist : String → Option ℚ} {d : String → ℚ} {xs : List String} (h : ∀ x ∈ xs, dist x = some (d x)) :
    distances dist xs = .ok (xs.map d) := by
  induction xs with
  | nil => rfl
  | cons x xs ih =>
    unfold distances
    rw [h x (.head _), ih fun y hy => h y (.tail _ hy)]
    rfl

/-- C131: if all nodes are connected with the source, the result is the largest distance in miles, on any network. -/
theorem C131_largest (nodes : List String) (dist : String → Option ℚ) (d : String → ℚ) (h : ∀ x ∈ nodes, dist x = some (d x)) (hne : nodes ≠ []) :
    ∃ m, furthest nodes dist = .ok m ∧ LargestMiles nodes d m := by
  unfold furthest
  rw [distances_eq h]
  cases nodes with
  | nil => exact absurd rfl hne
  | cons x xs =>
    obtain ⟨h1, h2⟩ := foldl_max_spec (xs.map d) (d x)
    rw [← List.map_cons] at h1 h2
    obtain ⟨y, hy, hyd⟩ := List.mem_map.1 h1
    refine ⟨_, rfl, y, hy, by rw [hyd], fun z hz => ?_⟩
    rw [hyd]
    exact h2 _ (List.mem_map_of_mem hz)

/-- a largest element for distance and then depth -/
theorem exists_last (d : String → ℚ) (depth : String → Nat) (l : List String) (hl : l ≠ []) :
    ∃ x ∈ l, ∀ y ∈ l, d y < d x ∨ (d y = d x ∧ depth y ≤ depth x) := by
  induction l with
  | nil => exact absurd rfl hl
  | cons a l ih =>
    by_cases h : l = []
    · subst h
      exact ⟨a, by simp, by simp⟩
    · obtain ⟨x, hx, hm⟩ := ih h
      by_cases hc : d a < d x ∨ (d a = d x ∧ depth a ≤ depth x)
      · refine ⟨x, .tail _ hx, fun y hy => ?_⟩
        rcases List.mem_cons.1 hy with rfl | hy
        · exact hc
        · exact hm y hy
      · refine ⟨a, .head _, fun y hy => ?_⟩
        rcases List.mem_cons.1 hy with rfl | hy
        · exact .inr ⟨rfl, le_refl _⟩
        · have := hm y hy
          grind

theorem degree_one {edges : List LenEdge} (hn : edges.Nodup) {x : String} {e : LenEdge} (he : e ∈ edges) (hx : e.u = x ∨ e.v = x)
    (hu : ∀ e' ∈ edges, e'.u = x ∨ e'.v = x → e' = e) : degree edges x = 1 := by
  have hnd : (edges.filter fun e => decide (e.u = x ∨ e.v = x)).Nodup := hn.filter _
  have hmem : ∀ e', e' ∈ edges.filter (fun e => decide (e.u = x ∨ e.v = x)) → e' = e := by
    intro e' h
    rw [List.mem_filter, decide_eq_true_iff] at h
    exact hu e' h.1 h.2
  have hin : e ∈ edges.filter (fun e => decide (e.u = x ∨ e.v = x)) := by
    rw [List.mem_filter, decide_eq_true_iff]; exact ⟨he, hx⟩
  unfold degree
  generalize edges.filter (fun e => decide (e.u = x ∨ e.v = x)) = l at hnd hmem hin
  match l, hnd, hmem, hin with
  | [], _, _, h => cases h
  | [_], _, _, _ => rfl
  | a :: b :: l, hnd, hmem, _ =>
    have h1 := hmem a (by simp)
    have h2 := hmem b (by simp)
    rw [h1, h2] at hnd
    simp at hnd

/-- C131: in a tree with lengths that are not negative and an edge at the source, the clever way gives the same as the other one. -/
theorem C131_clever_partial (nodes : List String) (edges : List LenEdge) (s : String) (depth : String → Nat) (dist : String → Option ℚ) (d : String → ℚ)
    (ht : Tree nodes edges s depth) (hd : Distances nodes edges s depth d) (hl : ∀ e ∈ edges, 0 ≤ e.length) (hs : ∃ e ∈ edges, e.u = s ∨ e.v = s)
    (h : ∀ x ∈ nodes, dist x = some (d x)) : furthestClever nodes edges dist = furthest nodes dist := by
  obtain ⟨x, hx, hm⟩ := exists_last d depth nodes (List.ne_nil_of_mem ht.root)
  -- nothing is below x
  have hlow : ∀ e ∈ edges, ∀ y, Joins e x y → depth y < depth x := by
    intro e he y hj
    obtain ⟨h1, h2, h3⟩ := ht.ends e he
    have hy : y ∈ nodes := by rcases hj with ⟨_, rfl⟩ | ⟨rfl, _⟩ <;> assumption
    have hne : depth y ≠ depth x := by
      rcases hj with ⟨rfl, rfl⟩ | ⟨rfl, rfl⟩
      · exact h3.symm
      · exact h3
    by_contra hc
    have hlt : depth x < depth y := by omega
    have := hd.step e he x y hj hlt
    have := hl e he
    rcases hm y hy with h' | ⟨_, h'⟩
    · linarith
    · omega
  have hat : ∀ e, e.u = x ∨ e.v = x → ∃ y, Joins e x y := by
    rintro e (h' | h')
    · exact ⟨e.v, .inl ⟨h', rfl⟩⟩
    · exact ⟨e.u, .inr ⟨rfl, h'⟩⟩
  have hedge : ∃ e ∈ edges, e.u = x ∨ e.v = x := by
    by_cases hxs : x = s
    · rw [hxs]; exact hs
    · obtain ⟨e, he, y, hj, _⟩ := ht.up x hx hxs
      refine ⟨e, he, ?_⟩
      rcases hj with ⟨h', _⟩ | ⟨_, h'⟩
      · exact .inl h'
      · exact .inr h'
  obtain ⟨e, he, hex⟩ := hedge
  have hdeg : degree edges x = 1 := by
    refine degree_one ht.nodup he hex fun e' he' hex' => ?_
    obtain ⟨y, hj⟩ := hat e hex
    obtain ⟨y', hj'⟩ := hat e' hex'
    exact ht.unique e' he' e he x y' y hj' hj (hlow e' he' y' hj') (hlow e he y hj)
  have hle : ∀ y ∈ nodes, d y ≤ d x := fun y hy => (hm y hy).elim le_of_lt fun h' => le_of_eq h'.1
  unfold furthestClever furthest
  rw [distances_eq h, distances_eq fun y hy => h y (List.mem_filter.1 hy).1]
  dsimp only
  rw [maxMiles_eq (m := d x) (List.mem_map_of_mem hx), maxMiles_eq (m := d x)]
  · exact List.mem_map_of_mem (List.mem_filter.2 ⟨hx, by simpa using hdeg⟩)
  · intro y hy
    obtain ⟨z, hz, rfl⟩ := List.mem_map.1 hy
    exact hle z ((List.mem_filter.1 hz).1)
  · intro y hy
    obtain ⟨z, hz, rfl⟩ := List.mem_map.1 hy
    exact hle z hz

/-- C131: on any network the clever way gives no more than the other one, if both give something. -/
theorem C131_clever_le (nodes : List String) (edges : List LenEdge) (dist : String → Option ℚ) (d : String → ℚ) (h : ∀ x ∈ nodes, dist x = some (d x))
    (a b : ℚ) (ha : furthestClever nodes edges dist = .ok a) (hb : furthest nodes dist = .ok b) : a ≤ b := by
  unfold furthestClever at ha
  unfold furthest at hb
  rw [distances_eq fun y hy => h y (List.mem_filter.1 hy).1] at ha
  rw [distances_eq h] at hb
  dsimp only at ha hb
  generalize hA : (nodes.filter fun x => decide (degree edges x = 1)).map d = A at ha
  generalize hB : nodes.map d = B at hb
  have sub : ∀ y ∈ A, y ∈ B := by
    intro y hy
    rw [← hA] at hy
    obtain ⟨z, hz, rfl⟩ := List.mem_map.1 hy
    rw [← hB]
    exact List.mem_map_of_mem ((List.mem_filter.1 hz).1)
  cases A with
  | nil => cases ha
  | cons p A =>
    cases B with
    | nil => cases hb
    | cons q B =>
      cases ha
      cases hb
      have := (foldl_max_spec B q).2 _ (sub _ (foldl_max_spec A p).1)
      linarith

/-- C131 is violated: one node that is not connected with the source makes an exception of the whole. -/
theorem C131_island_violated (nodes : List String) (dist : String → Option ℚ) (x : String) (hx : x ∈ nodes) (h : dist x = none) :
    furthest nodes dist = .error .networkXNoPath := by
  have : distances dist nodes = .error .networkXNoPath := by
    induction nodes with
    | nil => cases hx
    | cons y ys ih =>
      unfold distances
      rcases List.mem_cons.1 hx with rfl | hx
      · rw [h]
      · rw [ih hx]
        cases dist y <;> rfl
  unfold furthest
  rw [this]

/-- a ring of three lines, with a short one at the source -/
def exRing : List LenEdge := [⟨"s", "a", 1000⟩, ⟨"a", "b", 5000⟩, ⟨"b", "c", 5000⟩, ⟨"c", "a", 5000⟩]

/-- the distances in the ring -/
def exRingDist : String → Option ℚ := fun x => [("s", 0), ("a", 1000), ("b", 6000), ("c", 6000)].lookup x

/-- C131 is violated: in a network with a loop the clever way gives another result, here 0, and an exception if there is no end at all. -/
theorem C131_loop_violated : (furthest ["s", "a", "b", "c"] exRingDist).toOption = some (6000 * (621371 / 1000000000)) ∧
    (furthestClever ["s", "a", "b", "c"] exRing exRingDist).toOption = some 0 ∧
    furthestClever ["a", "b", "c"] (exRing.drop 1) exRingDist = .error .valueError := by decide +kernel

/-- a tree with two branches, the second line is directed to the source -/
def exTree : List LenEdge := [⟨"s", "a", 1000⟩, ⟨"b", "a", 5000⟩, ⟨"a", "c", 200⟩]

/-- depths in it -/
def exDepth (x : String) : Nat := if x = "s" then 0 else if x = "a" then 1 else 2

/-- distances in it -/
def exDist (x : String) : ℚ := if x = "s" then 0 else if x = "a" then 1000 else if x = "b" then 6000 else 1200

example : Tree ["s", "a", "b", "c"] exTree "s" exDepth := by
  refine ⟨by simp, by decide +kernel, by decide +kernel, ?_, ?_⟩
  · intro x hx hne
    simp only [List.mem_cons, List.not_mem_nil, or_false] at hx
    rcases hx with rfl | rfl | rfl | rfl
    · exact absurd rfl hne
    · exact ⟨⟨"s", "a", 1000⟩, by simp [exTree], "s", .inr ⟨rfl, rfl⟩, by decide⟩
    · exact ⟨⟨"b", "a", 5000⟩, by simp [exTree], "a", .inl ⟨rfl, rfl⟩, by decide⟩
    · exact ⟨⟨"a", "c", 200⟩, by simp [exTree], "a", .inr ⟨rfl, rfl⟩, by decide⟩
  · intro e he e' he' x y y' hj hj' hd hd'
    simp only [exTree, List.mem_cons, List.not_mem_nil, or_false] at he he'
    rcases he with rfl | rfl | rfl <;> rcases he' with rfl | rfl | rfl <;> first
      | rfl
      | (exfalso
         rcases hj with ⟨rfl, rfl⟩ | ⟨rfl, rfl⟩ <;> rcases hj' with ⟨h1, h2⟩ | ⟨h1, h2⟩ <;> (try subst h1) <;> (try subst h2) <;> simp_all [exDepth])

example : Distances ["s", "a", "b", "c"] exTree "s" exDepth exDist := by
  refine ⟨by decide +kernel, ?_⟩
  intro e he x y hj hlt
  simp only [exTree, List.mem_cons, List.not_mem_nil, or_false] at he
  rcases he with rfl | rfl | rfl <;> rcases hj with ⟨rfl, rfl⟩ | ⟨rfl, rfl⟩ <;> first
    | decide +kernel
    | (exfalso; revert hlt; decide)

example : (furthestClever ["s", "a", "b", "c"] exTree (some ∘ exDist)).toOption = some (6000 * (621371 / 1000000000)) ∧
    (furthest ["s", "a", "b", "c"] (some ∘ exDist)).toOption = some (6000 * (621371 / 1000000000)) := by decide +kernel

end Ditto.Furthest
