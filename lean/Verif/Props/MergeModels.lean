import Verif.Lemmas.Grow
import Verif.Props.Merge

/-! C10, C12, C44: type mismatches, and the list of models after a merge. -/
namespace Ditto.Heap
open Ditto

/-- C10: if a name has objects of different classes in the two models, `delete` raises. -/
theorem C10_type_mismatch (fuel : Nat) (h : Heap) (s1 s2 : Store) (k : Option Atom) (r1 r2 : Ref)
    (hr1 : IsLastNamed h s1.models k r1) (hr2 : IsLastNamed h s2.models k r2) (hc : clsOf h r1 ≠ clsOf h r2) :
    ∀ s', delete fuel h s1 s2 ≠ .ok s' := by
  intro s' hd
  unfold delete at hd
  split at hd
  · simp at hd
  · rename_i ms hf
    obtain ⟨l1, l2, hl⟩ := List.append_of_mem ((mem_names_iff_last h s2 k r2).2 hr2)
    rw [hl] at hf
    obtain ⟨s, _, hs⟩ := foldlM_append_ok hf
    obtain ⟨s1', hs1, _⟩ := foldlM_cons_ok hs
    unfold deleteStep at hs1
    have : (setNames h s1).names.lookup k = some r1 := (names_lookup_iff h s1.models k r1).2 hr1
    rw [this] at hs1
    simp [hc] at hs1

/-- C12, C13: if a name has objects of different classes in the two models, `merge` raises. -/
theorem C12_type_mismatch (ow : Bool) (fuel : Nat) (h : Heap) (s1 s2 : Store) (k : Option Atom) (r1 r2 : Ref)
    (hr1 : IsLastNamed h s1.models k r1) (hr2 : IsLastNamed h s2.models k r2) (hlt1 : r1 < h.length)
    (hlt2 : r2 < h.length) (hc : clsOf h r1 ≠ clsOf h r2) : ∀ x, merge fuel ow h s1 s2 ≠ .ok x := by
  intro x hd
  unfold merge at hd
  split at hd
  · simp at hd
  · rename_i h' ms hf
    obtain ⟨l1, l2, hl⟩ := List.append_of_mem ((mem_names_iff_last h s2 k r2).2 hr2)
    rw [hl] at hf
    obtain ⟨s, hs0, hs⟩ := foldlM_append_ok hf
    obtain ⟨s1', hs1, _⟩ := foldlM_cons_ok hs
    have g := foldlM_inv (fun s : St => Grow (h, s1.models) s) _
      (fun s kr s' _ hg hs => hg.trans (mergeStep_grow ow fuel _ s kr s' hs)) (Grow.refl _) hs0
    unfold mergeStep at hs1
    have : (setNames h s1).names.lookup k = some r1 := (names_lookup_iff h s1.models k r1).2 hr1
    rw [this] at hs1
    have e1 := g.cls r1 hlt1
    have e2 := g.cls r2 hlt2
    simp only at e1 e2
    simp [e1, e2, hc] at hs1

/-- C44: `merge` adds no objects of `model_2` to `model_1` and removes none of `model_1`: the models are the old ones and
after them the newly created copies of sub-objects; the names are rebuilt. -/
theorem C44_models (ow : Bool) (fuel : Nat) (h : Heap) (s1 s2 : Store) (h' : Heap) (s' : Store)
    (hm : merge fuel ow h s1 s2 = .ok (h', s')) :
    h.length ≤ h'.length ∧ s'.models = s1.models ++ List.range' h.length (h'.length - h.length) ∧
      (∀ x : Ref, x < h.length → clsOf h' x = clsOf h x) ∧ s' = setNames h' s' := by
  unfold merge at hm
  split at hm
  · simp at hm
  · rename_i h1 ms hf
    simp only [Except.ok.injEq, Prod.mk.injEq] at hm
    obtain ⟨rfl, rfl⟩ := hm
    have g := foldlM_inv (fun s : St => Grow (h, s1.models) s) _
      (fun s kr s' _ hg hs => hg.trans (mergeStep_grow ow fuel _ s kr s' hs)) (Grow.refl _) hf
    exact ⟨g.le, g.models, g.cls, rfl⟩

/-- a line and a load named "x" -/
example : ∃ (h : Heap) (s1 s2 : Store), IsLastNamed h s1.models (some (.str "x")) 0 ∧
    IsLastNamed h s2.models (some (.str "x")) 1 ∧ clsOf h 0 ≠ clsOf h 1 :=
  ⟨[⟨"Line", [("name", .plain (some (.str "x")))]⟩, ⟨"Load", [("name", .plain (some (.str "x")))]⟩], ⟨[0], []⟩, ⟨[1], []⟩,
    ⟨[], [], rfl, rfl, by decide⟩, ⟨[], [], rfl, rfl, by decide⟩, by decide⟩

end Ditto.Heap
