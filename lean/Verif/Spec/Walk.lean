import Mathlib.Logic.Relation

/-! Reachability, walks and distances. -/
namespace Ditto.Spec

/-- `v` can be reached from `u` along `R` -/
abbrev Reach {α : Type} (R : α → α → Prop) (u v : α) : Prop := Relation.ReflTransGen R u v

theorem reach_mono {α : Type} {R S : α → α → Prop} (h : ∀ a b, R a b → S a b) {u v : α} (hr : Reach R u v) :
    Reach S u v := by
  induction hr with
  | refl => exact .refl
  | tail _ hs ih => exact ih.tail (h _ _ hs)

/-- there is a walk of `n` steps along `R` from `u` to `v` -/
inductive Walk {α : Type} (R : α → α → Prop) (u : α) : Nat → α → Prop
  | nil : Walk R u 0 u
  | snoc {n : Nat} {v w : α} : Walk R u n v → R v w → Walk R u (n + 1) w

theorem Walk.mono {α : Type} {R S : α → α → Prop} (h : ∀ a b, R a b → S a b) {u v : α} {n : Nat} (hr : Walk R u n v) :
    Walk S u n v := by
  induction hr with
  | nil => exact .nil
  | snoc _ hs ih => exact ih.snoc (h _ _ hs)

theorem Walk.reach {α : Type} {R : α → α → Prop} {u v : α} {n : Nat} (h : Walk R u n v) : Reach R u v := by
  induction h with
  | nil => exact .refl
  | snoc _ hr ih => exact ih.tail hr

theorem Reach.walk {α : Type} {R : α → α → Prop} {u v : α} (h : Reach R u v) : ∃ n, Walk R u n v := by
  induction h with
  | refl => exact ⟨0, .nil⟩
  | tail _ hr ih => obtain ⟨n, hn⟩ := ih; exact ⟨n + 1, hn.snoc hr⟩

/-- `n` is the least number of steps from `u` to `v` -/
def IsDist {α : Type} (R : α → α → Prop) (u v : α) (n : Nat) : Prop := Walk R u n v ∧ ∀ m, Walk R u m v → n ≤ m

end Ditto.Spec
