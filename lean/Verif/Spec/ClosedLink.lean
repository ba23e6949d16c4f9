import Verif.Spec.OpenDevice
import Verif.Spec.Walk

/-! Connections through closed devices, as `remove_open_switches` sees them (see C19), loops and simple paths. -/
namespace Ditto.Net

/-- the object is treated as open: a switch, or a line whose `is_breaker` is set, with wires, none of them closed -/
def Cut (o : NetObj) : Prop :=
  o.isLine = true ∧ (o.isSwitch = some true ∨ o.isBreaker ≠ none) ∧ o.wires ≠ [] ∧ some false ∉ o.wires

/-- some object connects `a` and `b`, and none between them is treated as open -/
def ClosedLink (objs : List NetObj) (a b : String) : Prop :=
  Connects objs a b ∧ ¬ ∃ o ∈ objs, Cut o ∧ TwoTerminal o a b

/-- every object has a name, and no two devices treated as open are in parallel (see C15, C19) -/
def Usable (objs : List NetObj) : Prop :=
  (∀ o ∈ objs, o.name ≠ none) ∧
    objs.Pairwise fun o o' => Cut o → Cut o' → ∀ a b, TwoTerminal o a b → ¬ TwoTerminal o' a b

/-- the load is connected with the source through closed devices -/
def Feeds (objs : List NetObj) (src load : NetObj) : Prop :=
  ∃ s c, src.connecting = some s ∧ load.connecting = some c ∧ Spec.Reach (ClosedLink objs) s c

/-- `R` has a loop: a link whose ends are also joined by other links -/
def HasLoop {α : Type} (R : α → α → Prop) : Prop :=
  ∃ a b, R a b ∧ Spec.Reach (fun x y => R x y ∧ ¬ ((x = a ∧ y = b) ∨ (x = b ∧ y = a))) a b

/-- a path from `s` to `t` along `R` that visits no node twice -/
def IsSimplePath {α : Type} (R : α → α → Prop) (s t : α) (p : List α) : Prop :=
  p.head? = some s ∧ p.getLast? = some t ∧ p.Nodup ∧ p.IsChain R

/-- exactly one element of the list has the property -/
def ExactlyOne {α : Type} (P : α → Prop) (l : List α) : Prop :=
  ∃ pre x post, l = pre ++ x :: post ∧ P x ∧ (∀ y ∈ pre, ¬ P y) ∧ ∀ y ∈ post, ¬ P y

/-- at least two elements of the list have the property -/
def AtLeastTwo {α : Type} (P : α → Prop) (l : List α) : Prop :=
  ∃ pre x mid y post, l = pre ++ x :: mid ++ y :: post ∧ P x ∧ P y

end Ditto.Net
