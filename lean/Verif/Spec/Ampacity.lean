import Verif.Model.Ampacity

/-! What `set_switching_devices_ampacity` is to achieve. -/
namespace Ditto.Net

/-- `q` is the ampacity of a wire of one of the lines -/
def HasAmp (ls : List AmpLine) (q : ℚ) : Prop := ∃ l ∈ ls, .val q ∈ l.wires

/-- there is a way along edges of the graph from `a` to `b` -/
inductive Linked (g : Graph) (a : String) : String → Prop
  | refl : Linked g a a
  | step {x y : String} : Linked g a x → g.Adj x y → Linked g a y

/-- the line called `nm` is the equipment of an edge that can be reached from `a` -/
def Reaches (g : Graph) (a : String) (nm : Option String) : Prop :=
  ∃ x y ty, Linked g a x ∧ g.equipOf x y = some (ty, nm)

/-- all the wires of `l'` have the ampacity `q`, and it is otherwise the line `l` -/
def AllAmp (l l' : AmpLine) (q : ℚ) : Prop := l' = { l with wires := List.replicate l.wires.length (.val q) }

/-- what has to become of a line: only devices with a missing ampacity are changed; they get the greatest of their own ampacities, or if
they have none that of the first wire of a line to which they are connected. `ls` and `ls'` are the lines before and after. -/
structure AmpFixed (g : Graph) (ls ls' : List AmpLine) (l l' : AmpLine) : Prop where
  other : l.isDev = false → l' = l
  valid : .nan ∉ l.wires → l' = l
  some_valid : l.isDev = true → .nan ∈ l.wires → ∀ q, .val q ∈ l.wires →
    ∃ m, AllAmp l l' m ∧ .val m ∈ l.wires ∧ ∀ p, .val p ∈ l.wires → p ≤ m
  none_valid : l.isDev = true → .nan ∈ l.wires → (∀ q, .val q ∉ l.wires) →
    (∀ f t, l.fromEl = some f → l.toEl = some t → ∃ q l0, AllAmp l l' q ∧ HasAmp ls q ∧
      (l0 ∈ ls ∨ l0 ∈ ls') ∧ l0.wires.head? = some (.val q) ∧ (Reaches g f l0.name ∨ Reaches g t l0.name)) ∧
    (l.fromEl = none ∨ l.toEl = none → l' = l)

end Ditto.Net
