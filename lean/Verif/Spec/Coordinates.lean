import Verif.Model.Coordinates
import Verif.Spec.Connect

/-! Located nodes and averages. -/
namespace Ditto.Net

/-- the first position of the object, if it has numbers and none of them is 0 -/
def CoordObj.LocatedAt (o : CoordObj) (p : ℚ × ℚ) : Prop :=
  o.hasPositions = true ∧ ∃ rest, o.positions = some ((some p.1, some p.2) :: rest) ∧ p.1 ≠ 0 ∧ p.2 ≠ 0

/-- the object of that name is located at `p` -/
def At (objs : List CoordObj) (x : String) (p : ℚ × ℚ) : Prop := ∃ o ∈ objs, o.name = some x ∧ o.LocatedAt p

/-- `p` is the average of the list -/
def IsAverage (p : ℚ × ℚ) (ps : List (ℚ × ℚ)) : Prop :=
  ps ≠ [] ∧ p.1 = (ps.map (·.1)).sum / ps.length ∧ p.2 = (ps.map (·.2)).sum / ps.length

/-- Conditions under which the fill raises no exception: objects have different names, every node of the network is an object
with positions, and every coordinate is a number. -/
structure Placed (g : Graph) (objs : List CoordObj) : Prop where
  names : (objs.filterMap (·.name)).Nodup
  nodes : ∀ x, (∃ y, g.Adj x y) → ∃ o ∈ objs, o.name = some x ∧ o.hasPositions = true
  numbers : ∀ o ∈ objs, ∀ ps p, o.positions = some ps → p ∈ ps → p.1 ≠ none ∧ p.2 ≠ none

end Ditto.Net
