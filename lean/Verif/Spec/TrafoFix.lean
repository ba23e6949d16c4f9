import Verif.Model.TrafoFix

/-! What the repair of transformers has to do, for C127. -/
namespace Ditto.TrafoFix.Spec
open Ditto

/-- the path has one transformer, `t`, with `up` above and `down` below it; other transformers are in substations above it -/
def OneTrafo (path up : List PathEdge) (t : PathEdge) (down : List PathEdge) : Prop :=
  path = up ++ t :: down ∧ t.equipment = "PowerTransformer" ∧ t.substation = false ∧
    (∀ e ∈ up, e.equipment = "PowerTransformer" → e.substation = true) ∧ (∀ e ∈ down, e.equipment ≠ "PowerTransformer") ∧
    ∀ e, down.head? = some e → e.upper = t.lower

/-- the names of the transformers outside of substations on the path -/
def transformersOn (path : List PathEdge) : List String :=
  (path.filter fun e => decide (e.equipment = "PowerTransformer" ∧ e.substation = false)).map (·.name)

/-- the ends of the transformer are those of the edge -/
def EndsOf (t : PathEdge) (r : FixTrafo) : Prop :=
  (r.fromElement = some t.upper ∧ r.toElement = some t.lower) ∨ (r.fromElement = some t.lower ∧ r.toElement = some t.upper)

/-- the phases of a line without the neutral one -/
def LinePhase (e : PathEdge) (p : String) : Prop := p ∈ e.phases ∧ p ≠ "N"

instance (e : PathEdge) (p : String) : Decidable (LinePhase e p) := inferInstanceAs (Decidable (_ ∧ _))

end Ditto.TrafoFix.Spec
