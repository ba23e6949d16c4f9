import Verif.Model.CymeSubnets
import Verif.Spec.CymeNodeWrite

/-! What the CYME writer has to write for substations, for C126. -/
namespace Ditto.Cyme.Spec
open Ditto Glm

/-- the node connects the substation with other networks -/
def Connects (s : Text) (n : SubNode) : Prop := n.substation = some s ∧ n.connection = true

instance (s : Text) (n : SubNode) : Decidable (Connects s n) := inferInstanceAs (Decidable (_ ∧ _))

/-- the first positions of the nodes for which this holds -/
def places (P : SubNode → Prop) [DecidablePred P] (ns : List SubNode) : List (ℚ × ℚ) := (ns.filter fun n => decide (P n)).filterMap fun n => n.points.head?

/-- the point is the centre of these points -/
def Centre (ps : List (ℚ × ℚ)) (c : ℚ × ℚ) : Prop :=
  ps ≠ [] ∧ c.1 * ps.length = (ps.map Prod.fst).sum ∧ c.2 * ps.length = (ps.map Prod.snd).sum

/-- the lowest nominal voltage of connections of the substation that have a position -/
def Lowest (s : Text) (ns : List SubNode) (v : ℚ) : Prop :=
  (∃ n ∈ ns, Connects s n ∧ n.points ≠ [] ∧ n.voltage = some v) ∧ ∀ n ∈ ns, Connects s n → n.points ≠ [] → ∀ w, n.voltage = some w → v ≤ w

/-- the network file with the table of connections -/
def WrittenConnections (rows : List (List Text)) (content : List Text) : Prop :=
  ∃ pre post, content = pre ++ "[SUBNETWORK CONNECTIONS]\n".toList :: (connectionFormat ++ ['\n']) ::
    (rows.map (fun r => cellsLine r ++ ['\n']) ++ ['\n'] :: post) ∧ ∀ l ∈ pre ++ post, ¬"[SUBNETWORK CONNECTIONS]".toList <:+: l

/-- the node for the table of nodes -/
def asNode (n : SubNode) : NodeIn ℚ := ⟨n.dropped, n.name, n.points⟩

end Ditto.Cyme.Spec
