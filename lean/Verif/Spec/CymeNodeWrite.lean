import Verif.Model.CymeNodeWrite
import Verif.Spec.CymeRegRead
import Verif.Spec.CymeNodes

/-! What the CYME writer has to write for nodes, for C124. -/
namespace Ditto.Cyme.Spec
open Ditto Glm

/-- a name that can stand in a cell -/
def NameText (n : Text) : Prop := CellText n ∧ Net.pyStrip n = n ∧ '*' ∉ n

/-- the network file with the table of nodes -/
def WrittenNodes (s : NodeRows) (content : List Text) : Prop :=
  ∃ pre post, content = pre ++ "[NODE]\n".toList :: (nodeTableLines s ++ ['\n'] :: post) ∧ ∀ l ∈ pre ++ post, ¬"[NODE]".toList <:+: l

/-- the network file with the table of connectors, if there are any -/
def WrittenConnectors (s : NodeRows) (content : List Text) : Prop :=
  (s.connectors = [] ∧ ∀ l ∈ content, ¬"[NODE CONNECTOR]".toList <:+: l) ∨
  (s.connectors ≠ [] ∧ WrittenTable "[NODE CONNECTOR]".toList connectorFormat (s.connectors.map cellsLine) content)

/-- the node as it is read: without positions it is at the origin -/
def nodeBack {N : Type} [Zero N] (n : NodeIn N) (name : Text) : NodeRec N := ⟨name, if n.points = [] then [(0, 0)] else n.points, none⟩

/-- the nodes that are written, with their names -/
def live {N : Type} (ns : List (NodeIn N)) : List (NodeIn N × Text) := ns.filterMap fun n => if n.dropped then none else n.name.map fun t => (n, t)

/-- an element is connected to a node at an index -/
def ConnectedAt (e : EndsIn) (name : Text) (i : Int) : Prop :=
  (e.source = some name ∧ e.sourceIndex = some i) ∨ (e.target = some name ∧ e.targetIndex = some i)

end Ditto.Cyme.Spec
