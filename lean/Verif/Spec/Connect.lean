import Verif.Model.Network

/-! Connections declared by the objects of a model. -/
namespace Ditto.Net

/-- the object is a connection between `a` and `b`: from its `from_element` to its `to_element`, or from its
`connecting_element` to itself -/
def Declares (o : NetObj) (a b : String) : Prop :=
  (o.fromEl = some a ∧ o.toEl = some b) ∨ (o.connecting = some a ∧ o.name = some b)

/-- some object of the model connects `a` and `b` -/
def Connects (objs : List NetObj) (a b : String) : Prop := ∃ o ∈ objs, Declares o a b ∨ Declares o b a

/-- the graph has an edge between `a` and `b` -/
def Graph.Adj (g : Graph) (a b : String) : Prop := ∃ e ∈ g.edges, e.joins a b

/-- the object has the two terminals `a` and `b` -/
def TwoTerminal (o : NetObj) (a b : String) : Prop :=
  (o.fromEl = some a ∧ o.toEl = some b) ∨ (o.fromEl = some b ∧ o.toEl = some a)

instance (o : NetObj) (a b : String) : Decidable (TwoTerminal o a b) := by unfold TwoTerminal; infer_instance

/-- the attributes `equipment` and `equipment_name` of the edge between `a` and `b` -/
def Graph.equipOf (g : Graph) (a b : String) : Option (String × Option String) := (g.find a b).bind (·.equip)

end Ditto.Net
