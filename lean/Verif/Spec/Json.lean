import Verif.Model.Json

/-! When two models are the same, and which models can be stored as JSON. -/
namespace Ditto.Json
open Ditto

/-- the same attributes with the same values -/
def SameAttrs {α : Type} (a b : List (String × α)) : Prop := ∀ k, a.lookup k = b.lookup k

def SameLeaf (a b : Leaf) : Prop := a.cls = b.cls ∧ SameAttrs a.attrs b.attrs

inductive SameSub : Sub → Sub → Prop
  | leaf {a b : Leaf} : SameLeaf a b → SameSub (.leaf a) (.leaf b)
  | winding {a b : List (String × Scalar)} {p q : List Leaf} : SameAttrs a b → List.Forall₂ SameLeaf p q →
      SameSub (.winding a (some p)) (.winding b (some q))

inductive SameItem : Item → Item → Prop
  | refl (i : Item) : SameItem i i
  | sub {a b : Sub} : SameSub a b → SameItem (.sub a) (.sub b)

inductive SameVal : Val → Val → Prop
  | scalar (s : Scalar) : SameVal (.scalar s) (.scalar s)
  | list {a b : List Item} : List.Forall₂ SameItem a b → SameVal (.list a) (.list b)

/-- objects of the same class with the same attributes, up to new nested objects that are the same -/
def SameObj (a b : Obj) : Prop :=
  a.cls = b.cls ∧ ∀ k, (a.attrs.lookup k = none ∧ b.attrs.lookup k = none) ∨
    ∃ v w, a.attrs.lookup k = some v ∧ b.attrs.lookup k = some w ∧ SameVal v w

/-! ### What can be stored -/

/-- numbers, strings and truth values; complex numbers only if `cpx` -/
def Basic (cpx : Bool) : Scalar → Prop
  | .int _ | .float _ | .str _ | .bool _ | .npfloat _ => True
  | .complex _ _ => cpx = true
  | .none | .other _ => False

/-- a value of the attribute `k`: `None` only if it is the default value of the class with the default values `d` -/
def BasicOrDefault (cpx : Bool) (d : List (String × Scalar)) (k : String) (s : Scalar) : Prop :=
  Basic cpx s ∨ s = .none ∧ d.lookup k = some .none

/-- the attributes of a nested object: those with a default value are all there -/
def StorableAttrs (d : List (String × Scalar)) (attrs : List (String × Scalar)) : Prop :=
  (attrs.map (·.1)).Nodup ∧ (∀ k ∈ d.map (·.1), k ∈ attrs.map (·.1)) ∧ ∀ e ∈ attrs, BasicOrDefault false d e.1 e.2

def StorableSub (env : Env) : Sub → Prop
  | .leaf l => l.cls ∈ ["Position", "Wire", "PhaseCapacitor", "PhaseLoad"] ∧ StorableAttrs (env.dflt l.cls) l.attrs
  | .winding attrs phases => StorableAttrs (env.dflt "Winding") attrs ∧
      ∃ ps, phases = some ps ∧ ∀ p ∈ ps, p.cls = "PhaseWinding" ∧ StorableAttrs (env.dflt "PhaseWinding") p.attrs

/-- an element of an attribute that is no matrix -/
def StorableItem (env : Env) : Item → Prop
  | .scalar s => ∃ re im, s = .complex re im
  | .unicode s => ∃ x, s = .str x
  | .sub x => StorableSub env x
  | .row _ => False

/-- an element of a matrix, or of the reactances -/
def StorableNumber : Item → Prop
  | .scalar s => Basic true s
  | .row r => ∀ s ∈ r, Basic true s
  | .unicode _ | .sub _ => False

def StorableVal (env : Env) (c k : String) : Val → Prop
  | .scalar s => k ∉ ["capacitance_matrix", "impedance_matrix", "reactances"] ∧ BasicOrDefault true (env.dflt c) k s
  | .list l => if k ∈ ["capacitance_matrix", "impedance_matrix", "reactances"] then ∀ i ∈ l, StorableNumber i else ∀ i ∈ l, StorableItem env i

/-- a nested object that is also an element of the list of objects of the model -/
def Nested (o : Obj) : Prop := o.cls ∈ ["Winding", "PhaseWinding", "Wire", "PhaseCapacitor", "Position", "PhaseLoad"]

structure Storable (env : Env) (o : Obj) : Prop where
  cls : o.cls ∈ ["PowerSource", "Photovoltaic", "Node", "Line", "PowerTransformer", "Regulator", "Load", "Capacitor", "Feeder_metadata",
    "Storage"]
  nodup : (o.attrs.map (·.1)).Nodup
  name : "name" ∈ o.attrs.map (·.1)
  dflt : ∀ k ∈ (env.dflt o.cls).map (·.1), k ∈ o.attrs.map (·.1)
  attrs : ∀ e ∈ o.attrs, StorableVal env o.cls e.1 e.2

/-- the attributes of nested objects are written too, but not read again -/
def StorableNested (o : Obj) : Prop :=
  ∀ e ∈ o.attrs, e.1 ∉ ["capacitance_matrix", "impedance_matrix", "reactances"] ∧ ∀ l, e.2 = .list l → ∀ i ∈ l, ∃ x, i = .sub (.leaf x)

end Ditto.Json
