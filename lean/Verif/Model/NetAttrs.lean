import Verif.Model.Network

/-! Attributes of the objects in the directed network: `Network.set_attributes` and the last part of `Network.rebuild_digraph`, ditto/network/network.py. -/
namespace Ditto.NetAttrs
open Ditto Ditto.Net

/-- An object of the model. `attrs` are the attributes its class has beside those of the base class, with their values in `V`, that include `None`. -/
structure AttrObj (V : Type) where
  cls : String
  name : Option String
  fromEl : Option String := none
  toEl : Option String := none
  connecting : Option String := none
  attrs : String → Option V

/-- `class_map` and the attributes of nodes and edges in the directed network -/
structure Attrs (V : Type) where
  classMap : String → Option String
  node : String → String → Option V
  edge : String × String → String → Option V

/-- The attributes of a node or of an edge after those of an object are copied: ditto/network/network.py:189-193, 251-256. They are taken from a set in any order,
but every one is copied once. -/
def copyTo {V : Type} (o : AttrObj V) (old : String → Option V) : String → Option V :=
  fun a => if a.toList.head? = some '_' then old a else (o.attrs a).or (old a)

/-- are the attributes of the object, which is named `nm`, copied to the edge? ditto/network/network.py:195-201, 210, 219-223 and 258-264, 276, 288-292 -/
def goesTo {V : Type} (o : AttrObj V) (nm : String) (k : String × String) : Bool :=
  (match o.fromEl, o.toEl with
    | some f, some t => k = (f, t) || k = (t, f)
    | _, _ => false) ||
  (match o.connecting with
    | some c => k = (c, nm)
    | none => false)

/-- One object: ditto/network/network.py:184-238, 246-318. `nodes` and `edges` are those of the directed network before the loop. All edges that are written are
among them, so that none is added. Simplification: the undirected graph, where `set_attributes` writes the same values, is not represented. -/
def attrStep {V : Type} (nodes : List String) (edges : List (String × String)) (st : Attrs V) (o : AttrObj V) : Attrs V :=
  match o.name with
  | none => st
  | some nm =>
    { classMap := fun x => if x = nm then some o.cls else st.classMap x
      node := fun x => if x = nm ∧ nm ∈ nodes then copyTo o (st.node x) else st.node x
      edge := fun k => if k ∈ edges ∧ goesTo o nm k = true then copyTo o (st.edge k) else st.edge k }

/-- The loop over the models: ditto/network/network.py:183-238, 245-318 -/
def setAttrs {V : Type} (nodes : List String) (edges : List (String × String)) (st : Attrs V) (objs : List (AttrObj V)) : Attrs V :=
  objs.foldl (attrStep nodes edges) st

/-- What `build` has stored at the edges of the directed network, ditto/network/network.py:131-147, where `txt` makes a value of a text and `nope` is `None` -/
def builtAttrs {V : Type} (txt : String → V) (nope : V) (d : List Edge) : Attrs V where
  classMap := fun _ => none
  node := fun _ _ => none
  edge := fun k a =>
    match (d.find? fun e => decide (e.u = k.1 ∧ e.v = k.2)).bind (·.equip) with
    | none => none
    | some (ty, nm) =>
      if a = "equipment" then some (txt ty)
      else if a = "equipment_name" then some (match nm with | some x => txt x | none => nope)
      else none

/-- `build` and then `set_attributes`: ditto/network/network.py:46-149, 240-320 -/
def networkAttrs {V : Type} (txt : String → V) (nope : V) (d : List Edge) (objs : List (AttrObj V)) : Attrs V :=
  setAttrs (diNodes d) (d.map fun e => (e.u, e.v)) (builtAttrs txt nope d) objs

end Ditto.NetAttrs
