import Verif.Model.Csv

/-! What a CSV file says. Only the types of files and objects are taken from the model. -/
namespace Ditto.Csv.Spec
open Ditto Glm Csv

/-- a part of a header: `name[j]` -/
def part (e : Text × Nat) : Text := e.1 ++ '[' :: (e.2.repr.toList ++ [']'])

/-- the header is `Class.list[i].list[j].….attribute` -/
structure HeaderIs (header : Text) (cls : Text) (path : Path) (attr : Text) : Prop where
  text : header = cls ++ (path.flatMap fun e => '.' :: part e) ++ '.' :: attr
  cls : '.' ∉ cls
  attr : '.' ∉ attr
  names : ∀ e ∈ path, '.' ∉ e.1 ∧ '[' ∉ e.1

section
variable {K : Type}

/-- a value of the file in ditto: names are in lower case -/
def StoredAs (attr : Text) (c v : Cell K) : Prop :=
  if attr = "name".toList then ∃ t, c = .text t ∧ v = .text (t.map Char.toLower) else v = c

/-- the list `name` of the object has the object `id` at the place `j` -/
def HasChild (o : Obj K) (name : Text) (j id : Nat) : Prop := ∃ e ∈ o.lists, e.1 = name ∧ e.2[j]? = some id

/-- the object at `q` is on the way to the one at `p`, or comes before such an object in its list -/
def Needed (q p : Text × Path) : Prop :=
  q.1 = p.1 ∧ (q.2 = [] ∨ ∃ q0 name j i rest, q.2 = q0 ++ [(name, j)] ∧ p.2 = q0 ++ (name, i) :: rest ∧ j ≤ i)

/-- the objects of a row: `place` says where each one is -/
structure RowIs (cs : Classes K) (cells : List (Text × Option (Cell K))) (objs : List (Obj K)) (place : List ((Text × Path) × Nat)) : Prop where
  /-- no place is taken twice -/
  distinct : (place.map (·.1)).Nodup
  /-- all the objects exist; the ones at the top are of the class of the header -/
  top : ∀ c id, ((c, []), id) ∈ place → ∃ o, objs[id]? = some o ∧ o.klass = c
  /-- nested objects are in the list of their parent, at the right place, and of the right class -/
  nested : ∀ c q name j id, ((c, q ++ [(name, j)]), id) ∈ place → ∃ pid o o', ((c, q), pid) ∈ place ∧ objs[pid]? = some o ∧ HasChild o name j id ∧
    objs[id]? = some o' ∧ cs.element o.klass name = .ok o'.klass
  /-- the lists have no other objects -/
  lists : ∀ c q pid o name j id, ((c, q), pid) ∈ place → objs[pid]? = some o → HasChild o name j id → ((c, q ++ [(name, j)]), id) ∈ place
  /-- each cell that is not empty is an attribute of its object -/
  values : ∀ h c, (h, some c) ∈ cells → ∃ cls path attr id o v, HeaderIs h cls path attr ∧ ((cls, path), id) ∈ place ∧ objs[id]? = some o ∧
    StoredAs attr c v ∧ (attr, v) ∈ o.attrs
  /-- and there are no other attributes -/
  only : ∀ cls path id o attr v, ((cls, path), id) ∈ place → objs[id]? = some o → (attr, v) ∈ o.attrs →
    ∃ h c, (h, some c) ∈ cells ∧ HeaderIs h cls path attr ∧ StoredAs attr c v
  /-- an attribute has one value -/
  single : ∀ key id o, (key, id) ∈ place → objs[id]? = some o → (o.attrs.map (·.1)).Nodup
  /-- there are no objects without need -/
  needed : ∀ key id, (key, id) ∈ place → ∃ h c cls path attr, (h, some c) ∈ cells ∧ HeaderIs h cls path attr ∧ Needed key (cls, path)

/-- the class of the objects at a path that goes through lists of objects of known classes -/
inductive ClassAt (cs : Classes K) (cls : Text) : Path → Text → Prop where
  | top : ClassAt cs cls [] cls
  | nested {path : Path} {name : Text} {j : Nat} {k k' : Text} : ClassAt cs cls path k → cs.element k name = .ok k' → cs.known k' = true →
    ClassAt cs cls (path ++ [(name, j)]) k'

/-- the header is well formed, and the cell is empty or fits the attribute of its class -/
def Readable (cs : Classes K) (h : Text) (c : Option (Cell K)) : Prop :=
  ∃ cls path attr, HeaderIs h cls path attr ∧ ∀ c', c = some c' → ∃ k v, ClassAt cs cls path k ∧ cs.known cls = true ∧ StoredAs attr c' v ∧ cs.takes k attr v = true

end
end Ditto.Csv.Spec
