import Verif.Model.Py

/-! Access to objects by name. -/
namespace Ditto

/-- `model[name]`: ditto/store.py:69-70 after `set_names` (ditto/store.py:116-120, ditto/models/base.py:26-35), which keeps the last
object of each name. `name` gives the name of an object; `None` is a key like others. The list has only objects with a `name` trait. -/
def named {α : Type} (name : α → Option String) (objs : List α) (nm : Option String) : Py α :=
  match (objs.filter fun o => name o = nm).getLast? with
  | none => .error .keyError
  | some o => .ok o

/-- an update of the object `model[nm]` in place -/
def updateNamed {α : Type} (name : α → Option String) (nm : Option String) (f : α → α) : List α → List α
  | [] => []
  | o :: rest =>
    if rest.any (fun o' => name o' = nm) then o :: updateNamed name nm f rest
    else if name o = nm then f o :: rest
    else o :: rest

end Ditto
