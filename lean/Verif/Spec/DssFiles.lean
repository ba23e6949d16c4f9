import Verif.Model.DssFiles
import Mathlib.Data.List.Perm.Basic

/-! What it means that objects are distributed over files. -/
namespace Ditto.Spec
open Ditto Ditto.Dss

/-- substation and feeder of an object; objects without are in "DEFAULT", as are all if they are not to be separated -/
def groupFor {α : Type} (sf ss : Bool) (i : Item α) : String × String :=
  ((if ss then i.substation.getD "DEFAULT" else "DEFAULT"), (if sf then i.feeder.getD "DEFAULT" else "DEFAULT"))

/-- the folder of a group -/
def folderFor (sf ss : Bool) (g : String × String) : List String := (if ss then [cleanLower g.1] else []) ++ (if sf then [cleanLower g.2] else [])

/-- the texts of the objects of a group, in the order of the model -/
def textsFor {α : Type} (sf ss : Bool) (is : List (Item α)) (g : String × String) : List α :=
  (is.filter fun i => groupFor sf ss i = g).filterMap (·.out)

/-- names that can be used for folders: each group has an object with a name; groups and folders do not coincide by accident; and a
substation with several feeders has a name without capitals and special characters -/
structure Separable {α : Type} (sf ss : Bool) (is : List (Item α)) : Prop where
  named : ∀ i ∈ is, textsFor sf ss is (groupFor sf ss i) ≠ []
  keys : ∀ i ∈ is, ∀ j ∈ is, (groupFor sf ss i).1 ++ "_" ++ (groupFor sf ss i).2 = (groupFor sf ss j).1 ++ "_" ++ (groupFor sf ss j).2 →
    groupFor sf ss i = groupFor sf ss j
  clean : ∀ i ∈ is, ∀ j ∈ is, (groupFor sf ss i).1 = (groupFor sf ss j).1 → (groupFor sf ss i).2 ≠ (groupFor sf ss j).2 →
    cleanLower (groupFor sf ss i).1 = (groupFor sf ss i).1
  folders : ∀ i ∈ is, ∀ j ∈ is, folderFor sf ss (groupFor sf ss i) = folderFor sf ss (groupFor sf ss j) → groupFor sf ss i = groupFor sf ss j

/-- each group has exactly one file, with the texts of its objects, and each file is redirected once -/
structure Distributed {α : Type} (sf ss : Bool) (is : List (Item α)) (w : Written α) : Prop where
  own : ∀ i ∈ is, w.files.lookup (folderFor sf ss (groupFor sf ss i)) = some (textsFor sf ss is (groupFor sf ss i))
  only : ∀ e ∈ w.files, ∃ i ∈ is, e.1 = folderFor sf ss (groupFor sf ss i)
  all : (w.files.flatMap (·.2)).Perm (is.filterMap (·.out))
  nodup : (w.files.map (·.1)).Nodup
  redirects : w.redirects = w.files.map (·.1)

end Ditto.Spec
