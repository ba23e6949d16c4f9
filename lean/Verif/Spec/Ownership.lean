import Verif.Model.Heap
import Mathlib.Logic.Relation

/-! Which objects belong to an object. -/
namespace Ditto.Heap

/-- `c` is an element of a list attribute of object `r` that holds DiTTo objects. -/
def Child (h : Heap) (r c : Ref) : Prop :=
  ∃ o a es, h[r]? = some o ∧ (a, AttrVal.list (some es)) ∈ o.attrs ∧ special a = false ∧ Elem.ref c ∈ es

/-- `x` is `r` or an object reachable from it through object lists. -/
def Owned (h : Heap) (r x : Ref) : Prop := Relation.ReflTransGen (Child h) r x

/-- the elements of the object lists of an object, in order -/
def children (o : Obj) : List Elem :=
  o.attrs.flatMap fun av => match av.2 with
    | .list (some es) => if special av.1 then [] else es
    | _ => []

/-- A heap as built by the readers: the elements of object lists are existing objects, no object is in two lists or
twice in a list, and there are at most `limit` levels of nesting. -/
structure Forest (h : Heap) (limit : Nat) : Prop where
  typed : ∀ (r : Ref) o e, h[r]? = some o → e ∈ children o → ∃ (c : Ref) (o' : Obj), e = .ref c ∧ h[c]? = some o'
  nodup : ∀ (r : Ref) o, h[r]? = some o → (children o).Nodup
  unique : ∀ r r' c, Child h r c → Child h r' c → r = r'
  rank : ∃ rank : Ref → Nat, (∀ r c, Child h r c → rank c < rank r) ∧ ∀ r, rank r < limit

end Ditto.Heap
