import Verif.Spec.Ownership

/-! Structural equality of objects. -/
namespace Ditto.Heap

/-- Two attributes agree: same name, same scalar value or raw list; lists of objects agree element by element
up to the relation `R` on objects. -/
def AttrRel (R : Ref → Ref → Prop) (av av' : String × AttrVal) : Prop := av'.1 = av.1 ∧
  match av.2, av'.2 with
  | .plain v, .plain v' => v' = v
  | .list none, .list none => True
  | .list (some es), .list (some es') =>
    if special av.1 then es' = es
    else List.Forall₂ (fun e e' => ∃ c c', e = .ref c ∧ e' = .ref c' ∧ R c c') es es'
  | _, _ => False

/-- Object `r'` of heap `h'` is a structural copy of object `r` of heap `h`: same class, same scalar values, same raw
lists, and for the lists of objects element by element structural copies. All objects of the copy have an
index `≥ lo`. The first number bounds the depth. -/
def SameObj (h h' : Heap) (lo : Nat) : Nat → Ref → Ref → Prop
  | 0, _, _ => False
  | n + 1, r, r' => ∃ o o', h[r]? = some o ∧ h'[r']? = some o' ∧ lo ≤ r' ∧ o'.cls = o.cls ∧
      List.Forall₂ (AttrRel (SameObj h h' lo n)) o.attrs o'.attrs

end Ditto.Heap
