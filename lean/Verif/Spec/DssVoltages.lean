import Verif.Model.DssVoltages

namespace Ditto.Spec
open Ditto Ditto.Dss

/-- The object at position `i` is the one that `model[n]` gives: it has that name and no later object has it. -/
def Holds {K : Type} (objs : List (VObj K)) (n : Option String) (i : Nat) : Prop :=
  (∃ o, objs[i]? = some o ∧ o.name = some n) ∧ ∀ j o, i < j → objs[j]? = some o → o.name ≠ some n

/-- The object at position `i` is an object like a node: it is connected to nothing and is no winding. -/
def NodeLike {K : Type} (objs : List (VObj K)) (i : Nat) : Prop :=
  (∃ o, objs[i]? = some o ∧ o.conn = none ∧ o.hasFrom = false ∧ o.isTrafo = false ∧ o.volt ≠ none) ∧ ∀ o ∈ objs, i ∉ o.windings

/-- The voltage, line to line in volts, of the bus named `n` in small letters, if the last one of that name has base voltage `kv`. -/
def BusBase {K : Type} (bs : List (String × K)) (n : String) (kv : K) : Prop :=
  ∃ b, (bs.filter fun b => decide (pyLower b.1 = n)).getLast? = some b ∧ b.2 = kv

end Ditto.Spec
