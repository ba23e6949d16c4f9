import Verif.Model.CymeLineData

/-! What the CYME writer has to write for the impedances of lines, for C122. -/
namespace Ditto.Cyme.Spec
open Ditto Glm

/-- the ampacity of the last wire of a phase that has one, or nothing -/
def AmpsOf {N : Type} [Zero N] (amps : List (OverPhase × N)) (p : OverPhase) (a : N) : Prop :=
  ((∀ e ∈ amps, e.1 ≠ p) ∧ a = 0) ∨ ∃ before after, amps = before ++ (p, a) :: after ∧ ∀ e ∈ after, e.1 ≠ p

/-- a matrix with the same self value and the same mutual value everywhere -/
structure Balanced {V : Type} (m : List (List V)) (n : Nat) (own other : V) : Prop where
  rows : m.length = n
  cols : ∀ r ∈ m, r.length = n
  entries : ∀ (k j : Nat) (r : List V) (v : V), m[k]? = some r → r[j]? = some v → v = if j = k then own else other

/-- the orders of three phases -/
def phaseOrders : List (List OverPhase) := [[.A, .B, .C], [.A, .C, .B], [.B, .A, .C], [.B, .C, .A], [.C, .A, .B], [.C, .B, .A]]

/-- the first column, second or third one -/
def phaseColumn : OverPhase → Nat
  | .A => 0
  | .B => 1
  | .C => 2

/-- does a phase come before another one? -/
def Before (phases : List OverPhase) (p q : OverPhase) : Prop := ∃ (i j : Nat), i < j ∧ phases[i]? = some p ∧ phases[j]? = some q

end Ditto.Cyme.Spec
