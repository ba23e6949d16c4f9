import Mathlib.Algebra.BigOperators.Group.Finset.Basic
import Mathlib.Algebra.Field.Basic
import Mathlib.Data.Matrix.Mul

/-! What a Kron reduction is: the relation between phase currents and phase voltages when all neutral conductors
are at zero voltage. -/
namespace Ditto.Mat

variable {K : Type} [Field K]

/-- the phase conductors, in increasing order -/
def phaseList (n : Nat) (neutrals : List Nat) : List Nat :=
  (List.range n).filter fun i => !decide (i ∈ neutrals)

/-- the neutral conductors, in increasing order -/
def neutralList (n : Nat) (neutrals : List Nat) : List Nat :=
  (List.range n).filter fun i => decide (i ∈ neutrals)

/-- voltage drop of conductor `i` under the currents `cur` -/
def drop (m : Nat → Nat → K) (n : Nat) (cur : Nat → K) (i : Nat) : K := ∑ j ∈ Finset.range n, m i j * cur j

/-- `M` is the Kron reduction of the `n × n` matrix `m`: under all currents for which the neutral conductors have
no voltage drop, the drops of the phases are given by `M` and the phase currents. -/
def IsKronReduction (m : Nat → Nat → K) (n : Nat) (neutrals : List Nat)
    (p : Nat) (M : Matrix (Fin p) (Fin p) K) : Prop :=
  (phaseList n neutrals).length = p ∧
  ∀ cur : Nat → K, (∀ q ∈ neutralList n neutrals, drop m n cur q = 0) →
    ∀ (r : Fin p) (i : Nat), (phaseList n neutrals)[r.val]? = some i →
      drop m n cur i =
        ∑ c : Fin p, M r c * (((phaseList n neutrals)[c.val]?).elim 0 cur)

end Ditto.Mat
