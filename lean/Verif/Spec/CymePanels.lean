import Mathlib.Data.Nat.Prime.Defs

/-! Rectangles of panels. -/
namespace Ditto.Cyme.Spec

/-- The rectangle `x` by `y` has as many panels as needed and no other one with as many has a smaller perimeter. -/
def Smallest (n x y : Nat) : Prop := x * y = n ∧ ∀ a b, a * b = n → x + y ≤ a + b

/-- All prime factors of one side are at least as large as those of the other one. -/
def LargeBySmall (x y : Nat) : Prop := ∀ p q, p.Prime → q.Prime → p ∣ x → q ∣ y → q ≤ p

end Ditto.Cyme.Spec
