import Mathlib.Data.Rat.Floor
import Mathlib.Algebra.Order.Field.Rat

/-! The panels of photovoltaic systems in the CYME writer: `smallest_perimeter` and its calls in ditto/writers/cyme/write.py. The floating point numbers are
exact here. -/
namespace Ditto.Cyme

/-- the prime factors, smallest first: ditto/writers/cyme/write.py:81-90. The test that `i` is at least 2, which it is from the start, is here for
termination. -/
def factorLoop (n i : Nat) : List Nat :=
  if 2 ≤ i ∧ i * i ≤ n then
    if n % i = 0 then i :: factorLoop (n / i) i else factorLoop n (i + 1)
  else if 1 < n then [n] else []
termination_by 2 * n - i
decreasing_by
  · rename_i h _
    have h2 : i ≤ n := Nat.le_trans (Nat.le_mul_of_pos_left i (by omega)) h.2
    have h1 : n / i < n := Nat.div_lt_self (by omega) h.1
    omega
  · rename_i h _
    have h2 : i ≤ n := Nat.le_trans (Nat.le_mul_of_pos_left i (by omega)) h.2
    omega

/-- `x > bst`, where `bst` is infinite at first: ditto/writers/cyme/write.py:93, 96 -/
def exceeds (x : ℚ) : Option ℚ → Bool
  | none => false
  | some best => decide (best < x)

/-- ditto/writers/cyme/write.py:91-100, for the factors that are left -/
def greedySide (n : ℚ) : List Nat → ℚ → Option ℚ → ℚ
  | [], res, _ => res
  | f :: fs, res, best =>
    if exceeds (res * f + n / (res * f)) best then res else greedySide n fs (res * f) (some (res * f + n / (res * f)))

/-- `smallest_perimeter`: ditto/writers/cyme/write.py:77-101. `factors[-1 * cnt]` for `cnt` from 1 on and below the length are all factors but the first
one, backwards. -/
def smallestPerimeter (n : ℤ) : ℚ × ℚ :=
  let res := greedySide n (factorLoop n.toNat 2).tail.reverse 1 none
  (res, n / res)

/-- ditto/writers/cyme/write.py:2102-2106, 2114-2118 -/
def panelSides (area : ℤ) : ℚ × ℚ :=
  let s := smallestPerimeter area
  if min s.1 s.2 = 1 then smallestPerimeter (area + 1) else s

/-- The numbers of panels of a photovoltaic system, none if the cells are empty: ditto/writers/cyme/write.py:2098-2123. -/
def pvPanels (rated active : Option ℚ) : Option (ℚ × ℚ) :=
  match rated with
  | some p => some (panelSides ⌈p / 1000 / (8 / 100)⌉)
  | none =>
    match active with
    | some p => some (panelSides ⌈p / (11 / 10) / 1000 / (8 / 100)⌉)
    | none => none

end Ditto.Cyme
