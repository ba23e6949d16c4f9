import Mathlib.Analysis.Real.Sqrt

/-! What the distances in a GridLAB-D line spacing mean. -/
namespace Ditto.Gld.Spec

/-- the distance between two points -/
noncomputable def gap (p q : ℝ × ℝ) : ℝ := Real.sqrt ((p.1 - q.1) ^ 2 + (p.2 - q.2) ^ 2)

/-- the phases and the earth, in the order in which attributes `distance_XY` have their letters -/
def letters : List String := ["A", "B", "C", "N", "E"]

/-- The distances `g` (by their two letters) describe wires with the phases `ws` at the points `P`, where the second coordinate is the
height above the ground: there is a distance for any two wires and, if `earth`, for any wire and the earth, and no other ones. -/
def Describes (g : String → String → Option ℝ) (ws : List String) (earth : Bool) (P : String → ℝ × ℝ) : Prop :=
  ∀ (i j : Nat) (x y : String), i < j → letters[i]? = some x → letters[j]? = some y →
    g x y = if x ∈ ws ∧ y ∈ ws then some (gap (P x) (P y)) else if earth = true ∧ x ∈ ws ∧ y = "E" then some (P x).2 else none

/-- wires with different phases, at different points and over the ground -/
structure Wires (ws : List String) (P : String → ℝ × ℝ) : Prop where
  phases : ∀ x ∈ ws, x ∈ ["A", "B", "C", "N"]
  nodup : ws.Nodup
  apart : ∀ x ∈ ws, ∀ y ∈ ws, x ≠ y → P x ≠ P y
  over : ∀ x ∈ ws, 0 < (P x).2

/-- the height, at the point nearest to `p`, of the line through `a` and `b` -/
noncomputable def footHeight (a b p : ℝ × ℝ) : ℝ :=
  a.2 + ((p.1 - a.1) * (b.1 - a.1) + (p.2 - a.2) * (b.2 - a.2)) / ((b.1 - a.1) ^ 2 + (b.2 - a.2) ^ 2) * (b.2 - a.2)

/-- `f` and `t` are further apart than any other two of the wires -/
def Outermost (ws : List String) (P : String → ℝ × ℝ) (f t : String) : Prop :=
  f ∈ ws ∧ t ∈ ws ∧ f ≠ t ∧
    ∀ x ∈ ws, ∀ y ∈ ws, x ≠ y → ¬(x = f ∧ y = t) → ¬(x = t ∧ y = f) → gap (P x) (P y) < gap (P f) (P t)

/-- points `Q` in meters are, up to a motion or a reflection, the points `P` in feet -/
def SameShape (ws : List String) (P Q : String → ℝ × ℝ) : Prop := ∀ x ∈ ws, ∀ y ∈ ws, gap (Q x) (Q y) = gap (P x) (P y) / 3.28084

/-- a point `Q` in meters is at the height of the point `P` in feet -/
def SameHeight (P Q : String → ℝ × ℝ) (x : String) : Prop := (Q x).2 = (P x).2 / 3.28084

end Ditto.Gld.Spec
