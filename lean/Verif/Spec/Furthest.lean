import Verif.Model.Furthest

/-! Trees and distances in them, for C131. -/
namespace Ditto.Furthest.Spec
open Ditto

/-- the edge goes from `a` to `b`, whatever its direction -/
def Joins (e : LenEdge) (a b : String) : Prop := (e.u = a ∧ e.v = b) ∨ (e.u = b ∧ e.v = a)

/-- A tree with the root `s`: edges are between nodes of different depth, and every node but `s` has exactly one edge to a node of smaller depth. -/
structure Tree (nodes : List String) (edges : List LenEdge) (s : String) (depth : String → Nat) : Prop where
  root : s ∈ nodes
  nodup : edges.Nodup
  ends : ∀ e ∈ edges, e.u ∈ nodes ∧ e.v ∈ nodes ∧ depth e.u ≠ depth e.v
  up : ∀ x ∈ nodes, x ≠ s → ∃ e ∈ edges, ∃ y, Joins e x y ∧ depth y < depth x
  unique : ∀ e ∈ edges, ∀ e' ∈ edges, ∀ x y y', Joins e x y → Joins e' x y' → depth y < depth x → depth y' < depth x → e = e'

/-- distances in the tree: every edge adds its length -/
structure Distances (nodes : List String) (edges : List LenEdge) (s : String) (depth : String → Nat) (d : String → ℚ) : Prop where
  root : d s = 0
  step : ∀ e ∈ edges, ∀ x y, Joins e x y → depth x < depth y → d y = d x + e.length

/-- the largest distance of a node, in miles -/
def LargestMiles (nodes : List String) (d : String → ℚ) (m : ℚ) : Prop :=
  ∃ x ∈ nodes, m = d x * (621371 / 1000000000) ∧ ∀ y ∈ nodes, d y ≤ d x

end Ditto.Furthest.Spec
