import Verif.Model.PathLines

/-! Which lines are on a path, for C130. -/
namespace Ditto.PathLines.Spec
open Ditto

/-- the line is between the nodes, in either direction -/
def Between (l : MapLine) (a b : String) : Prop := (l.fromEl = some a ∧ l.toEl = some b) ∨ (l.fromEl = some b ∧ l.toEl = some a)

/-- `names` are the names of lines between the nodes of the path, one for every two consecutive nodes with a line between them -/
inductive Along (lines : List MapLine) : List String → List (Option String) → Prop
  | nil : Along lines [] []
  | single (a : String) : Along lines [a] []
  | line {a b : String} {path : List String} {names : List (Option String)} {l : MapLine} :
      l ∈ lines → Between l a b → Along lines (b :: path) names → Along lines (a :: b :: path) (l.name :: names)
  | other {a b : String} {path : List String} {names : List (Option String)} :
      (∀ l ∈ lines, ¬ Between l a b) → Along lines (b :: path) names → Along lines (a :: b :: path) names

/-- no two lines with different names between the same nodes -/
def NoParallel (lines : List MapLine) : Prop := ∀ l ∈ lines, ∀ l' ∈ lines, ∀ a b, Between l a b → Between l' a b → l.name = l'.name

/-- the impedance of a line: that of its only phase, or the positive sequence -/
def ImpedanceOf {N : Type} (positive : List (List N) → N) (z : List (List N)) (x : N) : Prop :=
  z = [[x]] ∨ (z ≠ [] ∧ (∀ y, z ≠ [[y]]) ∧ x = positive z)

end Ditto.PathLines.Spec
