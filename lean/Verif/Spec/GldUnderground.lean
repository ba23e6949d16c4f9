import Verif.Model.GldUnderground
import Verif.Spec.GldTriplex

/-! What underground lines of GridLAB-D files say. From the model, only the types of objects, wires and lines and the search in a dictionary
are used. -/
namespace Ditto.Gld.Spec
open Ditto Glm

/-- the phases for which `has` is true, in the order of the letters -/
def phasesOf (has : String → Bool) : List String := ["A", "B", "C", "N"].filter has

/-- a value that may be missing -/
def MaybeNumber (flt : Text → Option ℝ) (o : GldObj) (k : String) (v : Option ℝ) : Prop :=
  (Lacks o k ∧ v = none) ∨ ∃ x, Number flt o k x ∧ v = some x

/-- the values of a conductor of underground lines: resistances in ohms per mile and geometric mean radii in feet, of the conductor and of the
neutral around it -/
structure CableIs (flt : Text → Option ℝ) (w : GldObj) (r g : ℝ) (nr ng : Option ℝ) : Prop where
  resistance : Number flt w "conductor_resistance" r
  radius : Number flt w "conductor_gmr" g
  neutralResistance : MaybeNumber flt w "neutral_resistance" nr
  neutralRadius : MaybeNumber flt w "neutral_gmr" ng

/-- the configuration has conductors with these values for the phases of `has`, and no others -/
structure CablesAre (flt : Text → Option ℝ) (objects : List (Text × GldObj)) (c : GldObj) (has : String → Bool) (R G : String → ℝ)
    (NR NG : String → Option ℝ) : Prop where
  given : ∀ x ∈ ["A", "B", "C", "N"], has x = true →
    ∃ n w, getEntry ("conductor_" ++ x).toList c.attrs = some n ∧ getEntry n objects = some w ∧ CableIs flt w (R x) (G x) (NR x) (NG x)
  others : ∀ x ∈ ["A", "B", "C", "N"], has x = false → Lacks c ("conductor_" ++ x)
  positive : ∀ x, 0 < G x

/-- the spacing of the configuration has the distances in feet between all of these cables, which are at different points `P`, and no others -/
structure SpacingIs (flt : Text → Option ℝ) (objects : List (Text × GldObj)) (c : GldObj) (has : String → Bool) (P : String → ℝ × ℝ) : Prop where
  spacing : ∃ n sp, getEntry "spacing".toList c.attrs = some n ∧ getEntry n objects = some sp ∧
    ∀ x y, (x, y) ∈ [("A", "B"), ("A", "C"), ("A", "N"), ("B", "C"), ("B", "N"), ("C", "N")] →
      (has x = true ∧ has y = true → Number flt sp ("distance_" ++ x ++ y) (gap (P x) (P y))) ∧
      (¬(has x = true ∧ has y = true) → Lacks sp ("distance_" ++ x ++ y))
  apart : ∀ x ∈ phasesOf has, ∀ y ∈ phasesOf has, x ≠ y → P x ≠ P y

/-- some impedance is not given directly -/
def NotDirect (c : GldObj) : Prop := ∃ k ∈ ["z11", "z12", "z13", "z21", "z22", "z23", "z31", "z32", "z33"], Lacks c k

/-- points `Q` are, up to a motion or a reflection, the points `P`, both in the same unit -/
def Congruent (ws : List String) (P Q : String → ℝ × ℝ) : Prop := ∀ x ∈ ws, ∀ y ∈ ws, gap (Q x) (Q y) = gap (P x) (P y)

/-- the wires have these phases and are at the points `Q` -/
def At (ws : List UWire) (phases : List String) (Q : String → ℝ × ℝ) : Prop :=
  List.Forall₂ (fun w p => w.phase = some p ∧ w.x = some (Q p).1 ∧ w.y = some (Q p).2) ws phases

/-- `z` is the matrix of Carson's equations in ohms per mile for the conductors of these phases at the points `P` in feet, with the rows and columns
of the phases A, B, C and of the neutral. Phases that do not occur have zeros. -/
def IsCarson (phases : List String) (R G : String → ℝ) (P : String → ℝ × ℝ) (z : Nat → Nat → ℂ) : Prop :=
  ∀ (i j : Nat) (x y : String), ["A", "B", "C", "N"][i]? = some x → ["A", "B", "C", "N"][j]? = some y →
    z i j = if x ∈ phases ∧ y ∈ phases then (if i = j then carsonSelf (R x) (G x) else carsonMutual (gap (P x) (P y))) else 0

/-- `m` is the matrix of Carson's equations in ohms per meter, with the neutral eliminated if there is one -/
def LineMatrix (phases : List String) (R G : String → ℝ) (P : String → ℝ × ℝ) (m : List (List ℂ)) : Prop :=
  ∃ z, IsCarson phases R G P z ∧ ("N" ∉ phases → m = rows 3 fun i j => perMeter (z i j)) ∧
    ("N" ∈ phases → ∃ k, Eliminates z k ∧ m = rows 3 fun i j => perMeter (k i j))

/-- the wires have these phases, with radii in meters and resistances in ohms per meter -/
def ValuesAre (ws : List UWire) (phases : List String) (R G : String → ℝ) (NR NG : String → Option ℝ) : Prop :=
  List.Forall₂ (fun w p => w.phase = some p ∧ w.resistance = some (R p / 1609.34) ∧ w.gmr = some (G p / 3.28084) ∧
    w.neutralResistance = (NR p).map (· / 1609.34) ∧ w.neutralGmr = (NG p).map (· / 3.28084)) ws phases

/-- twice the area of the triangle with these corners -/
noncomputable def twiceArea (a b c : ℝ × ℝ) : ℝ := |(b.1 - a.1) * (c.2 - a.2) - (b.2 - a.2) * (c.1 - a.1)|

end Ditto.Gld.Spec
