import Verif.Model.GldTriplex
import Verif.Spec.GldMatrix

/-! What triplex lines of GridLAB-D files say. From the model, only the types of objects, wires and lines and the search in a dictionary
are used. -/
namespace Ditto.Gld.Spec
open Ditto Glm

/-- the attribute of the object is this number -/
def Number (flt : Text → Option ℝ) (o : GldObj) (k : String) (x : ℝ) : Prop := ∃ t, getEntry k.toList o.attrs = some t ∧ flt t = some x

/-- the object has no such attribute -/
def Lacks (o : GldObj) (k : String) : Prop := getEntry k.toList o.attrs = none

/-- the configuration names under `k` a conductor with resistance `r` in ohms per mile and geometric mean radius `g` in feet -/
def Conductor (flt : Text → Option ℝ) (objects : List (Text × GldObj)) (c : GldObj) (k : String) (r g : ℝ) : Prop :=
  ∃ n w, getEntry k.toList c.attrs = some n ∧ getEntry n objects = some w ∧ Number flt w "resistance" r ∧
    Number flt w "geometric_mean_radius" g

/-- the configuration of the line -/
def Configuration (objects : List (Text × GldObj)) (o c : GldObj) : Prop :=
  ∃ n, getEntry "configuration".toList o.attrs = some n ∧ getEntry n objects = some c

/-- some impedance is not given directly -/
def Computed (c : GldObj) : Prop := Lacks c "z11" ∨ Lacks c "z12" ∨ Lacks c "z21" ∨ Lacks c "z22"

/-- a configuration with two live conductors and a neutral, whose diameter and thickness of the insulation are given in inches -/
structure Triplex (flt : Text → Option ℝ) (objects : List (Text × GldObj)) (c : GldObj) (r1 g1 r2 g2 rN gN d t : ℝ) : Prop where
  one : Conductor flt objects c "conductor_1" r1 g1
  two : Conductor flt objects c "conductor_2" r2 g2
  neutral : Conductor flt objects c "conductor_N" rN gN
  diameter : Number flt c "diameter" d
  insulation : Number flt c "insulation_thickness" t
  sizes : 0 < g1 ∧ 0 < g2 ∧ 0 < gN ∧ 0 < d ∧ 0 ≤ t ∧ 0 ≤ r1 ∧ 0 ≤ r2 ∧ 0 ≤ rN

/-- the matrix of three conductors, of which the third is the neutral: `d` is the distance between the live ones and `n` the one to the
neutral, in feet -/
noncomputable def threeConductors (r1 g1 r2 g2 rN gN d n : ℝ) (i j : Nat) : ℂ :=
  if i = j then (if i = 0 then carsonSelf r1 g1 else if i = 1 then carsonSelf r2 g2 else carsonSelf rN gN)
  else if i = 2 ∨ j = 2 then carsonMutual n else carsonMutual d

/-- `k` is the matrix `z` after the third conductor is eliminated: if there is no voltage along this conductor, both give the same voltages
along the other ones, for all currents -/
def EliminatesThird (z k : Nat → Nat → ℂ) : Prop :=
  ∀ (I : Nat → ℂ) (n : ℂ), z 2 0 * I 0 + z 2 1 * I 1 + z 2 2 * n = 0 →
    ∀ i < 2, k i 0 * I 0 + k i 1 * I 1 = z i 0 * I 0 + z i 1 * I 1 + z i 2 * n

end Ditto.Gld.Spec
