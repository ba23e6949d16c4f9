import Verif.Model.Carson
import Verif.Spec.Kron

/-! Carson's equations for 60 Hz and a resistivity of the earth of 100 Ωm, as in Kersting's Distribution System Modeling and Analysis. -/
namespace Ditto.Spec
open Ditto Ditto.Carson Ditto.Mat

/-- feet in `x` meters -/
noncomputable def feet (x : ℝ) : ℝ := 3.28084 * x

/-- ohms per mile of `r` ohms per meter -/
noncomputable def perMile (r : ℝ) : ℝ := r / 0.000621371

/-- self impedance in ohms per mile; the resistance `r` is in ohms per mile and the geometric mean radius `g` in feet -/
noncomputable def selfZ (r g : ℝ) : ℂ := ⟨r + 0.0953, 0.12134 * (Real.log (1 / g) + 7.93402)⟩

/-- mutual impedance in ohms per mile; the distance `d` is in feet -/
noncomputable def mutualZ (d : ℝ) : ℂ := ⟨0.0953, 0.12134 * (Real.log (1 / d) + 7.93402)⟩

/-- `m` is the list of the rows of the matrix `f` with `n` rows and columns -/
def IsMatrix {α : Type} (n : Nat) (m : List (List α)) (f : Nat → Nat → α) : Prop :=
  m = (List.range n).map fun i => (List.range n).map fun j => f i j

/-- `dm` gives the distance `d i j` (in meters) of different wires `i` and `j`, and these are positive -/
structure Distances (n : Nat) (dm : List (List (Option ℝ))) (d : Nat → Nat → ℝ) : Prop where
  size : dm.length = n
  rows : ∀ row ∈ dm, row.length = n
  values : ∀ i j row, i ≠ j → j < n → dm[i]? = some row → row[j]? = some (some (d i j))
  pos : ∀ i j, i < n → j < n → i ≠ j → 0 < d i j

/-- a wire whose radius and resistance are known -/
def KnownWire (w : CWire) : Prop := (∃ g, w.gmr = some g ∧ 0 < g) ∧ ∃ r, w.resistance = some r

/-- a cable with a concentric neutral: all values are known, radii are positive, there are strands, and they lie on a circle -/
structure KnownCable (w : CWire) (c : Cable) : Prop where
  gmr : w.gmr = some c.gmr
  resistance : w.resistance = some c.resistance
  neutralGmr : w.neutralGmr = some c.neutralGmr
  strands : w.strands = some c.strands
  neutralDiameter : w.neutralDiameter = some c.neutralDiameter
  outsideDiameter : w.outsideDiameter = some c.outsideDiameter
  neutralResistance : w.neutralResistance = some c.neutralResistance
  gmr_pos : 0 < c.gmr
  neutralGmr_pos : 0 < c.neutralGmr
  strands_pos : 0 < c.strands
  circle : c.neutralDiameter < c.outsideDiameter

/-- radius of the circle on which the strands lie, in feet -/
noncomputable def circleRadius (c : Cable) : ℝ := feet ((c.outsideDiameter - c.neutralDiameter) / 2)

/-- geometric mean radius of the strands of the neutral, in feet -/
noncomputable def neutralRadius (c : Cable) : ℝ :=
  (feet c.neutralGmr * c.strands * circleRadius c ^ (c.strands - 1)) ^ (1 / (c.strands : ℝ))

/-- resistance of the strands of the neutral, in ohms per mile -/
noncomputable def strandResistance (c : Cable) : ℝ := perMile c.neutralResistance / c.strands

/-- The impedances (ohms per mile) between the cables `c 0 … c (n - 1)`, which have the numbers `0 … n - 1`, and their neutrals, which have
the numbers `n … 2 n - 1`. The distance of a cable from its own neutral is the radius of the circle; otherwise distances are those of
the cables. -/
noncomputable def cableZ (n : Nat) (c : Nat → Cable) (d : Nat → Nat → ℝ) (i j : Nat) : ℂ :=
  if i = j then (if i < n then selfZ (perMile (c i).resistance) (feet (c i).gmr) else selfZ (strandResistance (c (i - n))) (neutralRadius (c (i - n))))
  else if i % n = j % n then mutualZ (circleRadius (c (i % n)))
  else mutualZ (feet (d (i % n) (j % n)))

/-- the value, or `x` if there is none -/
def known {α : Type} (x : α) : Option α → Option α
  | some y => some y
  | none => some x

/-- A cable whose missing values are replaced by those of a 4/0 aluminium wire of 13.26 mm with 32 strands of 1 mm. -/
noncomputable def filled (w : CWire) : CWire where
  gmr := known 0.005163444 w.gmr
  resistance := known 0.000269 w.resistance
  neutralGmr := known 0.0003894 w.neutralGmr
  strands := known 32 w.strands
  neutralDiameter := known 0.001 w.neutralDiameter
  outsideDiameter := known 0.02593 w.outsideDiameter
  neutralResistance := known 0.000269 w.neutralResistance

end Ditto.Spec
