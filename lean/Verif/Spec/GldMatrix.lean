import Verif.Spec.GldSpacing
import Mathlib.Analysis.Complex.Basic
import Mathlib.Analysis.SpecialFunctions.Log.Basic

/-! Carson's equations for 60 Hz and a resistivity of the earth of 100 Ωm in the form that GridLAB-D uses, and the elimination of a
neutral. -/
namespace Ditto.Gld.Spec

/-- self impedance in ohms per mile; the resistance `r` is in ohms per mile and the geometric mean radius `g` in feet -/
noncomputable def carsonSelf (r g : ℝ) : ℂ :=
  ⟨r + 0.00158836 * 60, 0.00202237 * 60 * (Real.log (1 / g) + 7.6786 + 0.5 * Real.log (100 / 60))⟩

/-- mutual impedance in ohms per mile; the distance `d` is in feet -/
noncomputable def carsonMutual (d : ℝ) : ℂ :=
  ⟨0.00158836 * 60, 0.00202237 * 60 * (Real.log (1 / d) + 7.6786 + 0.5 * Real.log (100 / 60))⟩

/-- ohms per meter of ohms per mile -/
noncomputable def perMeter (z : ℂ) : ℂ := z / 1609.34

/-- the list of the rows of the matrix `f` with `n` rows and columns -/
def rows (n : Nat) (f : Nat → Nat → ℂ) : List (List ℂ) := (List.range n).map fun i => (List.range n).map fun j => f i j

/-- `k` is the matrix `z` without its last row and column, after the fourth conductor is eliminated: if there is no voltage along this
conductor, both give the same voltages along the other ones, for all currents -/
def Eliminates (z k : Nat → Nat → ℂ) : Prop :=
  ∀ (I : Nat → ℂ) (n : ℂ), z 3 0 * I 0 + z 3 1 * I 1 + z 3 2 * I 2 + z 3 3 * n = 0 →
    ∀ i < 3, k i 0 * I 0 + k i 1 * I 1 + k i 2 * I 2 = z i 0 * I 0 + z i 1 * I 1 + z i 2 * I 2 + z i 3 * n

end Ditto.Gld.Spec
