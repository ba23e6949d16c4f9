import Verif.Model.PhaseLengths
import Verif.Spec.Metrics

/-! Lines and loads by voltage and phases, for C132. -/
namespace Ditto.Metrics
open Ditto

/-- a nominal voltage of at most 1 kV -/
def UpTo1kV (v : Option ℚ) : Prop := ∃ x, v = some x ∧ x ≤ 1000

/-- a nominal voltage of more than 1 kV and at most 69 kV -/
def Above1kV (v : Option ℚ) : Prop := ∃ x, v = some x ∧ 1000 < x ∧ x ≤ 69000

/-- the line has exactly `k` wires with one of the phases A, B and C -/
def WiresOn (k : Nat) (l : MLine) : Prop :=
  ∃ ws, l.wires = some ws ∧ ws.countP (fun w => decide (w.phase = some "A" ∨ w.phase = some "B" ∨ w.phase = some "C")) = k

/-- a load with `k` phase loads and such a voltage -/
def LoadOn (C : Option ℚ → Prop) (k : Nat) (o : MObj) : Prop := ∃ l, o = .load l ∧ C l.voltage ∧ ∃ pls, l.phaseLoads = some pls ∧ pls.length = k

end Ditto.Metrics
